import Verif.Lemmas.Msg
/-
C47: P2P message payloads round-trip.
-/
namespace Verif.Props.Msg
open Verif.Bio Verif.Msg Verif.Spec.Msg
open Verif.Addr (Netaddr readNetaddr writeNetaddr)

theorem flatten_length (l : List Bytes) (k : Nat) (h : ∀ x ∈ l, x.length = k) : l.flatten.length = k * l.length := by
  induction l with
  | nil => simp
  | cons x l ih =>
    rw [List.flatten_cons, List.length_append, h x List.mem_cons_self, ih fun y hy => h y (List.mem_cons_of_mem _ hy),
      List.length_cons, Nat.mul_succ, Nat.add_comm]

/-- C47: every well-formed message this node writes is read back unchanged, and nothing
after it is consumed. -/
theorem C47_round_trip (m : Msg) (hf : Fits m) (hw : Written m) :
    ∃ b, writeMsg m = .ok b ∧ ∀ rest, readMsg m.cmd (b ++ rest) = .ok (m, rest) := by
  cases m with
  | version v =>
    obtain ⟨h1, h2, h3, h4, h5, h6, h7, h8⟩ := hf
    refine ⟨writeVersion v, by rw [writeMsg, if_pos (by omega)], fun rest => ?_⟩
    simp only [Msg.cmd, readMsg, readVersion, writeVersion, writeU32, writeU64, writeU8, List.append_assoc]
    rw [readU32_append h1]; simp only [Out.bind_ok]
    rw [readU64_append h2]; simp only [Out.bind_ok]
    rw [readU64_append h3]; simp only [Out.bind_ok]
    rw [(Addr.C40_wire_round_trip v.remote h4 _).1]; simp only [Out.bind_ok]
    rw [readU64_append h5]; simp only [Out.bind_ok]
    rw [readU8_append (by omega)]; simp only [Out.bind_ok]
    rw [(readAscii_eq_ok (by omega)).2 ⟨rfl, rfl, h7⟩]; simp only [Out.bind_ok]
    rw [readU32_append h8]; simp only [Out.bind_ok]
    rw [readU8_append (by split <;> omega)]; simp only [Out.bind_ok, Out.pure_eq]
    obtain ⟨_, _, _, _, _, _, _, nr⟩ := v
    cases nr <;> rfl
  | verack => exact ⟨[], rfl, fun _ => rfl⟩
  | ping n =>
    refine ⟨_, rfl, fun rest => ?_⟩
    simp only [Msg.cmd, readMsg, writeU64]
    rw [readU64_append hf]; rfl
  | pong n =>
    refine ⟨_, rfl, fun rest => ?_⟩
    simp only [Msg.cmd, readMsg, writeU64]
    rw [readU64_append hf]; rfl
  | getaddr => exact ⟨[], rfl, fun _ => rfl⟩
  | addr l =>
    obtain ⟨h1, h2⟩ := hf
    refine ⟨_, by rw [writeMsg, if_pos h1], fun rest => ?_⟩
    simp only [Msg.cmd, readMsg, readAddr, List.append_assoc]
    rw [readVarsize_write (by omega)]; simp only [Out.bind_ok]
    rw [if_neg (by omega), readMany_write readNetaddr writeNetaddr 1000 l (fun x hx r => (Addr.C40_wire_round_trip x (h2 x hx) r).1) 0
      (by omega)]
    rfl
  | getheaders l stop =>
    obtain ⟨h1, h2, h3⟩ := hf
    refine ⟨_, by rw [writeMsg, if_pos h1], fun rest => ?_⟩
    simp only [Msg.cmd, readMsg, readGetheaders, List.append_assoc]
    rw [readVarsize_write (by omega)]; simp only [Out.bind_ok]
    have := readMany_write (readBytes 32) id 64 l (fun x hx r => readBytes_append' (h2 x hx)) 0 (by omega) (stop ++ rest)
    rw [List.map_id] at this
    rw [if_neg (by omega), this]; simp only [Out.bind_ok]
    rw [readBytes_append' h3]; rfl
  | headers n l =>
    obtain ⟨rfl, h1, h2⟩ := hf
    refine ⟨_, rfl, fun rest => ?_⟩
    simp only [Msg.cmd, readMsg, readHeaders, List.append_assoc]
    rw [readVarsize_write (by omega)]; simp only [Out.bind_ok]
    rw [if_neg (by omega), readHdrs_eq _ 0 2000 (by omega),
      readMany_write Header.read Header.write 2000 l (fun x hx r => Header.read_eq_ok.2 ⟨rfl, h2 x hx⟩) 0 (by omega)]
    rfl
  | sendheaders => exact ⟨[], rfl, fun _ => rfl⟩
  | getproof root key =>
    refine ⟨_, rfl, fun rest => ?_⟩
    simp only [Msg.cmd, readMsg, readGetproof, List.append_assoc]
    rw [readBytes_append' hf.1]; simp only [Out.bind_ok]
    rw [readBytes_append' hf.2]; rfl
  | proof root key p => exact absurd hw id

/-- C47: whatever bytes are read, the message has the requested command, its fields fit,
and what is left over is the end of the input. -/
theorem C47_read_fits (cmd : Nat) (s r : Bytes) (m : Msg) (h : readMsg cmd s = .ok (m, r)) :
    m.cmd = cmd ∧ Fits m ∧ ∃ p, s = p ++ r := by
  unfold readMsg at h
  split at h
  · obtain ⟨⟨v, t⟩, h1, h2⟩ := Out.bind_eq_ok.1 h
    simp only [Out.pure_eq, Out.ok.injEq, Prod.mk.injEq] at h2
    obtain ⟨rfl, rfl⟩ := h2
    simp only [readVersion, Out.bind_eq_ok, Out.pure_eq, Out.ok.injEq, Prod.exists, Prod.mk.injEq] at h1
    obtain ⟨x1, s1, e1, x2, s2, e2, x3, s3, e3, x4, s4, e4, x5, s5, e5, x6, s6, e6, x7, s7, e7, x8, s8, e8, x9, s9, e9, rfl, rfl⟩ := h1
    obtain ⟨rfl, b1⟩ := readU32_eq_ok.1 e1
    obtain ⟨rfl, b2⟩ := readU64_eq_ok.1 e2
    obtain ⟨rfl, b3⟩ := readU64_eq_ok.1 e3
    obtain ⟨b4, u, _, rfl, _⟩ := Addr.C40_wire_read _ _ _ e4
    obtain ⟨rfl, b5⟩ := readU64_eq_ok.1 e5
    obtain ⟨rfl, b6⟩ := readU8_eq_ok.1 e6
    obtain ⟨rfl, b7, b7'⟩ := (readAscii_eq_ok b6).1 e7
    obtain ⟨rfl, b8⟩ := readU32_eq_ok.1 e8
    obtain ⟨rfl, b9⟩ := readU8_eq_ok.1 e9
    refine ⟨rfl, ⟨b1, b2, b3, b4, b5, by simp only; omega, b7', b8⟩, ?_⟩
    simp only [← List.append_assoc]
    exact ⟨_, rfl⟩
  · cases h; exact ⟨rfl, trivial, [], rfl⟩
  · obtain ⟨⟨v, t⟩, h1, h2⟩ := Out.bind_eq_ok.1 h
    cases h2
    obtain ⟨rfl, b1⟩ := readU64_eq_ok.1 h1
    exact ⟨rfl, b1, _, rfl⟩
  · obtain ⟨⟨v, t⟩, h1, h2⟩ := Out.bind_eq_ok.1 h
    cases h2
    obtain ⟨rfl, b1⟩ := readU64_eq_ok.1 h1
    exact ⟨rfl, b1, _, rfl⟩
  · cases h; exact ⟨rfl, trivial, [], rfl⟩
  · obtain ⟨⟨v, t⟩, h1, h2⟩ := Out.bind_eq_ok.1 h
    cases h2
    simp only [readAddr, Out.bind_eq_ok, Prod.exists] at h1
    obtain ⟨n, s1, e1, e2⟩ := h1
    have := readVarsize_ok e1
    subst this
    split at e2
    · cases e2
    · obtain ⟨a, b, p, hp⟩ := readMany_ok readNetaddr Addr.Fits (fun s x r hx => by
        obtain ⟨b4, u, _, rfl, _⟩ := Addr.C40_wire_read _ _ _ hx
        exact ⟨b4, _, rfl⟩) _ _ _ _ _ _ e2
      exact ⟨rfl, ⟨by omega, b⟩, _, by rw [hp, ← List.append_assoc]⟩
  · obtain ⟨⟨v, t⟩, h1, h2⟩ := Out.bind_eq_ok.1 h
    cases h2
    simp only [readGetheaders, Out.bind_eq_ok, Prod.exists] at h1
    obtain ⟨n, s1, e1, e2⟩ := h1
    have := readVarsize_ok e1
    subst this
    split at e2
    · cases e2
    · simp only [Out.bind_eq_ok, Prod.exists] at e2
      obtain ⟨l, s2, e2, st, s3, e3, e4⟩ := e2
      cases e4
      obtain ⟨a, b, p, hp⟩ := readMany_ok (readBytes 32) (fun x => x.length = 32) (fun s x r hx => by
        obtain ⟨rfl, h⟩ := readBytes_eq_ok.1 hx
        exact ⟨h, _, rfl⟩) _ _ _ _ _ _ e2
      obtain ⟨rfl, h⟩ := readBytes_eq_ok.1 e3
      exact ⟨rfl, ⟨by simp only; omega, b, h⟩, _, by rw [hp, ← List.append_assoc, ← List.append_assoc]⟩
  · obtain ⟨⟨v, t⟩, h1, h2⟩ := Out.bind_eq_ok.1 h
    cases h2
    simp only [readHeaders, Out.bind_eq_ok, Prod.exists] at h1
    obtain ⟨n, s1, e1, e2⟩ := h1
    have := readVarsize_ok e1
    subst this
    split at e2
    · cases e2
    · simp only [Out.bind_eq_ok, Prod.exists] at e2
      obtain ⟨l, s2, e2, e4⟩ := e2
      cases e4
      rw [readHdrs_eq _ 0 2000 (by omega)] at e2
      obtain ⟨a, b, p, hp⟩ := readMany_ok Header.read Header.WF (fun s x r hx => by
        obtain ⟨rfl, h⟩ := Header.read_eq_ok.1 hx
        exact ⟨h, _, rfl⟩) _ _ _ _ _ _ e2
      exact ⟨rfl, ⟨a.symm, by simp only; omega, b⟩, _, by rw [hp, ← List.append_assoc]⟩
  · cases h; exact ⟨rfl, trivial, [], rfl⟩
  · obtain ⟨⟨v, t⟩, h1, h2⟩ := Out.bind_eq_ok.1 h
    cases h2
    simp only [readGetproof, Out.bind_eq_ok, Prod.exists, readBytes_eq_ok] at h1
    obtain ⟨a, s1, ⟨rfl, ha⟩, b, s2, ⟨rfl, hb⟩, e⟩ := h1
    cases e
    exact ⟨rfl, ⟨ha, hb⟩, a ++ b, by simp⟩
  · obtain ⟨⟨v, t⟩, h1, h2⟩ := Out.bind_eq_ok.1 h
    cases h2
    simp only [readProof, Out.bind_eq_ok, Prod.exists, readBytes_eq_ok] at h1
    obtain ⟨a, s1, ⟨rfl, ha⟩, b, s2, ⟨rfl, hb⟩, p, s3, e3, e⟩ := h1
    cases e
    obtain ⟨q, rfl⟩ := proof_prefix e3
    exact ⟨rfl, ⟨ha, hb, _, _, e3⟩, a ++ b ++ q, by simp⟩
  · cases h

/-- C47 (what holds of memory safety): reading a payload touches nothing outside it and
outside the fixed arrays, except that the empty payload of `addr`, `getheaders` and
`headers` is read past its end. Missing: those three. -/
theorem C47_safe_partial (cmd : Nat) (s : Bytes) :
    readMsg cmd s = .ub ↔ s = [] ∧ (cmd = 5 ∨ cmd = 10 ∨ cmd = 11) := by
  constructor
  · intro h
    by_cases hs : s = [] ∧ (cmd = 5 ∨ cmd = 10 ∨ cmd = 11)
    · exact hs
    · exfalso
      revert h
      have hv : (cmd = 5 ∨ cmd = 10 ∨ cmd = 11) → readVarsize s ≠ .ub := fun hc =>
        (Bio.C48_read_safe_partial s (fun h => hs ⟨h, hc⟩)).2
      unfold readMsg
      split
      · refine Out.bind_ne_ub ?_ (fun _ _ => by simp)
        unfold readVersion
        refine Out.bind_ne_ub (by simp) (fun _ _ => ?_)
        refine Out.bind_ne_ub (by simp) (fun _ _ => ?_)
        refine Out.bind_ne_ub (by simp) (fun _ _ => ?_)
        refine Out.bind_ne_ub (readNetaddr_ne_ub _) (fun _ _ => ?_)
        refine Out.bind_ne_ub (by simp) (fun _ _ => ?_)
        refine Out.bind_ne_ub (by simp) (fun a ha => ?_)
        refine Out.bind_ne_ub (readAscii_ne_ub (readU8_eq_ok.1 ha).2) (fun _ _ => ?_)
        refine Out.bind_ne_ub (by simp) (fun _ _ => ?_)
        refine Out.bind_ne_ub (by simp) (fun _ _ => ?_)
        simp
      · simp
      · exact Out.bind_ne_ub (by simp) (fun _ _ => by simp)
      · exact Out.bind_ne_ub (by simp) (fun _ _ => by simp)
      · simp
      · refine Out.bind_ne_ub ?_ (fun _ _ => by simp)
        unfold readAddr
        refine Out.bind_ne_ub (hv (by simp)) (fun a _ => ?_)
        dsimp only
        split
        · simp
        · exact readMany_ne_ub _ _ readNetaddr_ne_ub _ _ (by omega) _
      · refine Out.bind_ne_ub ?_ (fun _ _ => by simp)
        unfold readGetheaders
        refine Out.bind_ne_ub (hv (by simp)) (fun a _ => ?_)
        dsimp only
        split
        · simp
        · refine Out.bind_ne_ub (readMany_ne_ub _ _ (by simp) _ _ (by omega) _) (fun _ _ => ?_)
          exact Out.bind_ne_ub (by simp) (fun _ _ => by simp)
      · refine Out.bind_ne_ub ?_ (fun _ _ => by simp)
        unfold readHeaders
        refine Out.bind_ne_ub (hv (by simp)) (fun a _ => ?_)
        dsimp only
        split
        · simp
        · rw [readHdrs_eq _ 0 2000 (by omega)]
          exact Out.bind_ne_ub (readMany_ne_ub _ _ Header.read_ne_ub _ _ (by omega) _) (fun _ _ => by simp)
      · simp
      · refine Out.bind_ne_ub ?_ (fun _ _ => by simp)
        unfold readGetproof
        refine Out.bind_ne_ub (by simp) (fun _ _ => ?_)
        exact Out.bind_ne_ub (by simp) (fun _ _ => by simp)
      · refine Out.bind_ne_ub ?_ (fun _ _ => by simp)
        unfold readProof
        refine Out.bind_ne_ub (by simp) (fun _ _ => ?_)
        refine Out.bind_ne_ub (by simp) (fun _ _ => ?_)
        exact Out.bind_ne_ub (Proof.C04_decode_safe _) (fun _ _ => by simp)
      · simp
  · rintro ⟨rfl, rfl | rfl | rfl⟩ <;> rfl

/-- C47: "reading any byte string stays within the input" is false of the code: an empty
`headers` payload, which any peer can send, is read past its end. -/
theorem C47_empty_payload_false : ¬ ∀ cmd s, readMsg cmd s ≠ .ub := fun h => h 11 [] rfl

/-- C47 (what holds of the announced size): it is the number of bytes written for every
message except lists of 253 or more items. -/
theorem C47_size_partial (m : Msg) (hf : Fits m) (b : Bytes) (hb : writeMsg m = .ok b) :
    size m = b.length ↔ match m with
      | .addr l => l.length < 253
      | .headers _ l => l.length < 253
      | _ => True := by
  cases m with
  | version v =>
    obtain ⟨_, _, _, h4, _, h6, _⟩ := hf
    rw [writeMsg, if_pos (by omega)] at hb
    cases hb
    simp only [iff_true, size, writeVersion, List.length_append, writeU32, writeU64, writeU8, leBytes_length,
      (Addr.C40_wire_round_trip v.remote h4 []).2]
  | addr l =>
    obtain ⟨h1, h2⟩ := hf
    rw [writeMsg, if_pos h1] at hb
    cases hb
    have := flatten_length (l.map writeNetaddr) 88 (by
      intro x hx
      obtain ⟨a, ha, rfl⟩ := List.mem_map.1 hx
      exact (Addr.C40_wire_round_trip a (h2 a ha) []).2)
    rw [List.length_map] at this
    have hs := Bio.C48_size_partial l.length (by omega)
    simp only [size, List.length_append, this]
    omega
  | getheaders l stop =>
    obtain ⟨h1, h2, h3⟩ := hf
    rw [writeMsg, if_pos h1] at hb
    cases hb
    have := flatten_length l 32 h2
    have hs := (Bio.C48_size_partial l.length (by omega)).2 (by omega)
    simp only [size, List.length_append, this, h3, iff_true]
    omega
  | headers n l =>
    obtain ⟨rfl, h1, h2⟩ := hf
    cases hb
    have := flatten_length (l.map Header.write) 236 (by
      intro x hx
      obtain ⟨a, ha, rfl⟩ := List.mem_map.1 hx
      exact Header.write_length (h2 a ha))
    rw [List.length_map] at this
    have hs := Bio.C48_size_partial l.length (by omega)
    simp only [size, List.length_append, this]
    omega
  | getproof root key =>
    cases hb
    simp [size, hf.1, hf.2]
  | proof root key p =>
    cases hb
    simp [size, hf.1, hf.2.1]
  | _ => cases hb; simp [size, writeU64]

/-- C47: the announced size of a list of 253 addresses is too small, so a buffer of that
size would be overrun. (This node announces lists of at most 64 items.) -/
theorem C47_size_false : ∃ m b, Fits m ∧ writeMsg m = .ok b ∧ size m < b.length := by
  let na : Netaddr := ⟨0, 0, ⟨0, List.replicate 36 0, 0, List.replicate 33 0⟩⟩
  have hna : Addr.Fits na := by
    refine ⟨by decide, by decide, ⟨by decide, by decide, by decide, by decide⟩, by decide⟩
  have hf : Fits (.addr (List.replicate 253 na)) :=
    ⟨by rw [List.length_replicate]; omega, fun a ha => by rw [List.eq_of_mem_replicate ha]; exact hna⟩
  refine ⟨.addr (List.replicate 253 na), _, hf, by rw [writeMsg, if_pos hf.1], ?_⟩
  have := flatten_length ((List.replicate 253 na).map writeNetaddr) 88 (by
    intro x hx
    obtain ⟨a, ha, rfl⟩ := List.mem_map.1 hx
    exact (Addr.C40_wire_round_trip a (hf.2 a ha) []).2)
  simp only [List.length_map, List.length_replicate] at this
  simp only [size, List.length_append, List.length_replicate, this]
  have : sizeVarint 253 = 1 := by decide
  have : (writeVarint 253).length = 3 := by decide
  omega

example : ∃ m, Fits m ∧ Written m ∧ m.cmd = 10 ∧ ∃ l s, m = .getheaders l s ∧ l.length = 2 :=
  ⟨.getheaders [List.replicate 32 1, List.replicate 32 2] (List.replicate 32 0), ⟨by decide, by decide, by decide⟩, trivial, rfl, _, _, rfl, rfl⟩

example : Fits (.version ⟨1, 1, 5, ⟨0, 0, ⟨0, List.replicate 36 0, 0, List.replicate 33 0⟩⟩, 7, [0x2f, 0x68, 0x6e, 0x73, 0x64], 3, true⟩) :=
  ⟨by decide, by decide, by decide, ⟨by decide, by decide, ⟨by decide, by decide, by decide, by decide⟩, by decide⟩, by decide, by decide,
    by unfold Text; decide, by decide⟩

end Verif.Props.Msg

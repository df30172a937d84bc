import Verif.Lemmas.Ns
import Verif.Props.Req
import Verif.Spec.Rs
/-
Packets of the recursive server.
-/
namespace Verif.Rs
open Verif.Dns Verif.Req Verif.Resource Verif.Bio
open Verif.Ns (servfail_answer answer_mk)
open Verif.Spec.Dns Verif.Spec.Req Verif.Spec.Ns Verif.Spec.Rs

theorem encode_head {m : Msg} {b : Bytes} (h : Dns.encode m = .ok b) : 12 ≤ b.length ∧ b.take 4 = writeU16be m.id ++ writeU16be (wireFlags m) := by
  unfold Dns.encode at h
  obtain ⟨n, -, h⟩ := Out.bind_eq_ok.1 h
  obtain ⟨x, hx, h⟩ := Out.bind_eq_ok.1 h
  obtain ⟨s, hs, h⟩ := Out.bind_eq_ok.1 h
  cases Out.ok.inj h
  unfold wMsg at hx
  unfold wSeq at hx
  obtain ⟨a, ha, hx⟩ := Out.bind_eq_ok.1 hx
  obtain ⟨c, -, hx⟩ := Out.bind_eq_ok.1 hx
  cases Out.ok.inj hx
  unfold wBytes at ha
  dsimp only at ha
  split at ha
  · cases Out.ok.inj ha
    unfold memSlice at hs
    dsimp only at hs
    split at hs
    · rename_i hle
      cases Out.ok.inj hs
      have hl := header_length m
      have h4 : (header m).take 4 = writeU16be m.id ++ writeU16be (wireFlags m) := by
        unfold header
        simp [writeU16be, beBytes_length, List.take_append, List.take_of_length_le]
      rw [List.length_append] at hle
      constructor
      · rw [List.drop_zero, List.length_take, List.length_append]; omega
      · rw [List.drop_zero, List.take_take, hl, Nat.min_eq_left (by omega), List.take_append_of_le_length (by omega), h4]
    · cases hs
  · cases ha

theorem truncate_head {b w : Bytes} {max : Nat} (h : truncate b max = .ok w) : 12 ≤ b.length ∧ w.take 4 = b.take 4 ∧ 12 ≤ w.length := by
  have h1 : 12 ≤ b.length := by
    unfold truncate at h
    split at h
    · cases h
    · omega
  refine ⟨h1, ?_⟩
  by_cases hl : max < b.length
  · obtain ⟨n0, n1, n2, n3, c0, c1, c2, c3, e, -, e2, e3, -⟩ := Props.Dns.C26_packet b max w hl h
    rw [e2]
    constructor
    · rw [List.append_assoc, List.take_append_of_le_length (by simp; omega), List.take_take]
      rfl
    · simp [Props.Dns.counts, writeU16be, beBytes_length]; omega
  · have hm : ¬ max < 12 := by
      intro hm
      omega
    unfold truncate at h
    rw [if_neg (by omega), if_neg hm, if_pos (by omega)] at h
    cases Out.ok.inj h
    exact ⟨rfl, h1⟩

theorem hasSig_len {w : Bytes} (h : Sig0.hasSig w = .ok true) : 106 ≤ w.length := by
  unfold Sig0.hasSig at h
  split at h
  · cases Out.ok.inj h
  · omega

theorem sign_head {H : Bytes → Bytes} {signer : Bytes → Option Bytes} {now : Int} {w o : Bytes} (h : Sig0.sign H signer now w = .ok (some o)) :
    o.take 4 = w.take 4 := by
  unfold Sig0.sign at h
  split at h
  · cases Out.ok.inj h
  · rename_i hl
    obtain ⟨ar, -, h⟩ := Out.bind_eq_ok.1 h
    obtain ⟨has, hh, h⟩ := Out.bind_eq_ok.1 h
    obtain ⟨p, -, h⟩ := Out.bind_eq_ok.1 h
    have key : ∀ x : Bytes, 12 ≤ x.length → ∀ y z : Bytes, ((x.take 10 ++ y ++ x.drop 12) ++ z).take 4 = x.take 4 := fun x hx y z => by
      rw [List.append_assoc, List.append_assoc, List.take_append_of_le_length (by simp; omega), List.take_take]
      rfl
    have hs : 12 ≤ (Sig0.strip w has ar).1.length ∧ (Sig0.strip w has ar).1.take 4 = w.take 4 := by
      unfold Sig0.strip
      cases has with
      | false => exact ⟨by simpa using hl, rfl⟩
      | true =>
        have := hasSig_len hh
        refine ⟨?_, ?_⟩
        · simp; omega
        · simp only [if_true]
          rw [List.take_take, Nat.min_eq_left (by omega)]
    cases p with
    | none => cases Out.ok.inj h
    | some p =>
      dsimp only at h
      split at h
      · cases Out.ok.inj h
      · cases Out.ok.inj h
        refine Eq.trans (key (Sig0.strip w has ar).1 hs.1 _ _) hs.2

theorem finalize_head {H : Bytes → Bytes} {key : Option (Bytes → Option Bytes)} {now : Int} {m : Msg} {r : Req} {w : Bytes} (h : finalize H key now m r = .ok w) :
    ∃ q, w.take 4 = writeU16be r.id ++ writeU16be (wireFlags (Req.respond m r q)) := by
  unfold finalize at h
  obtain ⟨q, -, h⟩ := Out.bind_eq_ok.1 h
  obtain ⟨b, hb, h⟩ := Out.bind_eq_ok.1 h
  obtain ⟨t, ht, h⟩ := Out.bind_eq_ok.1 h
  have e1 := (encode_head hb).2
  have e2 := (truncate_head ht).2.1
  refine ⟨q, ?_⟩
  have e3 : w.take 4 = t.take 4 := by
    cases key with
    | none => cases Out.ok.inj h; rfl
    | some k =>
      dsimp only at h
      obtain ⟨o, ho, h⟩ := Out.bind_eq_ok.1 h
      cases o with
      | none => cases h
      | some o => cases Out.ok.inj h; exact sign_head ho
  rw [e3, e2, e1, Req.respond_eq]

theorem wire_bit5 (m : Msg) : (wireFlags m % 256).testBit 5 = m.flags.testBit 5 := by
  rw [Nat.testBit_eq_decide_div_mod_eq, Nat.testBit_eq_decide_div_mod_eq]
  unfold wireFlags
  have : (m.flags / 32768 * 32768 + m.opcode % 16 * 2048 + m.flags / 16 % 128 * 16 + m.code % 16) % 256 / 2 ^ 5 % 2 = m.flags / 2 ^ 5 % 2 := by omega
  rw [this]

theorem finalize_authentic {H : Bytes → Bytes} {key : Option (Bytes → Option Bytes)} {now : Int} {m : Msg} {r : Req} {w : Bytes} (h : finalize H key now m r = .ok w) :
    SaysAuthentic w ↔ m.flags.testBit 5 = true := by
  obtain ⟨q, hq⟩ := finalize_head h
  have h3 : w.getD 3 0 = (w.take 4).getD 3 0 := by
    simp only [List.getD_eq_getElem?_getD]
    rw [List.getElem?_take_of_lt (by omega)]
  unfold SaysAuthentic
  rw [h3, hq]
  have : (writeU16be r.id ++ writeU16be (wireFlags (Req.respond m r q))).getD 3 0 = UInt8.ofNat (wireFlags (Req.respond m r q)) := by
    simp [writeU16be, beBytes, leBytes]
  rw [this]
  have h5 : (UInt8.ofNat (wireFlags (Req.respond m r q))).toNat = wireFlags (Req.respond m r q) % 256 := by simp
  rw [h5, wire_bit5, Req.respond_eq]
  dsimp only
  rw [flags_bit]
  simp

theorem answerFlags_bit (x : Result) (r : Req) (i : Nat) :
    (answerFlags x r).testBit i = (decide (i = 7) || (decide (i = 5) && (x.secure && !x.bogus) && (r.dnssec || r.ad))) := by
  have tb : ∀ k : Nat, (2 ^ k).testBit i = decide (i = k) := fun k => by
    rw [Nat.testBit_two_pow]; congr 1; exact propext eq_comm
  have h160 : ∀ n : Nat, n ∈ [128, 160, 128 &&& (65535 - 32), 160 &&& (65535 - 32)] → n = 128 ∨ n = 160 := by decide
  have h1 : (128 : Nat).testBit i = decide (i = 7) := tb 7
  have h2 : (160 : Nat).testBit i = (decide (i = 7) || decide (i = 5)) := by
    rw [show (160 : Nat) = 2 ^ 7 ||| 2 ^ 5 from rfl, Nat.testBit_or, tb, tb]
  unfold answerFlags
  dsimp only
  rcases x with ⟨rc, s, b, p⟩
  rcases r with ⟨_, _, _, _, _, _, _, ad, _, _, dn, _⟩
  dsimp only
  cases s <;> cases b <;> cases ad <;> cases dn <;> simp [h1, h2]

theorem cleaned_passes (m : Msg) (x : Result) (r : Req) : Passes m x r (cleaned m x r) := by
  have hf : (cleaned m x r).flags = answerFlags x r := by unfold cleaned; dsimp only; split <;> rfl
  constructor
  · unfold cleaned; dsimp only; split <;> rfl
  · unfold cleaned; dsimp only; split <;> rfl
  · rw [hf, answerFlags_bit]; simp
  · rw [hf, answerFlags_bit]
    simp [and_assoc]
  · intro i h7 h5
    rw [hf, answerFlags_bit]
    simp [h7, h5]
  · unfold cleaned; dsimp only; split <;> rfl
  · unfold cleaned
    dsimp only
    split
    · rename_i h
      rw [if_neg (fun e => by rw [e] at h; simp at h)]
    · rename_i h
      rw [if_pos (List.length_eq_zero_iff.1 (by omega))]
  · unfold cleaned
    dsimp only
    split
    · rename_i h
      rw [if_neg (fun e => by rw [e] at h; simp at h)]
    · rename_i h
      rw [if_pos (List.length_eq_zero_iff.1 (by omega))]

theorem cleaned_readable {b : Bytes} {m : Msg} (h : Dns.decode b = .ok m) (x : Result) (r : Req) : Ns.Readable (cleaned m x r) := by
  have hr := decode_ok h
  have p := cleaned_passes m x r
  constructor
  · rw [p.an]; exact hr.an.2
  · rw [p.ns]; split
    · exact hr.ns.2
    · simp
  · rw [p.ar]; split
    · exact fun y hy => (hr.ar.2 y hy).1
    · simp

theorem notimp_answer : Answer toNotimp :=
  answer_mk (by decide) rfl (by decide) ⟨by decide, fun _ h => by simp [toNotimp, newMsg] at h⟩ ⟨by decide, fun _ h => by simp [toNotimp, newMsg] at h⟩
    ⟨by decide, fun _ h => by simp [toNotimp, newMsg] at h⟩ (fun _ h => by simp [toNotimp, newMsg] at h)

theorem once_ok {S : Server} (hk : S.key = none) (now : Int) {r : Req} (hr : ReqOk r) {m : Msg} (hm : Answer m) : ∃ w, once S now r m = .ok (some w) ∧ Carries r m w := by
  obtain ⟨n, b, w, s, h1, _, h2, h3, h4, h5⟩ := finalize_none (H := S.H) (now := now) hm hr
  refine ⟨w, ?_, n, s, h1, h3, h4, h5⟩
  unfold once
  rw [hk, h2]

theorem respond_ok {S : Server} (hk : S.key = none) (now : Int) {r : Req} (hr : ReqOk r) {x : Result} {m : Msg} (hm : Dns.decode x.packet = .ok m) :
    ∃ w, respond S now r 0 x = .ok (some w) ∧ Delivered S.H now r (cleaned m x r) w := by
  obtain ⟨w', h1, h2⟩ := once_ok hk now hr servfail_answer
  unfold respond
  rw [if_neg (by simp), hm]
  dsimp only
  rw [hk]
  cases hf : finalize S.H none now (cleaned m x r) r with
  | ub => exact absurd hf (Ns.finalize_readable (cleaned_readable hm x r) hr)
  | ok w =>
    refine ⟨w, rfl, fun ha => ?_, .inl hf⟩
    obtain ⟨n, b, w', s, h1, _, h2, h3, h4, h5⟩ := finalize_none (H := S.H) (now := now) ha hr
    rw [hf] at h2
    cases Out.ok.inj h2
    exact ⟨n, s, h1, h3, h4, h5⟩
  | err e =>
    refine ⟨w', h1, fun ha => ?_, .inr ⟨hf, h2⟩⟩
    obtain ⟨_, _, _, _, _, _, h2, _⟩ := finalize_none (H := S.H) (now := now) ha hr
    rw [hf] at h2
    cases h2

end Verif.Rs

import Verif.Lemmas.Resource
/-
A decoder that fails where a read fails, to find resources.
-/
namespace Verif.Resource
open Verif.Bio Verif.DnsName Verif.Dns Verif.Spec.DnsName Verif.Spec.Resource

def got {α : Type} : Out Unit α → Option α
  | .ok a => some a
  | _ => none

theorem got_some {α : Type} {x : Out Unit α} {a : α} (h : got x = some a) : x = .ok a := by
  cases x with
  | ok b => exact congrArg _ (Option.some.inj h)
  | err => cases h
  | ub => cases h

def strictTxt : Nat → Bytes → Option (List Bytes × Bytes)
  | 0, s => some ([], s)
  | n + 1, s => (got (readU8 s)).bind fun z => (got (readBytes z.1 z.2)).bind fun b => (strictTxt n b.2).map fun x => (b.1 :: x.1, x.2)

def strictDs (s : Bytes) : Option (Rec × Bytes) :=
  (got (readU16be s)).bind fun tag => (got (readU8 tag.2)).bind fun alg => (got (readU8 alg.2)).bind fun dt => (got (readU8 dt.2)).bind fun z =>
    if z.1 > 64 then none else (got (readBytes z.1 z.2)).map fun b => (.ds tag.1 alg.1 dt.1 b.1, b.2)

def strictGlue (d : Bytes) (n : Nat) (s : Bytes) : Option ((Bytes × Bytes) × Bytes) :=
  (got (parse (some d) s)).bind fun x => (got (readBytes n x.2)).map fun b => ((x.1, b.1), b.2)

def strictRec (d : Bytes) (t : Nat) (s : Bytes) : Option (Rec × Bytes) :=
  match t with
  | 0 => strictDs s
  | 1 => (got (parse (some d) s)).map fun x => (.ns x.1, x.2)
  | 2 => (strictGlue d 4 s).map fun x => (.glue4 x.1.1 x.1.2, x.2)
  | 3 => (strictGlue d 16 s).map fun x => (.glue6 x.1.1 x.1.2, x.2)
  | 4 => (got (readBytes 4 s)).map fun x => (.synth4 x.1, x.2)
  | 5 => (got (readBytes 16 s)).map fun x => (.synth6 x.1, x.2)
  | 6 => (got (readU8 s)).bind fun n => (strictTxt n.1 n.2).map fun x => (.txt x.1 true, x.2)
  | _ => none

def strictLoop (d : Bytes) : Nat → Bytes → Option (List Rec)
  | 0, _ => none
  | _ + 1, [] => some []
  | f + 1, t :: s => (strictRec d t.toNat s).bind fun r => (strictLoop d f r.2).map fun rs => r.1 :: rs

def strict (d : Bytes) : Option (List Rec) :=
  match d with
  | 0 :: s => strictLoop d (s.length + 1) s
  | _ => none

theorem bytesAt_of {d : Bytes} {o : Nat} {b w : Bytes} (h : d.drop o = b ++ w) : BytesAt d o b ∧ w = d.drop (o + b.length) := by
  unfold BytesAt
  rw [← List.drop_drop, h]
  simp

theorem nameAt_of {d : Bytes} {o : Nat} {n w : Bytes} (h : parse (some d) (d.drop o) = .ok (n, w)) : ∃ e, NameAt d o n e ∧ w = d.drop e := by
  have h' : parse (some d) ((d.drop o).take (d.length - o)) = .ok (n, w) := by rwa [List.take_of_length_le (by simp)]
  obtain ⟨ls, e, k, h1, h2, h3, h4, h5, h6⟩ := (Props.DnsName.C21_meaning d o (d.length - o) n w).1 h'
  refine ⟨e, ⟨ls, k, h1, h2, h4, h5⟩, ?_⟩
  obtain ⟨_, h7⟩ := h1.le
  rw [h6, List.take_of_length_le (by simp), List.drop_drop]
  congr 1
  omega

theorem strictTxt_spec : ∀ (n : Nat) (s : Bytes) (ts : List Bytes) (w : Bytes), strictTxt n s = some (ts, w) →
    ts.length = n ∧ (∀ t ∈ ts, t.length ≤ 255) ∧ s = (ts.map fun t => UInt8.ofNat t.length :: t).flatten ++ w
  | 0, s, ts, w, h => by
    cases Option.some.inj h
    simp
  | n + 1, s, ts, w, h => by
    rw [strictTxt] at h
    obtain ⟨z, h1, h⟩ := Option.bind_eq_some_iff.1 h
    obtain ⟨b, h2, h⟩ := Option.bind_eq_some_iff.1 h
    obtain ⟨x, h3, h⟩ := Option.map_eq_some_iff.1 h
    obtain ⟨rfl, rfl⟩ := Prod.mk.inj h
    obtain ⟨k1, k2⟩ := readU8_eq_ok.1 (got_some h1)
    obtain ⟨k3, k4⟩ := readBytes_eq_ok.1 (got_some h2)
    obtain ⟨k5, k6, k7⟩ := strictTxt_spec n b.2 x.1 x.2 h3
    refine ⟨by simp [k5], ?_, ?_⟩
    · intro t ht
      rcases List.mem_cons.1 ht with rfl | ht
      · omega
      · exact k6 t ht
    · rw [k1, k3]
      conv => lhs; rw [k7]
      simp [leBytes, k4]

theorem strictRec_spec {d : Bytes} {o : Nat} {t : UInt8} {s : Bytes} (hs : d.drop o = t :: s) {r : Rec} {w : Bytes} (h : strictRec d t.toNat s = some (r, w)) :
    ∃ e, RecAt d o r e ∧ w = d.drop e := by
  have ht : t = UInt8.ofNat t.toNat := by simp
  obtain ⟨h0, h1⟩ : BytesAt d o [t] ∧ s = d.drop (o + 1) := bytesAt_of (b := [t]) hs
  unfold strictRec at h
  split at h
  · rename_i e
    rw [e] at ht
    unfold strictDs at h
    obtain ⟨tag, k1, h⟩ := Option.bind_eq_some_iff.1 h
    obtain ⟨alg, k2, h⟩ := Option.bind_eq_some_iff.1 h
    obtain ⟨dt, k3, h⟩ := Option.bind_eq_some_iff.1 h
    obtain ⟨z, k4, h⟩ := Option.bind_eq_some_iff.1 h
    split at h
    · cases h
    · rename_i hz
      obtain ⟨b, k5, h⟩ := Option.map_eq_some_iff.1 h
      obtain ⟨rfl, rfl⟩ := Prod.mk.inj h
      obtain ⟨a1, b1⟩ := readU16be_eq_ok.1 (got_some k1)
      obtain ⟨a2, b2⟩ := readU8_eq_ok.1 (got_some k2)
      obtain ⟨a3, b3⟩ := readU8_eq_ok.1 (got_some k3)
      obtain ⟨a4, b4⟩ := readU8_eq_ok.1 (got_some k4)
      obtain ⟨a5, b5⟩ := readBytes_eq_ok.1 (got_some k5)
      have e2 : d.drop o = ([0] ++ beBytes 2 tag.1 ++ [UInt8.ofNat alg.1, UInt8.ofNat dt.1, UInt8.ofNat b.1.length] ++ b.1) ++ b.2 := by
        rw [hs, a1, a2, a3, a4, a5, b5, ht]
        simp [leBytes]
      obtain ⟨c1, c2⟩ := bytesAt_of e2
      refine ⟨_, .ds b1 b2 b3 (by omega) c1, ?_⟩
      rw [c2]
      congr 1
      simp [beBytes_length]
      omega
  · rename_i e
    rw [e] at ht
    obtain ⟨x, k1, h⟩ := Option.map_eq_some_iff.1 h
    obtain ⟨rfl, rfl⟩ := Prod.mk.inj h
    rw [h1] at k1
    obtain ⟨e, k2, k3⟩ := nameAt_of (got_some k1)
    exact ⟨e, .ns (by rw [ht] at h0; exact h0) k2, k3⟩
  · rename_i e
    rw [e] at ht
    obtain ⟨x, k1, h⟩ := Option.map_eq_some_iff.1 h
    obtain ⟨rfl, rfl⟩ := Prod.mk.inj h
    unfold strictGlue at k1
    obtain ⟨y, k2, k1⟩ := Option.bind_eq_some_iff.1 k1
    obtain ⟨b, k3, k1⟩ := Option.map_eq_some_iff.1 k1
    subst k1
    rw [h1] at k2
    obtain ⟨e, k4, k5⟩ := nameAt_of (got_some k2)
    obtain ⟨k6, k7⟩ := readBytes_eq_ok.1 (got_some k3)
    obtain ⟨k8, k9⟩ := bytesAt_of (k5.symm.trans k6)
    rw [k7] at k9
    exact ⟨e + 4, .glue4 (by rw [ht] at h0; exact h0) k4 k7 k8, k9⟩
  · rename_i e
    rw [e] at ht
    obtain ⟨x, k1, h⟩ := Option.map_eq_some_iff.1 h
    obtain ⟨rfl, rfl⟩ := Prod.mk.inj h
    unfold strictGlue at k1
    obtain ⟨y, k2, k1⟩ := Option.bind_eq_some_iff.1 k1
    obtain ⟨b, k3, k1⟩ := Option.map_eq_some_iff.1 k1
    subst k1
    rw [h1] at k2
    obtain ⟨e, k4, k5⟩ := nameAt_of (got_some k2)
    obtain ⟨k6, k7⟩ := readBytes_eq_ok.1 (got_some k3)
    obtain ⟨k8, k9⟩ := bytesAt_of (k5.symm.trans k6)
    rw [k7] at k9
    exact ⟨e + 16, .glue6 (by rw [ht] at h0; exact h0) k4 k7 k8, k9⟩
  · rename_i e
    rw [e] at ht
    obtain ⟨x, k1, h⟩ := Option.map_eq_some_iff.1 h
    obtain ⟨rfl, rfl⟩ := Prod.mk.inj h
    obtain ⟨k2, k3⟩ := readBytes_eq_ok.1 (got_some k1)
    obtain ⟨k4, k5⟩ := bytesAt_of (b := 4 :: x.1) (hs.trans (by rw [ht, k2]; rfl))
    refine ⟨_, .synth4 k3 k4, ?_⟩
    rw [k5]
    simp [k3]
  · rename_i e
    rw [e] at ht
    obtain ⟨x, k1, h⟩ := Option.map_eq_some_iff.1 h
    obtain ⟨rfl, rfl⟩ := Prod.mk.inj h
    obtain ⟨k2, k3⟩ := readBytes_eq_ok.1 (got_some k1)
    obtain ⟨k4, k5⟩ := bytesAt_of (b := 5 :: x.1) (hs.trans (by rw [ht, k2]; rfl))
    refine ⟨_, .synth6 k3 k4, ?_⟩
    rw [k5]
    simp [k3]
  · rename_i e
    rw [e] at ht
    obtain ⟨n, k1, h⟩ := Option.bind_eq_some_iff.1 h
    obtain ⟨x, k2, h⟩ := Option.map_eq_some_iff.1 h
    obtain ⟨rfl, rfl⟩ := Prod.mk.inj h
    obtain ⟨k3, k4⟩ := readU8_eq_ok.1 (got_some k1)
    obtain ⟨k5, k6, k7⟩ := strictTxt_spec _ _ _ _ k2
    have e2 : d.drop o = ([6, UInt8.ofNat x.1.length] ++ (x.1.map fun t => UInt8.ofNat t.length :: t).flatten) ++ x.2 := by
      rw [hs, k3, k5, ht]
      conv => lhs; rw [k7]
      simp [leBytes]
    obtain ⟨c1, c2⟩ := bytesAt_of e2
    refine ⟨_, .txt (by omega) k6 c1, ?_⟩
    rw [c2]
    congr 1
    simp
    omega
  · cases h

theorem strictLoop_spec {d : Bytes} : ∀ (f o : Nat) (rs : List Rec), o ≤ d.length → strictLoop d f (d.drop o) = some rs → RecsAt d o rs
  | 0, o, rs, _, h => by cases h
  | f + 1, o, rs, ho, h => by
    cases hs : d.drop o with
    | nil =>
      rw [hs] at h
      cases Option.some.inj h
      have := congrArg List.length hs
      simp at this
      rw [show o = d.length by omega]
      exact .nil
    | cons t s =>
      rw [hs, strictLoop] at h
      obtain ⟨r, h1, h⟩ := Option.bind_eq_some_iff.1 h
      obtain ⟨rs', h2, rfl⟩ := Option.map_eq_some_iff.1 h
      obtain ⟨e, h3, h4⟩ := strictRec_spec hs h1
      obtain ⟨_, _, _, _, _, h5⟩ := recAt_read h3
      rw [h4] at h2
      exact .cons h3 (strictLoop_spec f e rs' h5 h2)

theorem strict_spec {d : Bytes} {rs : List Rec} (h : strict d = some rs) : Encodes d rs := by
  unfold strict at h
  split at h
  · rename_i s
    exact ⟨rfl, strictLoop_spec _ 1 rs (by simp) h⟩
  · cases h

end Verif.Resource

import Verif.Lemmas.SecpOrder
import Verif.Model.Ec
/-
Keys in bytes: the compressed form, the 64 bytes of "Elligator Squared", the common secret.
-/
namespace Verif.Lemmas.EllHash
open Verif Verif.Spec.Secp Verif.Elligator Verif.Lemmas.EllField Verif.Lemmas.EllMap Verif.Lemmas.EllGroup
open Verif.Lemmas.SecpOrder (nsmul_eq_zero)
open WeierstrassCurve.Affine

attribute [local irreducible] xy2 sqrt isqrt

theorem p_lt : p < 256 ^ 32 := by decide +kernel

theorem val_lt (a : F) : a.val < 256 ^ 32 := Nat.lt_trans (ZMod.val_lt a) p_lt

theorem getB32_len (a : F) : (getB32 a).length = 32 := beBytes_length _ _

theorem set_get (a : F) : setB32 (getB32 a) = (a, true) := by
  have h : beNat (getB32 a) = a.val := beNat_beBytes_of_lt (val_lt a)
  rw [setB32, h, ZMod.natCast_zmod_val, decide_eq_true (ZMod.val_lt a)]

theorem get_set {b : Bytes} (hb : b.length = 32) (h : (setB32 b).2 = true) : getB32 (setB32 b).1 = b := by
  have h : beNat b < p := of_decide_eq_true h
  have e : ((setB32 b).1).val = beNat b := ZMod.val_cast_of_lt h
  rw [getB32, e, ← hb, beBytes_beNat]

/-- The compressed form, in the terms of the model. -/
theorem compress_some (x y : F) (h : curve.Nonsingular x y) :
    compress (.some x y h) = some ((if isOdd y then 3 else 2) :: getB32 x) := by
  rw [compress, getB32, isOdd]
  congr 2
  by_cases hy : y.val % 2 = 1
  · rw [if_pos hy, if_pos (by rw [hy]; rfl)]
  · rw [if_neg hy, if_neg (by simpa using hy)]

theorem compress_len {P : Point} {b : Bytes} (h : compress P = some b) : b.length = 33 := by
  cases P with
  | zero => cases h
  | some x y hn =>
    rw [compress_some] at h
    cases h
    rw [List.length_cons, getB32_len]

theorem setXo_some {x : F} {odd : Bool} {k : F × F} (h : setXo x odd = some k) :
    k.1 = x ∧ k.2 ^ 2 = x ^ 3 + 7 ∧ isOdd k.2 = odd := by
  rw [setXo] at h
  dsimp only at h
  split at h
  · cases h
  · rename_i hs
    have hs : (sqrt (7 + x * (x * x))).2 = true := by simpa using hs
    have hr := sqrt_spec ((sqrt_flag _).1 hs)
    generalize (sqrt (7 + x * (x * x))).1 = y at *
    have hy : y ^ 2 = x ^ 3 + 7 := by linear_combination hr
    cases h
    refine ⟨rfl, ?_, ?_⟩
    · dsimp only; split
      · linear_combination hy
      · exact hy
    · dsimp only
      by_cases ho : (isOdd y != odd) = true
      · rw [if_pos ho, odd_neg (y_ne hy)]
        revert ho; cases isOdd y <;> cases odd <;> decide
      · rw [if_neg ho]
        revert ho; cases isOdd y <;> cases odd <;> decide

theorem setXo_of {x y : F} (h : y ^ 2 = x ^ 3 + 7) : setXo x (isOdd y) = some (x, y) := by
  have hq : IsSquare (7 + x * (x * x)) := ⟨y, by linear_combination -h⟩
  cases hs : setXo x (isOdd y) with
  | none =>
    rw [setXo] at hs
    dsimp only at hs
    rw [(sqrt_flag _).2 hq] at hs
    cases hs
  | some k =>
    obtain ⟨h1, h2, h3⟩ := setXo_some hs
    have : k.2 = y := sq_parity (y_ne h) (by rw [← pow_two, ← pow_two, h2, h]) h3
    rw [← h1, ← this]

theorem parse_some {pub : Bytes} {k : F × F} (h : parse pub = some k) :
    ∃ hn : curve.Nonsingular k.1 k.2, compress (.some k.1 k.2 hn) = some pub := by
  obtain ⟨tag, rest⟩ | _ := pub
  · cases h
  rename_i tag rest
  rw [parse] at h
  dsimp only at h
  split at h
  · rename_i ht
    obtain ⟨hl, ht⟩ := ht
    split at h
    · rename_i hok
      obtain ⟨h1, h2, h3⟩ := setXo_some h
      rw [← h1] at h2
      refine ⟨(on_iff _ _).2 h2, ?_⟩
      rw [compress_some, h3, h1, get_set (by simpa using hl) hok]
      rcases ht with rfl | rfl <;> rfl
    · cases h
  · cases h

theorem parse_of {P : Point} {pub : Bytes} (h : compress P = some pub) :
    ∃ x y hn, P = .some x y hn ∧ parse pub = some (x, y) := by
  cases P with
  | zero => cases h
  | some x y hn =>
    refine ⟨x, y, hn, rfl, ?_⟩
    rw [compress_some] at h
    cases h
    rw [parse, set_get, List.length_cons, getB32_len]
    dsimp only
    have hs := setXo_of ((on_iff _ _).1 hn)
    cases ho : isOdd y with
    | true =>
      rw [ho] at hs
      simpa using hs
    | false =>
      rw [ho] at hs
      simpa using hs

theorem serialize_on {x y : F} (hn : curve.Nonsingular x y) :
    ∃ b, serialize (x, y) = .ok b ∧ compress (.some x y hn) = some b := by
  refine ⟨_, ?_, compress_some x y hn⟩
  rw [serialize, pubkeyLoad]
  dsimp only
  rw [if_neg (x_ne ((on_iff _ _).1 hn))]

/-! ### The 64 bytes -/

/-- The two halves. -/
def half1 (b : Bytes) : F := (setB32 (b.take 32)).1
def half2 (b : Bytes) : F := (setB32 ((b.drop 32).take 32)).1

attribute [local irreducible] svdw addGe geSetGej serialize

theorem fromHash_eq (b : Bytes) : fromHash b =
    let r := geSetGej (addGe (gejSetGe (svdw (half1 b))) (svdw (half2 b)))
    if r.infinity then .err () else serialize (r.x, r.y) := by
  unfold fromHash pubkeyFromHash
  rw [← half1, ← half2]
  dsimp only
  generalize geSetGej (addGe (gejSetGe (svdw (half1 b))) (svdw (half2 b))) = r
  cases r.infinity <;> rfl

theorem fromHash_sum {b : Bytes} (h1 : half1 b ≠ 0) (h2 : half2 b ≠ 0) :
    fromHash b = match compress (pt (svdw_on h1) + pt (svdw_on h2)) with
      | some k => .ok k
      | none => .err () := by
  have h := add_spec (svdw_on h1) (svdw_on h2)
  rw [fromHash_eq]
  dsimp only
  generalize geSetGej (addGe (gejSetGe (svdw (half1 b))) (svdw (half2 b))) = r at h
  generalize pt (svdw_on h1) + pt (svdw_on h2) = S at h
  cases S with
  | zero =>
    rw [show r.infinity = true from h]; rfl
  | some x y hn =>
    have h : r = ⟨x, y, false⟩ := h
    obtain ⟨k, e1, e2⟩ := serialize_on hn
    rw [e2, h]
    exact e1

theorem neg_on {g : Ge} (h : On g) : On (geNeg g) := by
  refine ⟨h.1, ?_⟩
  show (-g.y) ^ 2 = g.x ^ 3 + 7
  rw [← h.2]; ring

theorem pt_neg {g : Ge} (h : On g) : pt (neg_on h) = -pt h := by
  rw [pt, pt, Point.neg_some, Point.some.injEq]
  exact ⟨rfl, (negY_eq _ _).symm⟩

theorem invert_inf {g : Ge} (h : g.infinity = true) (hint : Nat) : (invert g hint).2 = false := by
  rw [invert]; dsimp only; rw [if_pos h]

theorem loop_spec {draw : Nat → F × Nat} (hd : ∀ i, (draw i).1 ≠ 0) {g : Ge} (hg : On g) (fuel i : Nat) {u1 u2 : F}
    (h : toHashLoop draw (gejSetGe g) fuel i = some (u1, u2)) :
    ∃ (h1 : u1 ≠ 0) (h2 : u2 ≠ 0), pt (svdw_on h1) + pt (svdw_on h2) = pt hg := by
  induction fuel generalizing i with
  | zero => cases h
  | succ f ih =>
    rw [toHashLoop] at h
    have hs := add_spec hg (neg_on (svdw_on (hd i)))
    generalize hP : geSetGej (addGe (gejSetGe g) (geNeg (svdw (draw i).1))) = p2 at h hs
    rw [pt_neg (svdw_on (hd i))] at hs
    generalize hS : pt hg + -pt (svdw_on (hd i)) = S at hs
    cases hv : invert p2 (draw i).2 with
    | mk u fl =>
      rw [hv] at h
      cases fl with
      | false => exact ih _ h
      | true =>
        dsimp only at h
        obtain ⟨rfl, rfl⟩ := Prod.mk.inj (Option.some.inj h)
        cases S with
        | zero =>
          have := invert_inf (show p2.infinity = true from hs) (draw i).2
          rw [hv] at this; cases this
        | some x y hn =>
          have hs' : p2 = ⟨x, y, false⟩ := hs
          have hon : On p2 := by rw [hs']; exact ⟨rfl, (on_iff _ _).1 hn⟩
          obtain ⟨hu, e⟩ := invert_spec hon hv
          refine ⟨hd i, hu, ?_⟩
          have h2 : pt (svdw_on hu) = .some x y hn := by
            refine is_inj (is_pt (svdw_on hu)) ?_
            rw [e]; exact hs
          rw [h2, ← hS]
          abel

theorem toHash_ok {draw : Nat → F × Nat} {fuel : Nat} {pub u : Bytes} (h : toHash draw fuel pub = .ok u) :
    ∃ k u1 u2, parse pub = some k ∧ k.1 ≠ 0 ∧ toHashLoop draw (gejSetGe ⟨k.1, k.2, false⟩) fuel 0 = some (u1, u2) ∧
      u = getB32 u1 ++ getB32 u2 := by
  rw [toHash] at h
  cases hp : parse pub with
  | none => rw [hp] at h; cases h
  | some k =>
    rw [hp] at h
    dsimp only at h
    rw [pubkeyLoad] at h
    by_cases hk : k.1 = 0
    · rw [if_pos hk] at h; cases h
    · rw [if_neg hk] at h
      dsimp only at h
      cases hl : toHashLoop draw (gejSetGe ⟨k.1, k.2, false⟩) fuel 0 with
      | none => rw [hl] at h; cases h
      | some w =>
        rw [hl] at h
        obtain ⟨u1, u2⟩ := w
        cases h
        exact ⟨k, u1, u2, rfl, hk, hl, rfl⟩

theorem half_get (u1 u2 : F) : half1 (getB32 u1 ++ getB32 u2) = u1 ∧ half2 (getB32 u1 ++ getB32 u2) = u2 := by
  have e1 : (getB32 u1 ++ getB32 u2).take 32 = getB32 u1 := by
    rw [List.take_left' (getB32_len u1)]
  have e2 : ((getB32 u1 ++ getB32 u2).drop 32).take 32 = getB32 u2 := by
    rw [List.drop_left' (getB32_len u1), List.take_of_length_le (Nat.le_of_eq (getB32_len u2))]
  constructor
  · rw [half1, e1, set_get]
  · rw [half2, e2, set_get]

/-- The 64 bytes of a key give the key back. -/
theorem roundtrip {draw : Nat → F × Nat} (hd : ∀ i, (draw i).1 ≠ 0) {fuel : Nat} {pub u : Bytes}
    (h : toHash draw fuel pub = .ok u) : u.length = 64 ∧ fromHash u = .ok pub := by
  obtain ⟨k, u1, u2, hp, -, hloop, rfl⟩ := toHash_ok h
  refine ⟨by rw [List.length_append, getB32_len, getB32_len], ?_⟩
  obtain ⟨hn, hc⟩ := parse_some hp
  have hon : On ⟨k.1, k.2, false⟩ := ⟨rfl, (on_iff _ _).1 hn⟩
  obtain ⟨h1, h2, hsum⟩ := loop_spec hd hon fuel 0 hloop
  obtain ⟨e1, e2⟩ := half_get u1 u2
  have q1 : half1 (getB32 u1 ++ getB32 u2) ≠ 0 := by rw [e1]; exact h1
  have q2 : half2 (getB32 u1 ++ getB32 u2) ≠ 0 := by rw [e2]; exact h2
  have r1 : pt (svdw_on q1) = pt (svdw_on h1) := by
    refine is_inj (is_pt _) ?_; rw [e1]; exact is_pt _
  have r2 : pt (svdw_on q2) = pt (svdw_on h2) := by
    refine is_inj (is_pt _) ?_; rw [e2]; exact is_pt _
  rw [fromHash_sum q1 q2, r1, r2, hsum]
  have : compress (pt hon) = some pub := hc
  rw [this]

end Verif.Lemmas.EllHash

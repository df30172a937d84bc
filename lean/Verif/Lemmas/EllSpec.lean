import Verif.Lemmas.EcKeys
import Verif.Spec.Svdw
/-
The map of the program is that of the specification.
-/
namespace Verif.Lemmas.EllSpec
open Verif Verif.Spec.Secp Verif.Elligator Verif.Lemmas.EllField Verif.Lemmas.EllMap Verif.Lemmas.EllGroup
open Verif.Lemmas.EllHash Verif.Lemmas.EllComplete
open Verif.Spec.Svdw (Image Has)
open WeierstrassCurve.Affine

attribute [local irreducible] xy2 sqrt isqrt svdw addGe geSetGej serialize invert

theorem c_eq : Spec.Svdw.c = c := by rw [Spec.Svdw.c, c]

theorem has_iff (x : F) : Has x ↔ IsSquare (x ^ 3 + 7) := by
  constructor
  · rintro ⟨y, h⟩; exact ⟨y, by rw [← (on_iff _ _).1 h]; ring⟩
  · rintro ⟨y, h⟩; exact ⟨y, (on_iff _ _).2 (by rw [h]; ring)⟩

theorem x1_eq (u : F) : Spec.Svdw.x1 u = X1 u := by
  have hw := wd_ne u
  have hw2 : u ^ 2 + 8 ≠ 0 := by rw [pow_two]; exact hw
  have hd : (c - 1) / 2 = d := by rw [div_eq_iff two_ne]; linear_combination -d_eq
  have e : (1 + 7 + u ^ 2 : F) = u ^ 2 + 8 := by ring
  rw [Spec.Svdw.x1, Spec.Svdw.w, c_eq, hd, e, X1]
  field_simp

theorem x2_eq (u : F) : Spec.Svdw.x2 u = X2 u := by rw [Spec.Svdw.x2, x1_eq, X2]

theorem x3_eq (u : F) : Spec.Svdw.x3 u = X3 u := by
  have e : (1 + 7 + u ^ 2 : F) = u * u + 8 := by ring
  rw [Spec.Svdw.x3, Spec.Svdw.w, c_eq, e, X3, div_pow, one_div_div]

theorem odd_iff (a b : F) : isOdd a = isOdd b ↔ a.val % 2 = b.val % 2 := by
  rw [isOdd, isOdd]
  have h1 := Nat.mod_lt a.val (by decide : 0 < 2)
  have h2 := Nat.mod_lt b.val (by decide : 0 < 2)
  generalize a.val % 2 = m at h1 ⊢
  generalize b.val % 2 = k at h2 ⊢
  have e1 : m = 0 ∨ m = 1 := by omega
  have e2 : k = 0 ∨ k = 1 := by omega
  rcases e1 with rfl | rfl <;> rcases e2 with rfl | rfl <;> simp

theorem first_unique {α : Type} {H : α → Prop} {x x' a b c : α} (hh : H x) (hh' : H x')
    (hx : x = a ∨ (¬ H a ∧ x = b) ∨ (¬ H a ∧ ¬ H b ∧ x = c))
    (hx' : x' = a ∨ (¬ H a ∧ x' = b) ∨ (¬ H a ∧ ¬ H b ∧ x' = c)) : x = x' := by grind

/-- The image is a single point. -/
theorem image_unique {u : F} {P Q : Point} (hP : Image u P) (hQ : Image u Q) : P = Q := by
  obtain ⟨x, y, h, rfl, hp, hx⟩ := hP
  obtain ⟨x', y', h', rfl, hp', hx'⟩ := hQ
  have hh : Has x := ⟨y, h⟩
  have hh' : Has x' := ⟨y', h'⟩
  have e : x = x' := first_unique hh hh' hx hx'
  subst e
  have o := (on_iff _ _).1 h
  have o' := (on_iff _ _).1 h'
  have ey : y = y' := sq_parity (y_ne o') (by linear_combination o - o') ((odd_iff _ _).2 (hp.trans hp'.symm))
  subst ey
  rfl

theorem image_svdw {u : F} (hu : u ≠ 0) : Image u (pt (svdw_on hu)) := by
  refine ⟨_, _, _, rfl, (odd_iff _ _).1 (svdw_odd hu), ?_⟩
  rw [svdw_x, xy2_eq hu, has_iff, has_iff, x1_eq, x2_eq, x3_eq]
  by_cases h1 : IsSquare (X1 u ^ 3 + 7)
  · rw [if_pos h1]; exact Or.inl rfl
  · rw [if_neg h1]
    by_cases h2 : IsSquare (X2 u ^ 3 + 7)
    · rw [if_pos h2]; exact Or.inr (Or.inl ⟨h1, rfl⟩)
    · rw [if_neg h2]; exact Or.inr (Or.inr ⟨h1, h2, rfl⟩)

theorem image_pt {u : F} (hu : u ≠ 0) {P : Point} (h : Image u P) : P = pt (svdw_on hu) := image_unique h (image_svdw hu)

/-- The halves. -/
theorem half1_eq (b : Bytes) : half1 b = ((beNat (b.take 32) : Nat) : F) := by rw [half1, setB32]
theorem half2_eq {b : Bytes} (hb : b.length = 64) : half2 b = ((beNat (b.drop 32) : Nat) : F) := by
  rw [half2, setB32, List.take_of_length_le (by simp [hb])]

theorem decode {b : Bytes} (hb : b.length = 64) (h1 : ((beNat (b.take 32) : Nat) : F) ≠ 0) (h2 : ((beNat (b.drop 32) : Nat) : F) ≠ 0) :
    ∃ P1 P2, Image ((beNat (b.take 32) : Nat) : F) P1 ∧ Image ((beNat (b.drop 32) : Nat) : F) P2 ∧
      fromHash b = match compress (P1 + P2) with
        | some k => .ok k
        | none => .err () := by
  rw [← half1_eq] at h1 ⊢
  rw [← half2_eq hb] at h2 ⊢
  exact ⟨_, _, image_svdw h1, image_svdw h2, fromHash_sum h1 h2⟩

theorem invert_sound {x y : F} (h : curve.Nonsingular x y) {r : Nat} {u : F} (hi : invert ⟨x, y, false⟩ r = (u, true)) :
    u ≠ 0 ∧ Image u (.some x y h) := by
  have hon : On ⟨x, y, false⟩ := ⟨rfl, (on_iff _ _).1 h⟩
  obtain ⟨hu, hs⟩ := invert_spec hon hi
  refine ⟨hu, ?_⟩
  have e : pt (svdw_on hu) = (.some x y h : Point) := by
    refine is_inj (is_pt _) ?_; rw [hs]; exact is_pt hon
  rw [← e]; exact image_svdw hu

theorem invert_complete {x y u : F} {h : curve.Nonsingular x y} (hu : u ≠ 0) (hi : Image u (.some x y h)) :
    ∃ r < 4, invert ⟨x, y, false⟩ r = (u, true) := by
  have e := image_pt hu hi
  have es : svdw u = ⟨x, y, false⟩ := by
    rw [pt, Point.some.injEq] at e
    exact ge_ext (svdw_on hu).1 e.1.symm e.2.symm
  rw [← es]; exact finds hu

theorem reach {u1 u2 : F} (h1 : u1 ≠ 0) (h2 : u2 ≠ 0) {P1 P2 : Point} (i1 : Image u1 P1) (i2 : Image u2 P2) {pub : Bytes}
    (hp : compress (P1 + P2) = some pub) :
    ∃ r < 4, toHash (fun _ => (u1, r)) 1 pub = .ok (beBytes 32 u1.val ++ beBytes 32 u2.val) := by
  rw [image_pt h1 i1, image_pt h2 i2] at hp
  exact EcKeys.reach h1 h2 hp

end Verif.Lemmas.EllSpec

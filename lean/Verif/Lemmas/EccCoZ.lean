import Mathlib.AlgebraicGeometry.EllipticCurve.Affine.Point
import Mathlib.Tactic.FieldSimp
import Mathlib.Tactic.LinearCombination
/-
The co-Z formulas of src/ecc.c over any field: two points given with a common Z are added and subtracted by
xycz_add, xycz_addc and xycz_initial_double.
-/
namespace Verif.Lemmas.EccCoZ
open WeierstrassCurve.Affine

variable {K : Type} [Field K] [DecidableEq K] {W : WeierstrassCurve.Affine K}

/-- `(X, Y)` are coordinates of the point `Q` with the third coordinate `z`. -/
def Rep (z X Y : K) (Q : W.Point) : Prop := ∃ x y h, Q = Point.some x y h ∧ X = x * z ^ 2 ∧ Y = y * z ^ 3

/-- The curve is `y² = x³ - 3 x + b`. -/
structure Short (W : WeierstrassCurve.Affine K) : Prop where
  a1 : W.a₁ = 0
  a2 : W.a₂ = 0
  a3 : W.a₃ = 0
  a4 : W.a₄ = -3

theorem X_ne {x1 y1 x2 y2 : K} {h1 : W.Nonsingular x1 y1} {h2 : W.Nonsingular x2 y2}
    (h : Point.some x1 y1 h1 ≠ Point.some x2 y2 h2) (h' : Point.some x1 y1 h1 ≠ -Point.some x2 y2 h2) : x1 ≠ x2 := by
  intro he
  rcases Point.X_eq_iff.1 he with e | e
  · exact h e
  · exact h' e

theorem Rep_X_ne {z X1 Y1 X2 Y2 : K} {A B : W.Point} (hz : z ≠ 0) (hA : Rep z X1 Y1 A) (hB : Rep z X2 Y2 B)
    (h : A ≠ B) (h' : A ≠ -B) : X2 - X1 ≠ 0 := by
  obtain ⟨x1, y1, h1, rfl, rfl, rfl⟩ := hA
  obtain ⟨x2, y2, h2, rfl, rfl, rfl⟩ := hB
  have hx := X_ne h h'
  intro hc
  have : (x2 - x1) * z ^ 2 = 0 := by linear_combination hc
  rcases mul_eq_zero.1 this with e | e
  · exact hx (sub_eq_zero.1 e).symm
  · exact hz (pow_eq_zero_iff (by norm_num) |>.1 e)

/-- xycz_add. -/
theorem coz_add (hW : Short W) {z X1 Y1 X2 Y2 : K} {A B : W.Point} (hz : z ≠ 0) (hA : Rep z X1 Y1 A)
    (hB : Rep z X2 Y2 B) (h : A ≠ B) (h' : A ≠ -B) :
    Rep (z * (X2 - X1)) (X1 * (X2 - X1) ^ 2) (Y1 * (X2 * (X2 - X1) ^ 2 - X1 * (X2 - X1) ^ 2)) A ∧
    Rep (z * (X2 - X1)) ((Y2 - Y1) ^ 2 - X1 * (X2 - X1) ^ 2 - X2 * (X2 - X1) ^ 2)
      ((Y2 - Y1) * (X1 * (X2 - X1) ^ 2 - ((Y2 - Y1) ^ 2 - X1 * (X2 - X1) ^ 2 - X2 * (X2 - X1) ^ 2)) -
        Y1 * (X2 * (X2 - X1) ^ 2 - X1 * (X2 - X1) ^ 2)) (A + B) := by
  obtain ⟨x1, y1, h1, rfl, rfl, rfl⟩ := hA
  obtain ⟨x2, y2, h2, rfl, rfl, rfl⟩ := hB
  have hx := X_ne h h'
  have hd : x1 - x2 ≠ 0 := sub_ne_zero.2 hx
  refine ⟨⟨x1, y1, h1, rfl, by ring, by ring⟩, ?_⟩
  rw [Point.add_of_X_ne hx]
  refine ⟨_, _, _, rfl, ?_, ?_⟩
  · rw [slope_of_X_ne hx, addX, hW.a1, hW.a2]
    field_simp
    ring
  · rw [slope_of_X_ne hx, addY, negAddY, negY, addX, hW.a1, hW.a2, hW.a3]
    field_simp
    ring

/-- xycz_addc. -/
theorem coz_addc (hW : Short W) {z X1 Y1 X2 Y2 : K} {A B : W.Point} (hz : z ≠ 0) (hA : Rep z X1 Y1 A)
    (hB : Rep z X2 Y2 B) (h : A ≠ B) (h' : A ≠ -B) :
    Rep (z * (X2 - X1)) ((Y2 + Y1) ^ 2 - (X1 * (X2 - X1) ^ 2 + X2 * (X2 - X1) ^ 2))
      (((Y2 + Y1) ^ 2 - (X1 * (X2 - X1) ^ 2 + X2 * (X2 - X1) ^ 2) - X1 * (X2 - X1) ^ 2) * (Y2 + Y1) -
        Y1 * (X2 * (X2 - X1) ^ 2 - X1 * (X2 - X1) ^ 2)) (A - B) ∧
    Rep (z * (X2 - X1)) ((Y2 - Y1) ^ 2 - (X1 * (X2 - X1) ^ 2 + X2 * (X2 - X1) ^ 2))
      ((Y2 - Y1) * (X1 * (X2 - X1) ^ 2 - ((Y2 - Y1) ^ 2 - (X1 * (X2 - X1) ^ 2 + X2 * (X2 - X1) ^ 2))) -
        Y1 * (X2 * (X2 - X1) ^ 2 - X1 * (X2 - X1) ^ 2)) (A + B) := by
  constructor
  · have hB' : Rep z X2 (-Y2) (-B) := by
      obtain ⟨x2, y2, h2, rfl, rfl, rfl⟩ := hB
      refine ⟨_, _, _, Point.neg_some h2, rfl, ?_⟩
      rw [negY, hW.a1, hW.a3]; ring
    have := (coz_add hW hz hA hB' h' (by rwa [neg_neg])).2
    obtain ⟨x, y, hh, e, eX, eY⟩ := this
    exact ⟨x, y, hh, (sub_eq_add_neg A B).trans e, by rw [← eX]; ring, by rw [← eY]; ring⟩
  · obtain ⟨x, y, hh, e, eX, eY⟩ := (coz_add hW hz hA hB h h').2
    exact ⟨x, y, hh, e, by rw [← eX]; ring, by rw [← eY]; ring⟩

/-- xycz_initial_double, from an affine point; `b` is half of `3 (x² - 1)`. -/
theorem coz_double (hW : Short W) {x y b : K} {h : W.Nonsingular x y} (h2 : (2 : K) ≠ 0) (hy : y ≠ 0)
    (hb : 2 * b = 3 * (x ^ 2 - 1)) :
    Rep y (b ^ 2 - x * y ^ 2 - x * y ^ 2) (b * (x * y ^ 2 - (b ^ 2 - x * y ^ 2 - x * y ^ 2)) - y ^ 4)
      (2 • Point.some x y h) := by
  have hne : y ≠ W.negY x y := by
    rw [negY, hW.a1, hW.a3]
    intro hc
    have : 2 * y = 0 := by linear_combination hc
    rcases mul_eq_zero.1 this with e | e
    · exact h2 e
    · exact hy e
  have hb' : b = 3 * (x ^ 2 - 1) / 2 := by field_simp; linear_combination hb
  rw [two_nsmul, Point.add_self_of_Y_ne hne]
  have hden : y - W.negY x y = 2 * y := by rw [negY, hW.a1, hW.a3]; ring
  refine ⟨_, _, _, rfl, ?_, ?_⟩
  · rw [slope_of_Y_ne rfl hne, hden, addX, hW.a1, hW.a2, hW.a4, hb']
    field_simp
    ring
  · rw [slope_of_Y_ne rfl hne, hden, addY, negAddY, negY, addX, hW.a1, hW.a2, hW.a3, hW.a4, hb']
    field_simp
    ring

end Verif.Lemmas.EccCoZ

import Verif.Lemmas.Ec52Points
import Verif.Lemmas.SecpOrder
import Verif.Lemmas.SecpCard
import Verif.Model.Group52
import Verif.Spec.Group52
import Mathlib.Tactic.FieldSimp
import Mathlib.Tactic.LinearCombination
/-
The operations on points in Jacobian coordinates (Model/Group52), as operations of the group.
-/
namespace Verif.Lemmas.Group52
open Verif Verif.Spec.Secp Verif.Field52 Verif.Ec52 Verif.Lemmas.EllGroup Verif.Lemmas.SecpOrder
open WeierstrassCurve.Affine
open Verif.Lemmas.EllField (x_ne y_ne)

/-! ### Words -/

section
variable {a b r : Gej} {X Y Z : F}

theorem double_words (hi : a.infinity = false) (hx : Stands 8 a.x X) (hy : Stands 8 a.y Y) (hz : Stands 8 a.z Z) :
    (doubleVar a).1.infinity = false ∧ Stands 6 (doubleVar a).1.x (9 * X ^ 4 - 8 * X * Y ^ 2) ∧
    Stands 4 (doubleVar a).1.y (36 * X ^ 3 * Y ^ 2 - 27 * X ^ 6 - 8 * Y ^ 4) ∧ Stands 2 (doubleVar a).1.z (2 * Y * Z) ∧
    Stands 2 (doubleVar a).2 (2 * Y) := by
  unfold doubleVar
  rw [hi, if_neg (by decide)]
  extract_lets -merge r0 r1 r2 z0 z1 t1 t1' t2 t3 t3' t4 t4' t5 x0 x1 x2 x3 t6 t7 t8 y0 t9 y1
  have hr : Stands 2 r2 (2 * Y) := ((hy.weak (by decide)).mulInt (k := 2) (by decide)).eq (by push_cast; ring)
  have hz1 : Stands 2 z1 (2 * Y * Z) := ((hz.mul hy (by decide) (by decide)).mulInt (k := 2) (by decide)).eq (by push_cast; ring)
  have h1 : Stands 3 t1' (3 * X ^ 2) := ((hx.sqr (by decide)).mulInt (k := 3) (by decide)).eq (by push_cast; ring)
  have h2 : Stands 1 t2 (9 * X ^ 4) := (h1.sqr (by decide)).eq (by ring)
  have h3 : Stands 2 t3' (2 * Y ^ 2) := ((hy.sqr (by decide)).mulInt (k := 2) (by decide)).eq (by push_cast; ring)
  have h4 : Stands 2 t4' (8 * Y ^ 4) := ((h3.sqr (by decide)).mulInt (k := 2) (by decide)).eq (by push_cast; ring)
  have h5 : Stands 1 t5 (2 * X * Y ^ 2) := (h3.mul hx (by decide) (by decide)).eq (by ring)
  clear_value r2 z1 t1' t2 t3' t4' t5
  have hx1 : Stands 4 x1 (8 * X * Y ^ 2) := (h5.mulInt (k := 4) (by decide)).eq (by push_cast; ring)
  have hx3 : Stands 6 x3 (9 * X ^ 4 - 8 * X * Y ^ 2) := ((hx1.negate (by decide)).add h2 (by decide)).eq (by ring)
  have h6 : Stands 2 t6 (-(9 * X ^ 4)) := h2.negate (by decide)
  have h7 : Stands 6 t7 (12 * X * Y ^ 2) := (h5.mulInt (k := 6) (by decide)).eq (by push_cast; ring)
  have h8 : Stands 8 t8 (12 * X * Y ^ 2 - 9 * X ^ 4) := (h7.add h6 (by decide)).eq (by ring)
  have h9 : Stands 3 t9 (-(8 * Y ^ 4)) := h4.negate (by decide)
  have hy1 : Stands 4 y1 (36 * X ^ 3 * Y ^ 2 - 27 * X ^ 6 - 8 * Y ^ 4) :=
    ((h1.mul h8 (by decide) (by decide)).add h9 (by decide)).eq (by ring)
  exact ⟨rfl, hx3, hy1, hz1, hr⟩

theorem end_words {az u1 s1 h i hz : Fe} {U S H I W : F} (h1 : Stands 8 az Z) (h2 : Stands 1 u1 U) (h3 : Stands 1 s1 S) (h4 : Stands 8 h H)
    (h5 : Stands 8 i I) (h6 : Stands 8 hz W) :
    (addEnd az u1 s1 h i hz).infinity = false ∧ Stands 5 (addEnd az u1 s1 h i hz).x (I ^ 2 - H ^ 3 - 2 * U * H ^ 2) ∧
    Stands 3 (addEnd az u1 s1 h i hz).y ((U * H ^ 2 - (I ^ 2 - H ^ 3 - 2 * U * H ^ 2)) * I - H ^ 3 * S) ∧
    Stands 1 (addEnd az u1 s1 h i hz).z (Z * W) := by
  unfold addEnd
  extract_lets -merge i2 hh h3' z t x0 x1 x2 x3 x4 y0 y1 y2 h3a h3b y3
  have ei : Stands 1 i2 (I ^ 2) := (h5.sqr (by decide)).eq (by ring)
  have eh : Stands 1 hh (H ^ 2) := (h4.sqr (by decide)).eq (by ring)
  have eh3 : Stands 1 h3' (H ^ 3) := (h4.mul eh (by decide) (by decide)).eq (by ring)
  have ez : Stands 1 z (Z * W) := h1.mul h6 (by decide) (by decide)
  have et : Stands 1 t (U * H ^ 2) := h2.mul eh (by decide) (by decide)
  clear_value i2 hh h3' z t
  have ex1 : Stands 2 x1 (2 * U * H ^ 2) := (et.mulInt (k := 2) (by decide)).eq (by push_cast; ring)
  clear_value x1
  have ex2 : Stands 3 x2 (2 * U * H ^ 2 + H ^ 3) := (ex1.add eh3 (by decide)).eq rfl
  clear_value x2
  have ex4 : Stands 5 x4 (I ^ 2 - H ^ 3 - 2 * U * H ^ 2) := ((ex2.negate (by decide)).add ei (by decide)).eq (by ring)
  clear_value x4
  have ey1 : Stands 7 y1 (U * H ^ 2 - (I ^ 2 - H ^ 3 - 2 * U * H ^ 2)) := ((ex4.negate (by decide)).add et (by decide)).eq (by ring)
  have ey2 : Stands 1 y2 ((U * H ^ 2 - (I ^ 2 - H ^ 3 - 2 * U * H ^ 2)) * I) := ey1.mul h5 (by decide) (by decide)
  have e3b : Stands 2 h3b (-(H ^ 3 * S)) := (eh3.mul h3 (by decide) (by decide)).negate (by decide)
  have ey3 : Stands 3 y3 ((U * H ^ 2 - (I ^ 2 - H ^ 3 - 2 * U * H ^ 2)) * I - H ^ 3 * S) := (ey2.add e3b (by decide)).eq (by ring)
  exact ⟨rfl, ex4, ey3, ez⟩

end

/-! ### Doubling -/

theorem y_two {x y : F} (h : curve.Nonsingular x y) : 2 * y ≠ 0 := mul_ne_zero two_ne (y_ne ((on_iff _ _).1 h))

theorem jac_double {g : F} (hg : g ≠ 0) {a : Gej} {P : Point} (h : IsJac g a P) : IsJac g (doubleVar a).1 (P + P) := by
  cases P with
  | zero =>
    have e : doubleVar a = (a, setInt 1) := by unfold doubleVar; rw [h.1, if_pos rfl]
    rw [e]
    show IsJac g a (0 + 0)
    rw [add_zero]; exact h
  | some x y hn =>
    obtain ⟨hi, z, hz0, hx, hy, hz⟩ := h
    obtain ⟨k1, k2, k3, k4, -⟩ := double_words hi hx hy hz
    have h2 := y_two hn
    have hy0 : y ≠ 0 := y_ne ((on_iff _ _).1 hn)
    obtain ⟨h', e⟩ := dbl (l := 3 * x ^ 2 / (2 * y)) hn h2 (mul_div_cancel₀ _ h2) rfl rfl
    rw [e]
    have t2 := two_ne
    refine ⟨k1, _, ?_, (k2.mono (by decide)).eq ?_, (k3.mono (by decide)).eq ?_, k4.mono (by decide)⟩
    · exact mul_ne_zero (mul_ne_zero two_ne (mul_ne_zero hy0 (pow_ne_zero _ (mul_ne_zero hz0 hg)))) hz0
    · field_simp; ring
    · field_simp; ring

/-! ### Addition -/

theorem add_formula {g Z Zr U S H I X3 Y3 W : F} {x1 y1 x2 y2 : F} {n1 : curve.Nonsingular x1 y1} {n2 : curve.Nonsingular x2 y2} {c : F}
    (hc : c ≠ 0) (hx : x1 ≠ x2) (hU : U = x1 * c ^ 2) (hS : S = y1 * c ^ 3) (hH : H = (x2 - x1) * c ^ 2) (hI : I = (y2 - y1) * c ^ 3)
    (hW : Z * W * g = (x2 - x1) * c ^ 3) (hZr : Zr = Z * W)
    (hX : X3 = I ^ 2 - H ^ 3 - 2 * U * H ^ 2) (hY : Y3 = (U * H ^ 2 - X3) * I - H ^ 3 * S) :
    Zr ≠ 0 ∧ ∃ x3 y3 h3, Point.some x1 y1 n1 + Point.some x2 y2 n2 = .some x3 y3 h3 ∧ X3 = x3 * (Zr * g) ^ 2 ∧ Y3 = y3 * (Zr * g) ^ 3 := by
  have hd : x1 - x2 ≠ 0 := sub_ne_zero.2 hx
  have hd' : x2 - x1 ≠ 0 := sub_ne_zero.2 (Ne.symm hx)
  obtain ⟨h', e⟩ := addc (l := (y2 - y1) / (x2 - x1)) n1 n2 hx (by field_simp; ring) rfl rfl
  subst hZr hX hY
  have hne : Z * W * g ≠ 0 := by rw [hW]; exact mul_ne_zero hd' (pow_ne_zero _ hc)
  refine ⟨fun h0 => hne (by rw [h0, zero_mul]), _, _, h', e, ?_, ?_⟩
  · rw [hW, hU, hH, hI]; field_simp; ring
  · rw [hW, hU, hH, hI, hS]; field_simp; ring

theorem opposite {x y y' : F} (h1 : curve.Nonsingular x y) (h2 : curve.Nonsingular x y') (h : y' ≠ y) :
    Point.some x y h1 + Point.some x y' h2 = 0 := by
  have e1 := (on_iff _ _).1 h1
  have e2 := (on_iff _ _).1 h2
  have : (y' - y) * (y' + y) = 0 := by linear_combination e2 - e1
  rcases mul_eq_zero.1 this with e | e
  · exact absurd (sub_eq_zero.1 e) h
  · exact Point.add_of_Y_eq rfl (by rw [negY_eq]; linear_combination e)

theorem zero_def : (Point.zero : Point) = 0 := rfl

theorem jac_zero {g : F} {a : Gej} : IsJac g a 0 ↔ a.infinity = true ∧ Mag 8 a.x ∧ Mag 8 a.y ∧ Mag 8 a.z := Iff.rfl

theorem jac_of {g : F} {a : Gej} {P : Point} {x y : F} {h : curve.Nonsingular x y} (e : P = .some x y h) (k : a.infinity = false ∧
      ∃ z, z ≠ 0 ∧ Stands 8 a.x (x * (z * g) ^ 2) ∧ Stands 8 a.y (y * (z * g) ^ 3) ∧ Stands 8 a.z z) : IsJac g a P := by
  rw [e]; exact k

/-- The addition of two points neither of which is the point at infinity, from the two differences. -/
theorem add_core {g : F} (hg : g ≠ 0) {a : Gej} {r : Gej} {x1 y1 x2 y2 : F} {n1 : curve.Nonsingular x1 y1} {n2 : curve.Nonsingular x2 y2}
    (ha : IsJac g a (.some x1 y1 n1)) {u1 s1 h i hz : Fe} {c Z W : F} (hr : Point.some x1 y1 n1 + Point.some x2 y2 n2 = 0 → Mag 8 r.x ∧ Mag 8 r.y ∧ Mag 8 r.z) (hc : c ≠ 0)
    (h1 : Stands 1 u1 (x1 * c ^ 2)) (h2 : Stands 1 s1 (y1 * c ^ 3)) (h3 : Stands 8 h ((x2 - x1) * c ^ 2)) (h4 : Stands 8 i ((y2 - y1) * c ^ 3))
    (h5 : Stands 8 hz W) (h6 : Stands 8 a.z Z) (h7 : Z * W * g = (x2 - x1) * c ^ 3) :
    IsJac g (addFin r a u1 s1 h i hz).1 (.some x1 y1 n1 + .some x2 y2 n2) := by
  have c2 : c ^ 2 ≠ 0 := pow_ne_zero _ hc
  have c3 : c ^ 3 ≠ 0 := pow_ne_zero _ hc
  unfold addFin
  rw [h3.toZeroVar (by decide), h4.toZeroVar (by decide)]
  by_cases hx : x1 = x2
  · have e1 : decide ((x2 - x1) * c ^ 2 = 0) = true := decide_eq_true (by rw [hx, sub_self, zero_mul])
    rw [e1, if_pos rfl]
    subst hx
    by_cases hy : y1 = y2
    · have e2 : decide ((y2 - y1) * c ^ 3 = 0) = true := decide_eq_true (by rw [hy, sub_self, zero_mul])
      rw [e2, if_pos rfl]
      subst hy
      exact jac_double hg ha
    · have e2 : decide ((y2 - y1) * c ^ 3 = 0) = false :=
        decide_eq_false (mul_ne_zero (sub_ne_zero.2 (Ne.symm hy)) c3)
      have e3 := opposite n1 n2 (Ne.symm hy)
      rw [e2, if_neg (by decide), e3]
      exact jac_zero.2 ⟨rfl, hr e3⟩
  · have e1 : decide ((x2 - x1) * c ^ 2 = 0) = false := decide_eq_false (mul_ne_zero (sub_ne_zero.2 (Ne.symm hx)) c2)
    rw [e1, if_neg (by decide)]
    obtain ⟨k1, k2, k3, k4⟩ := end_words h6 h1 h2 h3 h4 h5
    obtain ⟨z0, x3, y3, hn, e, ex, ey⟩ := add_formula (n1 := n1) (n2 := n2) hc hx rfl rfl rfl rfl h7 rfl rfl rfl
    exact jac_of e ⟨k1, _, z0, (k2.mono (by decide)).eq ex, (k3.mono (by decide)).eq ey, k4.mono (by decide)⟩

theorem addVar_eq {r a b : Gej} (ha : a.infinity = false) (hb : b.infinity = false) {z22 z12 u1 u2 s1 s2 h i hz : Fe} (e1 : z22 = sqr b.z)
    (e2 : z12 = sqr a.z) (e3 : u1 = mul a.x z22) (e4 : u2 = mul b.x z12) (e5 : s1 = mul (mul a.y z22) b.z) (e6 : s2 = mul (mul b.y z12) a.z)
    (e7 : h = add (negate u1 1) u2) (e8 : i = add (negate s1 1) s2) (e9 : hz = mul h b.z) : addVar r a b = addFin r a u1 s1 h i hz := by
  subst e1 e2 e3 e4 e5 e6 e7 e8 e9
  unfold addVar
  rw [ha, hb, if_neg (by decide), if_neg (by decide)]

theorem addGeVar_eq {r a : Gej} {b : Ge} (ha : a.infinity = false) (hb : b.infinity = false) {z12 u1 u2 s1 s2 h i : Fe}
    (e2 : z12 = sqr a.z) (e3 : u1 = normalizeWeak a.x) (e4 : u2 = mul b.x z12) (e5 : s1 = normalizeWeak a.y) (e6 : s2 = mul (mul b.y z12) a.z)
    (e7 : h = add (negate u1 1) u2) (e8 : i = add (negate s1 1) s2) : addGeVar r a b = addFin r a u1 s1 h i h := by
  subst e2 e3 e4 e5 e6 e7 e8
  unfold addGeVar
  rw [ha, hb, if_neg (by decide), if_neg (by decide)]

theorem var_core {g : F} (hg : g ≠ 0) {r a b : Gej} {x1 y1 x2 y2 : F} {n1 : curve.Nonsingular x1 y1} {n2 : curve.Nonsingular x2 y2}
    (hr : Point.some x1 y1 n1 + Point.some x2 y2 n2 = 0 → Mag 8 r.x ∧ Mag 8 r.y ∧ Mag 8 r.z) (ha : IsJac g a (.some x1 y1 n1)) (hb : IsJac g b (.some x2 y2 n2))
    {z22 z12 u1 u2 s1 s2 h i hz : Fe} (e1 : z22 = sqr b.z)
    (e2 : z12 = sqr a.z) (e3 : u1 = mul a.x z22) (e4 : u2 = mul b.x z12) (e5 : s1 = mul (mul a.y z22) b.z) (e6 : s2 = mul (mul b.y z12) a.z)
    (e7 : h = add (negate u1 1) u2) (e8 : i = add (negate s1 1) s2) (e9 : hz = mul h b.z) :
    IsJac g (addFin r a u1 s1 h i hz).1 (.some x1 y1 n1 + .some x2 y2 n2) := by
  obtain ⟨-, z, z0, hx, hy, hZ⟩ := id ha
  obtain ⟨-, w, w0, hx', hy', hZ'⟩ := id hb
  have e22 : Stands 1 z22 (w * w) := by rw [e1]; exact hZ'.sqr (by decide)
  have e12 : Stands 1 z12 (z * z) := by rw [e2]; exact hZ.sqr (by decide)
  have hu1 : Stands 1 u1 (x1 * (z * w * g) ^ 2) := by rw [e3]; exact (hx.mul e22 (by decide) (by decide)).eq (by ring)
  have hu2 : Stands 1 u2 (x2 * (z * w * g) ^ 2) := by rw [e4]; exact (hx'.mul e12 (by decide) (by decide)).eq (by ring)
  have hs1 : Stands 1 s1 (y1 * (z * w * g) ^ 3) := by
    rw [e5]; exact ((hy.mul e22 (by decide) (by decide)).mul hZ' (by decide) (by decide)).eq (by ring)
  have hs2 : Stands 1 s2 (y2 * (z * w * g) ^ 3) := by
    rw [e6]; exact ((hy'.mul e12 (by decide) (by decide)).mul hZ (by decide) (by decide)).eq (by ring)
  have hh : Stands 3 h ((x2 - x1) * (z * w * g) ^ 2) := by rw [e7]; exact ((hu1.negate (by decide)).add hu2 (by decide)).eq (by ring)
  have hi : Stands 3 i ((y2 - y1) * (z * w * g) ^ 3) := by rw [e8]; exact ((hs1.negate (by decide)).add hs2 (by decide)).eq (by ring)
  have hhz : Stands 1 hz ((x2 - x1) * (z * w * g) ^ 2 * w) := by rw [e9]; exact hh.mul hZ' (by decide) (by decide)
  exact add_core hg ha hr (mul_ne_zero (mul_ne_zero z0 w0) hg) hu1 hs1 (hh.mono (by decide)) (hi.mono (by decide))
    (hhz.mono (by decide)) hZ (by ring)

theorem jac_addVar {g : F} (hg : g ≠ 0) {r a b : Gej} {P Q : Point} (hr : P + Q = 0 → Mag 8 r.x ∧ Mag 8 r.y ∧ Mag 8 r.z) (ha : IsJac g a P) (hb : IsJac g b Q) :
    IsJac g (addVar r a b).1 (P + Q) := by
  cases P with
  | zero =>
    have e : addVar r a b = (b, none) := by unfold addVar; rw [ha.1, if_pos rfl]
    rw [e, zero_def, zero_add]; exact hb
  | some x1 y1 n1 =>
    cases Q with
    | zero =>
      have e : addVar r a b = (a, some (setInt 1)) := by unfold addVar; rw [ha.1, hb.1, if_pos rfl, if_neg (by decide)]
      rw [e, zero_def, add_zero]; exact ha
    | some x2 y2 n2 =>
      rw [addVar_eq ha.1 hb.1 rfl rfl rfl rfl rfl rfl rfl rfl rfl]
      exact var_core hg hr ha hb rfl rfl rfl rfl rfl rfl rfl rfl rfl

theorem aff_ge {g : F} {b : Ge} {P : Point} (h : IsAff g b P) : IsJac g (gejSetGe b) P := by
  cases P with
  | zero => exact h.elim
  | some x y hn =>
    have h1 := int_stands (n := 1) (by decide)
    rw [Nat.cast_one] at h1
    exact ⟨h.1, 1, one_ne_zero, h.2.1.eq (by ring), h.2.2.eq (by ring), h1.mono (by decide)⟩

theorem geVar_core {g : F} (hg : g ≠ 0) {r a : Gej} {b : Ge} {x1 y1 x2 y2 : F} {n1 : curve.Nonsingular x1 y1} {n2 : curve.Nonsingular x2 y2}
    (hr : Point.some x1 y1 n1 + Point.some x2 y2 n2 = 0 → Mag 8 r.x ∧ Mag 8 r.y ∧ Mag 8 r.z) (ha : IsJac g a (.some x1 y1 n1)) (hb : IsAff g b (.some x2 y2 n2))
    {z12 u1 u2 s1 s2 h i : Fe}
    (e2 : z12 = sqr a.z) (e3 : u1 = normalizeWeak a.x) (e4 : u2 = mul b.x z12) (e5 : s1 = normalizeWeak a.y) (e6 : s2 = mul (mul b.y z12) a.z)
    (e7 : h = add (negate u1 1) u2) (e8 : i = add (negate s1 1) s2) :
    IsJac g (addFin r a u1 s1 h i h).1 (.some x1 y1 n1 + .some x2 y2 n2) := by
  obtain ⟨-, z, z0, hx, hy, hZ⟩ := id ha
  obtain ⟨-, hx', hy'⟩ := id hb
  have e12 : Stands 1 z12 (z * z) := by rw [e2]; exact hZ.sqr (by decide)
  have hu1 : Stands 1 u1 (x1 * (z * g) ^ 2) := by rw [e3]; exact hx.weak (by decide)
  have hu2 : Stands 1 u2 (x2 * (z * g) ^ 2) := by rw [e4]; exact (hx'.mul e12 (by decide) (by decide)).eq (by ring)
  have hs1 : Stands 1 s1 (y1 * (z * g) ^ 3) := by rw [e5]; exact hy.weak (by decide)
  have hs2 : Stands 1 s2 (y2 * (z * g) ^ 3) := by
    rw [e6]; exact ((hy'.mul e12 (by decide) (by decide)).mul hZ (by decide) (by decide)).eq (by ring)
  have hh : Stands 3 h ((x2 - x1) * (z * g) ^ 2) := by rw [e7]; exact ((hu1.negate (by decide)).add hu2 (by decide)).eq (by ring)
  have hi : Stands 3 i ((y2 - y1) * (z * g) ^ 3) := by rw [e8]; exact ((hs1.negate (by decide)).add hs2 (by decide)).eq (by ring)
  exact add_core hg ha hr (mul_ne_zero z0 hg) hu1 hs1 (hh.mono (by decide)) (hi.mono (by decide))
    (hh.mono (by decide)) hZ (by ring)

theorem jac_addGeVar {g : F} (hg : g ≠ 0) {r a : Gej} {b : Ge} {P Q : Point} (hr : P + Q = 0 → Mag 8 r.x ∧ Mag 8 r.y ∧ Mag 8 r.z) (ha : IsJac g a P)
    (hb : IsAff g b Q) : IsJac g (addGeVar r a b).1 (P + Q) := by
  cases P with
  | zero =>
    have e : addGeVar r a b = (gejSetGe b, none) := by unfold addGeVar; rw [ha.1, if_pos rfl]
    rw [e, zero_def, zero_add]; exact aff_ge hb
  | some x1 y1 n1 =>
    cases Q with
    | zero => exact hb.elim
    | some x2 y2 n2 =>
      rw [addGeVar_eq ha.1 hb.1 rfl rfl rfl rfl rfl rfl rfl]
      exact geVar_core hg hr ha hb rfl rfl rfl rfl rfl rfl rfl

end Verif.Lemmas.Group52

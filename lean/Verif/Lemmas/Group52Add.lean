import Verif.Lemmas.Group52
/-
The addition without branches on points in Jacobian coordinates, and the rest of the operations.
-/
namespace Verif.Lemmas.Group52
open Verif Verif.Spec.Secp Verif.Field52 Verif.Ec52 Verif.Lemmas.EllGroup Verif.Lemmas.SecpOrder
open WeierstrassCurve.Affine
open Verif.Lemmas.EllField (x_ne y_ne)

/-- Jacobian coordinates that stand for the point. -/
def JacF (g : F) (e : Elligator.Gej) : Point → Prop
  | .zero => e.infinity = true
  | .some x y _ => e.infinity = false ∧ e.z ≠ 0 ∧ e.x = x * (e.z * g) ^ 2 ∧ e.y = y * (e.z * g) ^ 3

theorem jacF_of {g : F} {e : Elligator.Gej} {P : Point} {x y : F} {h : curve.Nonsingular x y} (k : P = .some x y h)
    (h : e.infinity = false ∧ e.z ≠ 0 ∧ e.x = x * (e.z * g) ^ 2 ∧ e.y = y * (e.z * g) ^ 3) : JacF g e P := by
  rw [k]; exact h

theorem addGe_fin (X Y z X' Y' : F) : Elligator.addGe ⟨X, Y, z, false⟩ ⟨X', Y', false⟩ =
    let u2 := X' * (z * z)
    let s2 := Y' * (z * z) * z
    let m := Y + s2
    let t := X + u2
    let rr := t * t + X * -u2
    let dg := m == 0 && rr == 0
    let R := if dg then 2 * Y else rr
    let M := if dg then -u2 + X else m
    let n := if dg then m else M * M * (M * M)
    ⟨4 * (R * R + -(M * M * t)), 4 * -((2 * (R * R + -(M * M * t)) + -(M * M * t)) * R + n), 2 * (z * M), z * M == 0⟩ := by
  simp only [Elligator.addGe, Bool.not_false, Bool.and_true, Bool.false_eq_true, if_false]

theorem key {g z x1 y1 x2 y2 : F} {n1 : curve.Nonsingular x1 y1} {n2 : curve.Nonsingular x2 y2} (hg : g ≠ 0) (hz : z ≠ 0) {R0 M0 w u : F}
    (hu : u = z * g) (hw : w ≠ 0) (hM : M0 ≠ 0) (hl : curve.slope x1 x2 y1 y2 = R0 / M0) (hne : ¬ (x1 = x2 ∧ y1 = -y2))
    (hR : R0 * (x1 - x2) = (y1 - y2) * M0) {R M N T : F} (eR : R = w * u * R0) (eM : M = w * M0) (eN : N = M ^ 3 * (u ^ 3 * (y1 + y2)))
    (eT : T = u ^ 2 * (x1 + x2)) :
    JacF g ⟨4 * (R * R + -(M * M * T)), 4 * -((2 * (R * R + -(M * M * T)) + -(M * M * T)) * R + N), 2 * (z * M), z * M == 0⟩
      (.some x1 y1 n1 + .some x2 y2 n2) := by
  obtain ⟨h', e⟩ := add_l n1 n2 hne hl
  have h2ne := two_ne
  have hMM : M ≠ 0 := by rw [eM]; exact mul_ne_zero hw hM
  have hu0 : u ≠ 0 := by rw [hu]; exact mul_ne_zero hz hg
  refine jacF_of e ⟨?_, ?_, ?_, ?_⟩
  · exact beq_eq_false_iff_ne.2 (mul_ne_zero hz hMM)
  · exact mul_ne_zero h2ne (mul_ne_zero hz hMM)
  · show 4 * (R * R + -(M * M * T)) = ((R0 / M0) ^ 2 - x1 - x2) * (2 * (z * M) * g) ^ 2
    have e1 : 2 * (z * M) * g = 2 * u * M := by rw [hu]; ring
    rw [e1, eR, eT, eM]
    field_simp
    ring
  · show 4 * -((2 * (R * R + -(M * M * T)) + -(M * M * T)) * R + N) =
      (R0 / M0 * (x1 - ((R0 / M0) ^ 2 - x1 - x2)) - y1) * (2 * (z * M) * g) ^ 3
    have e1 : 2 * (z * M) * g = 2 * u * M := by rw [hu]; ring
    have hd : R0 / M0 * (x1 - ((R0 / M0) ^ 2 - x1 - x2)) - y1 =
        (R0 * (3 * (x1 + x2) * M0 ^ 2 - 2 * R0 ^ 2) + (R0 * (x1 - x2)) * M0 ^ 2 - 2 * y1 * M0 ^ 3) / (2 * M0 ^ 3) := by
      field_simp; ring
    rw [e1, hd, hR, eN, eR, eT, eM]
    field_simp
    ring

/-- The addition formula, with the third coordinate and a factor. -/
theorem addGe_gen {g z x1 y1 x2 y2 : F} {n1 : curve.Nonsingular x1 y1} {n2 : curve.Nonsingular x2 y2} (hg : g ≠ 0) (hz : z ≠ 0) :
    JacF g (Elligator.addGe ⟨x1 * (z * g) ^ 2, y1 * (z * g) ^ 3, z, false⟩ ⟨x2 * g ^ 2, y2 * g ^ 3, false⟩) (.some x1 y1 n1 + .some x2 y2 n2) := by
  have h1 := (on_iff _ _).1 n1
  have h2 := (on_iff _ _).1 n2
  obtain ⟨u, hu⟩ : ∃ u, u = z * g := ⟨_, rfl⟩
  have hu0 : u ≠ 0 := by rw [hu]; exact mul_ne_zero hz hg
  have u2 : u ^ 2 ≠ 0 := pow_ne_zero _ hu0
  have u3 : u ^ 3 ≠ 0 := pow_ne_zero _ hu0
  have u4 : u ^ 4 ≠ 0 := pow_ne_zero _ hu0
  rw [addGe_fin]
  dsimp only
  have e1 : x2 * g ^ 2 * (z * z) = x2 * u ^ 2 := by rw [hu]; ring
  have e2 : y2 * g ^ 3 * (z * z) * z = y2 * u ^ 3 := by rw [hu]; ring
  rw [e1, e2, ← hu]
  have em : y1 * u ^ 3 + y2 * u ^ 3 = u ^ 3 * (y1 + y2) := by ring
  have et : x1 * u ^ 2 + x2 * u ^ 2 = u ^ 2 * (x1 + x2) := by ring
  have er : u ^ 2 * (x1 + x2) * (u ^ 2 * (x1 + x2)) + x1 * u ^ 2 * -(x2 * u ^ 2) = u ^ 4 * (x1 ^ 2 + x1 * x2 + x2 ^ 2) := by ring
  have ex : -(x2 * u ^ 2) + x1 * u ^ 2 = u ^ 2 * (x1 - x2) := by ring
  rw [em, et, er, ex]
  by_cases hm : y1 + y2 = 0
  · have hy : y1 = -y2 := by linear_combination hm
    have hc : (x1 - x2) * (x1 ^ 2 + x1 * x2 + x2 ^ 2) = 0 := by
      rw [hy] at h1; linear_combination h2 - h1
    by_cases hr : x1 ^ 2 + x1 * x2 + x2 ^ 2 = 0
    · have hx : x1 ≠ x2 := by
        intro h
        rw [h] at hr
        have h3 : (3 : F) * x2 ^ 2 = 0 := by linear_combination hr
        rcases mul_eq_zero.1 h3 with e | e
        · exact three_ne e
        · exact x_ne h2 (pow_eq_zero_iff (by norm_num) |>.1 e)
      have hdg : (u ^ 3 * (y1 + y2) == 0 && u ^ 4 * (x1 ^ 2 + x1 * x2 + x2 ^ 2) == 0) = true := by
        rw [hm, hr, mul_zero, mul_zero]; simp
      rw [hdg]
      simp only [if_true]
      refine key (R0 := 2 * y1) (M0 := x1 - x2) (w := u ^ 2) (u := u) hg hz hu u2 (sub_ne_zero.2 hx) ?_ (fun h => hx h.1) ?_
        (by ring) rfl ?_ rfl
      · rw [slope_of_X_ne hx]
        congr 1; linear_combination -hm
      · linear_combination (x1 - x2) * hm
      · rw [hm, mul_zero, mul_zero]
    · have hdg : (u ^ 3 * (y1 + y2) == 0 && u ^ 4 * (x1 ^ 2 + x1 * x2 + x2 ^ 2) == 0) = false := by
        rw [beq_eq_false_iff_ne.2 (mul_ne_zero u4 hr), Bool.and_false]
      rw [hdg]
      simp only [Bool.false_eq_true, if_false]
      have hx : x1 = x2 := by
        rcases mul_eq_zero.1 hc with e | e
        · exact sub_eq_zero.1 e
        · exact absurd e hr
      rw [Point.add_of_Y_eq hx (by rw [negY_eq]; exact hy)]
      show (z * (u ^ 3 * (y1 + y2)) == 0) = true
      rw [hm, mul_zero, mul_zero]; exact beq_self_eq_true _
  · have hdg : (u ^ 3 * (y1 + y2) == 0 && u ^ 4 * (x1 ^ 2 + x1 * x2 + x2 ^ 2) == 0) = false := by
      rw [beq_eq_false_iff_ne.2 (mul_ne_zero u3 hm)]; rfl
    rw [hdg]
    simp only [Bool.false_eq_true, if_false]
    refine key (R0 := x1 ^ 2 + x1 * x2 + x2 ^ 2) (M0 := y1 + y2) (w := u ^ 3) (u := u) hg hz hu u3 hm (slope_m h1 h2 hm) ?_ ?_ (by ring) rfl
      (by ring) rfl
    · rintro ⟨-, h⟩; exact hm (by rw [h]; ring)
    · linear_combination h2 - h1

theorem jac_words {g : F} {a : Gej} {P : Point} (h : IsJac g a P) : ∃ e, GejS 8 a e ∧ JacF g e P := by
  cases P with
  | zero => exact ⟨⟨_, _, _, true⟩, ⟨⟨h.2.1, rfl⟩, ⟨h.2.2.1, rfl⟩, ⟨h.2.2.2, rfl⟩, h.1⟩, rfl⟩
  | some x y hn =>
    obtain ⟨hi, z, z0, hx, hy, hz⟩ := h
    exact ⟨⟨_, _, z, false⟩, ⟨hx, hy, hz, hi⟩, rfl, z0, rfl, rfl⟩

theorem words_jac {g : F} {a : Gej} {e : Elligator.Gej} {P : Point} (h : GejS 8 a e) (k : JacF g e P) : IsJac g a P := by
  obtain ⟨hx, hy, hz, hi⟩ := h
  cases P with
  | zero => exact ⟨hi.trans k, hx.1, hy.1, hz.1⟩
  | some x y hn => exact ⟨hi.trans k.1, e.z, k.2.1, hx.eq k.2.2.1, hy.eq k.2.2.2, hz⟩

theorem addGe_inf {e : Elligator.Gej} {f : Elligator.Ge} (h : e.infinity = true) :
    Elligator.addGe e f = ⟨f.x, f.y, 1, false⟩ := by
  simp only [Elligator.addGe, h, if_true, Bool.not_true, Bool.and_false]

theorem jac_addGe {g : F} (hg : g ≠ 0) {a : Gej} {b : Ge} {P Q : Point} (ha : IsJac g a P) (hb : IsAff g b Q) : IsJac g (addGe a b) (P + Q) := by
  cases Q with
  | zero => exact hb.elim
  | some x2 y2 n2 =>
    obtain ⟨hi', hx', hy'⟩ := id hb
    have hb' : GeS 8 b ⟨x2 * g ^ 2, y2 * g ^ 3, false⟩ := ⟨hx', hy', hi'⟩
    cases P with
    | zero =>
      obtain ⟨e, k1, k2⟩ := jac_words ha
      have := addGe_spec k1 hb'
      rw [addGe_inf k2] at this
      rw [zero_def, zero_add]
      exact words_jac this ⟨rfl, one_ne_zero, by show x2 * g ^ 2 = x2 * (1 * g) ^ 2; rw [one_mul], by show y2 * g ^ 3 = y2 * (1 * g) ^ 3; rw [one_mul]⟩
    | some x1 y1 n1 =>
      obtain ⟨hi, z, z0, hx, hy, hz⟩ := ha
      have ha' : GejS 8 a ⟨x1 * (z * g) ^ 2, y1 * (z * g) ^ 3, z, false⟩ := ⟨hx, hy, hz, hi⟩
      exact words_jac (addGe_spec ha' hb') (addGe_gen hg z0)

/-! ### The rest -/

theorem stands_self {m : Nat} {a : Fe} (h : Mag m a) : Stands m a ((val a : Nat) : F) := ⟨h, rfl⟩

theorem gejNeg_eq {a : Gej} {y : Fe} (e : y = negate (normalizeWeak a.y) 1) : gejNeg a = ⟨a.x, y, a.z, a.infinity⟩ := by rw [e]; rfl

theorem geNeg_eq {a : Ge} {y : Fe} (e : y = negate (normalizeWeak a.y) 1) : geNeg a = ⟨a.x, y, a.infinity⟩ := by rw [e]; rfl

theorem neg_some {x y : F} (h : curve.Nonsingular x y) : ∃ h', (-.some x y h : Point) = .some x (-y) h' := by
  have e : (-.some x y h : Point) = .some x (curve.negY x y) ((WeierstrassCurve.Affine.nonsingular_neg x y).2 h) := rfl
  have h' := (WeierstrassCurve.Affine.nonsingular_neg x y).2 h
  rw [negY_eq] at h'
  refine ⟨h', ?_⟩
  rw [e, Point.some.injEq]
  exact ⟨rfl, negY_eq x y⟩

theorem jac_neg {g : F} {a : Gej} {P : Point} (h : IsJac g a P) : IsJac g (gejNeg a) (-P) := by
  obtain ⟨v, e⟩ : ∃ v, v = negate (normalizeWeak a.y) 1 := ⟨_, rfl⟩
  rw [gejNeg_eq e]
  cases P with
  | zero =>
    obtain ⟨h1, h2, h3, h4⟩ := h
    have hy := ((stands_self h3).weak (by decide)).negate (by decide)
    rw [← e] at hy
    rw [zero_def, neg_zero]
    exact ⟨h1, h2, (hy.mono (by decide)).1, h4⟩
  | some x y hn =>
    obtain ⟨h', k⟩ := neg_some hn
    obtain ⟨hi, z, z0, hx, hy, hz⟩ := h
    have hy' := (hy.weak (by decide)).negate (by decide)
    rw [← e] at hy'
    exact jac_of k ⟨hi, z, z0, hx, (hy'.mono (by decide)).eq (by ring), hz⟩

theorem aff_neg {g : F} {b : Ge} {P : Point} (h : IsAff g b P) : IsAff g (geNeg b) (-P) := by
  obtain ⟨v, e⟩ : ∃ v, v = negate (normalizeWeak b.y) 1 := ⟨_, rfl⟩
  rw [geNeg_eq e]
  cases P with
  | zero => exact h.elim
  | some x y hn =>
    obtain ⟨h', k⟩ := neg_some hn
    obtain ⟨hi, hx, hy⟩ := h
    have hy' := (hy.weak (by decide)).negate (by decide)
    rw [← e] at hy'
    rw [k]
    exact ⟨hi, hx, (hy'.mono (by decide)).eq (by ring)⟩

theorem rescale_eq {r : Gej} {s zz : Fe} (e : zz = sqr s) : rescale r s = ⟨mul r.x zz, mul (mul r.y zz) s, mul r.z s, r.infinity⟩ := by
  rw [e]; rfl

theorem jac_rescale {g : F} {r : Gej} {s : Fe} {t : F} {P : Point} (h : IsJac g r P) (hs : Stands 8 s t) (ht : t ≠ 0) : IsJac g (rescale r s) P := by
  obtain ⟨zz, e⟩ : ∃ zz, zz = sqr s := ⟨_, rfl⟩
  have hzz : Stands 1 zz (t * t) := by rw [e]; exact hs.sqr (by decide)
  rw [rescale_eq e]
  cases P with
  | zero =>
    obtain ⟨h1, h2, h3, h4⟩ := h
    have k1 := (stands_self h2).mul hzz (by decide) (by decide)
    have k2 := ((stands_self h3).mul hzz (by decide) (by decide)).mul hs (by decide) (by decide)
    have k3 := (stands_self h4).mul hs (by decide) (by decide)
    exact ⟨h1, (k1.mono (by decide)).1, (k2.mono (by decide)).1, (k3.mono (by decide)).1⟩
  | some x y hn =>
    obtain ⟨hi, z, z0, hx, hy, hz⟩ := h
    have k1 := hx.mul hzz (by decide) (by decide)
    have k2 := (hy.mul hzz (by decide) (by decide)).mul hs (by decide) (by decide)
    have k3 := hz.mul hs (by decide) (by decide)
    exact ⟨hi, _, mul_ne_zero z0 ht, (k1.mono (by decide)).eq (by ring), (k2.mono (by decide)).eq (by ring), k3.mono (by decide)⟩

theorem jac_ge {a : Gej} {P : Point} (h : IsJac 1 a P) : IsPoint 8 (geSetGej a) P := by
  cases P with
  | zero => exact h.1
  | some x y hn =>
    obtain ⟨hi, z, z0, hx, hy, hz⟩ := h
    have i1 := Ec52Points.inverse hz (by decide)
    have i2 : Stands 1 _ _ := i1.sqr (by decide)
    have i3 : Stands 1 _ _ := i1.mul i2 (by decide) (by decide)
    refine ⟨hi, ((hx.mul i2 (by decide) (by decide)).mono (by decide)).eq ?_, ((hy.mul i3 (by decide) (by decide)).mono (by decide)).eq ?_⟩
    · field_simp
    · field_simp

theorem aff_point {b : Ge} {x y : F} {h : curve.Nonsingular x y} : IsAff 1 b (.some x y h) ↔ IsPoint 8 b (.some x y h) := by
  show (_ ∧ Stands 8 b.x (x * 1 ^ 2) ∧ Stands 8 b.y (y * 1 ^ 3)) ↔ (_ ∧ Stands 8 b.x x ∧ Stands 8 b.y y)
  rw [one_pow, one_pow, mul_one, mul_one]

/-- Multiplication of the third coordinate takes a factor away. -/
theorem jac_scale {g : F} {a : Gej} {s : Fe} {P : Point} (h : IsJac g a P) (hs : Stands 8 s g) (hg : g ≠ 0) :
    IsJac 1 ⟨a.x, a.y, mul a.z s, a.infinity⟩ P := by
  cases P with
  | zero =>
    obtain ⟨h1, h2, h3, h4⟩ := h
    have k3 := (stands_self h4).mul hs (by decide) (by decide)
    exact ⟨h1, h2, h3, (k3.mono (by decide)).1⟩
  | some x y hn =>
    obtain ⟨hi, z, z0, hx, hy, hz⟩ := h
    have k3 := hz.mul hs (by decide) (by decide)
    exact ⟨hi, _, mul_ne_zero z0 hg, hx.eq (by rw [mul_one]), hy.eq (by rw [mul_one]), k3.mono (by decide)⟩

/-- The affine form from the inverse of the third coordinate, or from a quotient that leaves a factor. -/
theorem aff_zinv {g g' : F} {a : Gej} {s : Fe} {t : F} {P : Point} (hP : P ≠ 0) (h : IsJac g a P) (hs : Stands 8 s t)
    (ht : ∀ z, Stands 8 a.z z → z * t * g = g') : IsAff g' (setGejZinv a s) P := by
  cases P with
  | zero => exact absurd rfl hP
  | some x y hn =>
    obtain ⟨hi, z, z0, hx, hy, hz⟩ := h
    have k2 := hs.sqr (by decide)
    have k3 := k2.mul hs (by decide) (by decide)
    have e := ht z hz
    subst e
    exact ⟨hi, ((hx.mul k2 (by decide) (by decide)).mono (by decide)).eq (by ring), ((hy.mul k3 (by decide) (by decide)).mono (by decide)).eq (by ring)⟩

theorem jac_eqX {a : Gej} {f : Fe} {x0 x y : F} {h : curve.Nonsingular x y} (ha : IsJac 1 a (.some x y h)) (hf : Stands 8 f x0) :
    gejEqX f a = decide (x0 = x) := by
  obtain ⟨hi, z, z0, hx, hy, hz⟩ := ha
  have k1 := (hz.sqr (by decide)).mul hf (by decide) (by decide)
  have k2 := (k1.negate (by decide)).add (hx.weak (by decide)) (by decide)
  show normalizesToZeroVar (add (negate (mul (sqr a.z) f) 1) (normalizeWeak a.x)) = _
  rw [k2.toZeroVar (by decide)]
  refine decide_eq_decide.2 ⟨fun e => ?_, fun e => ?_⟩
  · have : (z * z) * (x - x0) = 0 := by linear_combination e
    rcases mul_eq_zero.1 this with e | e
    · exact absurd e (mul_ne_zero z0 z0)
    · exact (sub_eq_zero.1 e).symm
  · rw [e]; ring

/-- The quotient of the third coordinates. -/
theorem ratio_core {r a : Gej} {u1 s1 h i hz : Fe} {X Y Z U S H I W : F} (hi : a.infinity = false) (ax : Stands 8 a.x X) (ay : Stands 8 a.y Y)
    (h1 : Stands 8 a.z Z) (h2 : Stands 1 u1 U) (h3 : Stands 1 s1 S)
    (h4 : Stands 8 h H) (h5 : Stands 8 i I) (h6 : Stands 8 hz W) (hne : H = 0 → I = 0) :
    ∃ f t, (addFin r a u1 s1 h i hz).2 = some f ∧ Stands 8 f t ∧ Stands 8 (addFin r a u1 s1 h i hz).1.z (Z * t) := by
  unfold addFin
  rw [h4.toZeroVar (by decide), h5.toZeroVar (by decide)]
  by_cases e : H = 0
  · have e1 : decide (H = 0) = true := decide_eq_true e
    have e2 : decide (I = 0) = true := decide_eq_true (hne e)
    rw [e1, e2, if_pos rfl, if_pos rfl]
    obtain ⟨-, -, -, k4, k5⟩ := double_words hi ax ay h1
    exact ⟨_, _, rfl, k5.mono (by decide), (k4.mono (by decide)).eq (by ring)⟩
  · have e1 : decide (H = 0) = false := decide_eq_false e
    rw [e1, if_neg (by decide)]
    obtain ⟨-, -, -, k4⟩ := end_words h1 h2 h3 h4 h5 h6
    exact ⟨_, _, rfl, h6, k4.mono (by decide)⟩

theorem ratio_ge {r a : Gej} {b : Ge} {g x1 y1 x2 y2 : F} {n1 : curve.Nonsingular x1 y1} {n2 : curve.Nonsingular x2 y2} (hg : g ≠ 0)
    (ha : IsJac g a (.some x1 y1 n1)) (hb : IsAff g b (.some x2 y2 n2)) (hne : x1 = x2 → y1 = y2) {z12 u1 u2 s1 s2 h i : Fe}
    (e2 : z12 = sqr a.z) (e3 : u1 = normalizeWeak a.x) (e4 : u2 = mul b.x z12) (e5 : s1 = normalizeWeak a.y) (e6 : s2 = mul (mul b.y z12) a.z)
    (e7 : h = add (negate u1 1) u2) (e8 : i = add (negate s1 1) s2) :
    ∃ f t, (addFin r a u1 s1 h i h).2 = some f ∧ Stands 8 f t ∧ ∀ z, Stands 8 a.z z → Stands 8 (addFin r a u1 s1 h i h).1.z (z * t) := by
  obtain ⟨hai, z, z0, hx, hy, hZ⟩ := id ha
  obtain ⟨-, hx', hy'⟩ := id hb
  have e12 : Stands 1 z12 (z * z) := by rw [e2]; exact hZ.sqr (by decide)
  have hu1 : Stands 1 u1 (x1 * (z * g) ^ 2) := by rw [e3]; exact hx.weak (by decide)
  have hu2 : Stands 1 u2 (x2 * (z * g) ^ 2) := by rw [e4]; exact (hx'.mul e12 (by decide) (by decide)).eq (by ring)
  have hs1 : Stands 1 s1 (y1 * (z * g) ^ 3) := by rw [e5]; exact hy.weak (by decide)
  have hs2 : Stands 1 s2 (y2 * (z * g) ^ 3) := by
    rw [e6]; exact ((hy'.mul e12 (by decide) (by decide)).mul hZ (by decide) (by decide)).eq (by ring)
  have hh : Stands 3 h ((x2 - x1) * (z * g) ^ 2) := by rw [e7]; exact ((hu1.negate (by decide)).add hu2 (by decide)).eq (by ring)
  have hi : Stands 3 i ((y2 - y1) * (z * g) ^ 3) := by rw [e8]; exact ((hs1.negate (by decide)).add hs2 (by decide)).eq (by ring)
  obtain ⟨f, t, k1, k2, k3⟩ := ratio_core (r := r) hai hx hy hZ hu1 hs1 (hh.mono (by decide)) (hi.mono (by decide)) (hh.mono (by decide)) (by
    intro e
    have hx : x1 = x2 := by
      rcases mul_eq_zero.1 e with e | e
      · exact (sub_eq_zero.1 e).symm
      · exact absurd e (pow_ne_zero _ (mul_ne_zero z0 hg))
    rw [hne hx, sub_self, zero_mul])
  refine ⟨f, t, k1, k2, fun z' h' => ?_⟩
  have : z' = z := h'.2.symm.trans hZ.2
  rw [this]; exact k3

theorem ratio_words {g : F} (hg : g ≠ 0) {r a : Gej} {b : Ge} {P Q : Point} (ha : IsJac g a P) (hP : P ≠ 0) (hb : IsAff g b Q)
    (h : P + Q ≠ 0) : ∃ f t, (addGeVar r a b).2 = some f ∧ Stands 8 f t ∧ ∀ z, Stands 8 a.z z → Stands 8 (addGeVar r a b).1.z (z * t) := by
  cases P with
  | zero => exact absurd rfl hP
  | some x1 y1 n1 =>
    cases Q with
    | zero => exact hb.elim
    | some x2 y2 n2 =>
      rw [addGeVar_eq ha.1 hb.1 rfl rfl rfl rfl rfl rfl rfl]
      refine ratio_ge hg ha hb ?_ rfl rfl rfl rfl rfl rfl rfl
      intro e
      subst e
      by_contra hy
      exact h (opposite n1 n2 (Ne.symm hy))

end Verif.Lemmas.Group52

import Verif.Lemmas.EllMap
/-
The addition of `group_impl.h` is the addition of the group.
-/
namespace Verif.Lemmas.EllGroup
open Verif Verif.Spec.Secp Verif.Elligator Verif.Lemmas.EllField Verif.Lemmas.EllMap WeierstrassCurve.Affine

/-- The affine point stands for the point of the group. -/
def Is (g : Ge) : Point → Prop
  | .zero => g.infinity = true
  | .some x y _ => g = ⟨x, y, false⟩

theorem on_ns {g : Ge} (h : On g) : curve.Nonsingular g.x g.y := (on_iff _ _).2 h.2

/-- The point of the group. -/
def pt {g : Ge} (h : On g) : Point := .some g.x g.y (on_ns h)

theorem is_pt {g : Ge} (h : On g) : Is g (pt h) := ge_ext h.1 rfl rfl

theorem is_inj {g : Ge} {P Q : Point} (h1 : Is g P) (h2 : Is g Q) : P = Q := by
  cases P with
  | zero =>
    cases Q with
    | zero => rfl
    | some x y h => rw [Is] at h1; rw [show g = ⟨x, y, false⟩ from h2] at h1; cases h1
  | some x y h =>
    have h1 : g = ⟨x, y, false⟩ := h1
    cases Q with
    | zero => rw [Is] at h2; rw [h1] at h2; cases h2
    | some x' y' h' =>
      have h2 : g = ⟨x', y', false⟩ := h2
      rw [h1] at h2
      rw [Ge.mk.injEq] at h2
      rw [Point.some.injEq]; exact ⟨h2.1, h2.2.1⟩

theorem negY_eq (x y : F) : curve.negY x y = -y := by
  simp only [negY, curve]; ring

theorem addX_eq (x y l : F) : curve.addX x y l = l ^ 2 - x - y := by
  simp only [addX, curve]; ring

theorem addY_eq (x y z l : F) : curve.addY x y z l = l * (x - (l ^ 2 - x - y)) - z := by
  rw [addY, negY_eq, negAddY, addX_eq]; ring

/-- The slope. -/
theorem slope_m {x1 y1 x2 y2 : F} (h1 : y1 ^ 2 = x1 ^ 3 + 7) (h2 : y2 ^ 2 = x2 ^ 3 + 7) (hm : y1 + y2 ≠ 0) :
    curve.slope x1 x2 y1 y2 = (x1 ^ 2 + x1 * x2 + x2 ^ 2) / (y1 + y2) := by
  by_cases hx : x1 = x2
  · have hy : y1 ≠ curve.negY x2 y2 := by
      rw [negY_eq]; intro h; exact hm (by rw [h]; ring)
    have hyy : y1 = y2 := by
      have : (y1 - y2) * (y1 + y2) = 0 := by rw [hx] at h1; linear_combination h1 - h2
      rcases mul_eq_zero.1 this with e | e
      · exact sub_eq_zero.1 e
      · exact absurd e hm
    rw [slope_of_Y_ne hx hy, negY_eq, hx, hyy]
    rw [hyy] at hm
    have hm' : y2 - -y2 ≠ 0 := by rwa [sub_neg_eq_add]
    rw [div_eq_div_iff hm' hm]
    simp only [curve]; ring
  · rw [slope_of_X_ne hx, div_eq_div_iff (sub_ne_zero.2 hx) hm]
    linear_combination h1 - h2

/-- The sum of two points that are not opposite, from the slope. -/
theorem add_l {x1 y1 x2 y2 l : F} (h1 : curve.Nonsingular x1 y1) (h2 : curve.Nonsingular x2 y2)
    (hne : ¬ (x1 = x2 ∧ y1 = -y2)) (hl : curve.slope x1 x2 y1 y2 = l) :
    ∃ h', Point.some x1 y1 h1 + Point.some x2 y2 h2 =
      Point.some (l ^ 2 - x1 - x2) (l * (x1 - (l ^ 2 - x1 - x2)) - y1) h' := by
  have hne' : ¬ (x1 = x2 ∧ y1 = curve.negY x2 y2) := by rwa [negY_eq]
  have h' := nonsingular_add h1 h2 hne'
  rw [addX_eq, addY_eq, hl] at h'
  refine ⟨h', ?_⟩
  rw [Point.add_some hne', Point.some.injEq, addX_eq, addY_eq, hl]
  exact ⟨rfl, rfl⟩

theorem four_ne : (4 : F) ≠ 0 := by
  have : (4 : F) = 2 * 2 := by norm_num
  rw [this]; exact mul_ne_zero two_ne two_ne

theorem addGe_eq (x1 y1 x2 y2 : F) : addGe ⟨x1, y1, 1, false⟩ ⟨x2, y2, false⟩ =
    let m := y1 + y2
    let t := x1 + x2
    let rr := t * t + x1 * -x2
    let dg := m == 0 && rr == 0
    let R := if dg then 2 * y1 else rr
    let M := if dg then -x2 + x1 else m
    let n := if dg then m else M * M * (M * M)
    ⟨4 * (R * R + -(M * M * t)), 4 * -((2 * (R * R + -(M * M * t)) + -(M * M * t)) * R + n), 2 * M, M == 0⟩ := by
  simp only [addGe, mul_one, one_mul, Bool.not_false, Bool.and_true, Bool.false_eq_true, if_false]

/-- The addition formula. -/
theorem add_spec {a b : Ge} (ha : On a) (hb : On b) : Is (geSetGej (addGe (gejSetGe a) b)) (pt ha + pt hb) := by
  obtain ⟨x1, y1, i1⟩ := a
  obtain ⟨x2, y2, i2⟩ := b
  obtain ⟨hi1, h1⟩ := ha
  obtain ⟨hi2, h2⟩ := hb
  dsimp only at hi1 hi2 h1 h2
  subst hi1 hi2
  have n1 : curve.Nonsingular x1 y1 := (on_iff _ _).2 h1
  have n2 : curve.Nonsingular x2 y2 := (on_iff _ _).2 h2
  show Is (geSetGej (addGe ⟨x1, y1, 1, false⟩ ⟨x2, y2, false⟩)) (Point.some x1 y1 n1 + Point.some x2 y2 n2)
  rw [addGe_eq]
  dsimp only
  have key : ∀ R M n : F, M ≠ 0 → n = M ^ 3 * (y1 + y2) → curve.slope x1 x2 y1 y2 = R / M →
      ¬ (x1 = x2 ∧ y1 = -y2) → R * (x1 - x2) = (y1 - y2) * M →
      Is (geSetGej ⟨4 * (R * R + -(M * M * (x1 + x2))),
        4 * -((2 * (R * R + -(M * M * (x1 + x2))) + -(M * M * (x1 + x2))) * R + n), 2 * M, M == 0⟩)
        (Point.some x1 y1 n1 + Point.some x2 y2 n2) := by
    intro R M n hM hn hl hne hR
    obtain ⟨h', e⟩ := add_l n1 n2 hne hl
    rw [e]
    have h2ne := two_ne
    refine ge_ext ?_ ?_ ?_
    · exact beq_eq_false_iff_ne.2 hM
    · show 4 * (R * R + -(M * M * (x1 + x2))) * (inv (2 * M) * inv (2 * M)) = (R / M) ^ 2 - x1 - x2
      rw [inv_eq]
      have h4 := four_ne
      field_simp
      ring
    · show 4 * -((2 * (R * R + -(M * M * (x1 + x2))) + -(M * M * (x1 + x2))) * R + n) *
        (inv (2 * M) * (inv (2 * M) * inv (2 * M))) = R / M * (x1 - ((R / M) ^ 2 - x1 - x2)) - y1
      rw [inv_eq, hn]
      have h4 := four_ne
      have hd : R / M * (x1 - ((R / M) ^ 2 - x1 - x2)) - y1 =
          (R * (3 * (x1 + x2) * M ^ 2 - 2 * R ^ 2) + (R * (x1 - x2)) * M ^ 2 - 2 * y1 * M ^ 3) / (2 * M ^ 3) := by
        field_simp; ring
      rw [hd, hR]
      field_simp
      ring
  by_cases hm : y1 + y2 = 0
  · have hy : y1 = -y2 := by linear_combination hm
    have hc : (x1 - x2) * (x1 ^ 2 + x1 * x2 + x2 ^ 2) = 0 := by
      rw [hy] at h1; linear_combination h2 - h1
    by_cases hr : (x1 + x2) * (x1 + x2) + x1 * -x2 = 0
    · have hx : x1 ≠ x2 := by
        intro h
        rw [h] at hr
        have h3 : (3 : F) * x2 ^ 2 = 0 := by linear_combination hr
        rcases mul_eq_zero.1 h3 with e | e
        · exact three_ne e
        · exact x_ne h2 (pow_eq_zero_iff (by norm_num) |>.1 e)
      have hdg : (y1 + y2 == 0 && (x1 + x2) * (x1 + x2) + x1 * -x2 == 0) = true := by
        rw [hm, hr]; simp
      rw [hdg]
      simp only [if_true]
      have hM : -x2 + x1 ≠ 0 := by rw [neg_add_eq_sub]; exact sub_ne_zero.2 hx
      refine key (2 * y1) (-x2 + x1) (y1 + y2) hM (by rw [hm, mul_zero]) ?_ (fun h => hx h.1) ?_
      · rw [slope_of_X_ne hx, neg_add_eq_sub]
        congr 1; linear_combination -hm
      · linear_combination (x1 - x2) * hm
    · have hdg : (y1 + y2 == 0 && (x1 + x2) * (x1 + x2) + x1 * -x2 == 0) = false := by
        rw [hm, beq_eq_false_iff_ne.2 hr]; simp
      rw [hdg]
      simp only [Bool.false_eq_true, if_false]
      have hx : x1 = x2 := by
        rcases mul_eq_zero.1 hc with e | e
        · exact sub_eq_zero.1 e
        · exact absurd (by linear_combination e) hr
      rw [Point.add_of_Y_eq hx (by rw [negY_eq]; exact hy)]
      show (y1 + y2 == 0) = true
      rw [hm]; exact beq_self_eq_true _
  · have hdg : (y1 + y2 == 0 && (x1 + x2) * (x1 + x2) + x1 * -x2 == 0) = false := by
      rw [beq_eq_false_iff_ne.2 hm]; rfl
    rw [hdg]
    simp only [Bool.false_eq_true, if_false]
    refine key _ _ _ hm (by ring) ?_ ?_ ?_
    · rw [slope_m h1 h2 hm]; congr 1; ring
    · rintro ⟨-, h⟩; exact hm (by rw [h]; ring)
    · linear_combination h2 - h1

end Verif.Lemmas.EllGroup

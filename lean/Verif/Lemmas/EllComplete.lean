import Verif.Lemmas.EllHash
/-
The inverse finds every preimage, and what the preimage 0 leads to.
-/
namespace Verif.Lemmas.EllComplete
open Verif Verif.Spec.Secp Verif.Elligator Verif.Lemmas.EllField Verif.Lemmas.EllMap Verif.Lemmas.EllGroup Verif.Lemmas.EllHash

attribute [local irreducible] xy2 sqrt isqrt

/-- The inverse, from the choice of numerator and denominator. -/
def inverse (g : Ge) (s1 : Bool) (n d : F) : F × Bool :=
  let t := (isqrt n d).1
  (if xor (isOdd t) (isOdd g.y) then -t else t, s1 && (isqrt n d).2 && ((xy2 t).1 == g.x))

/-- The discriminant. -/
def disc (x : F) : F := 78 * x + 9 * (x * x) + -87

theorem invert0 {g : Ge} (hg : g.infinity = false) :
    invert g 0 = inverse g true (8 * (c + -(2 * g.x + 1))) (c + (2 * g.x + 1)) := by
  simp [invert, hg, inverse]

theorem invert1 {g : Ge} (hg : g.infinity = false) :
    invert g 1 = inverse g true (8 * (c + (2 * g.x + 1))) (c + -(2 * g.x + 1)) := by
  simp [invert, hg, inverse]

theorem invert2 {g : Ge} (hg : g.infinity = false) :
    invert g 2 = inverse g (sqrt (disc g.x)).2 (3 * (-g.x + 1) + -16 + (sqrt (disc g.x)).1) 2 := by
  simp [invert, hg, inverse, disc]

theorem invert3 {g : Ge} (hg : g.infinity = false) :
    invert g 3 = inverse g (sqrt (disc g.x)).2 (3 * (-g.x + 1) + -16 + -(sqrt (disc g.x)).1) 2 := by
  simp [invert, hg, inverse, disc]

theorem inverse_finds {u n d : F} (hu : u ≠ 0) (hd : d ≠ 0) (h : n = u ^ 2 * d) :
    inverse (svdw u) true n d = (u, true) := by
  have hs : IsSquare (n * d) := ⟨u * d, by rw [h]; ring⟩
  have h1 := isqrt_spec hd hs
  have h2 := isqrt_flag hd hs
  rw [inverse, h2]
  generalize (isqrt n d).1 = t at h1
  have ht : (t - u) * (t + u) = 0 := by
    refine (mul_eq_zero.1 (show (t - u) * (t + u) * d = 0 by rw [h] at h1; linear_combination h1)).resolve_right hd
  have hx : (svdw u).x = (xy2 u).1 := svdw_x u
  have ho := svdw_odd hu
  rw [hx, ho]
  rcases mul_eq_zero.1 ht with e | e
  · have e : t = u := sub_eq_zero.1 e
    subst e
    simp
  · have e : t = -u := by linear_combination e
    subst e
    rw [xy2_neg, odd_neg hu, neg_neg]
    cases isOdd u <;> simp

theorem finds {u : F} (hu : u ≠ 0) : ∃ r < 4, invert (svdw u) r = (u, true) := by
  have hw : u ^ 2 + 8 ≠ 0 := by rw [pow_two]; exact wd_ne u
  have hc := c_ne
  have h2 := two_ne
  have hx : (svdw u).x = (xy2 u).1 := svdw_x u
  have hi : (svdw u).infinity = false := (svdw_on hu).1
  have e1 : c + (2 * X1 u + 1) = 16 * c / (u ^ 2 + 8) := by
    have : X1 u = d - c * u ^ 2 / (u ^ 2 + 8) := by
      have hw' := wd_ne u
      rw [X1]; field_simp
    rw [this]
    field_simp
    linear_combination (u ^ 2 + 8) * d_eq
  have e2 : c + -(2 * X1 u + 1) = 2 * c * u ^ 2 / (u ^ 2 + 8) := by
    have : c + -(2 * X1 u + 1) = 2 * c - 16 * c / (u ^ 2 + 8) := by rw [← e1]; ring
    rw [this]; field_simp; ring
  have h16 : (16 : F) ≠ 0 := by
    have : (16 : F) = 2 ^ 4 := by norm_num
    rw [this]; exact pow_ne_zero _ two_ne
  have hD : 16 * c / (u ^ 2 + 8) ≠ 0 := div_ne_zero (mul_ne_zero h16 hc) hw
  rw [xy2_eq hu] at hx
  split at hx
  · refine ⟨0, by decide, ?_⟩
    have hx : (svdw u).x = X1 u := hx
    rw [invert0 hi, hx, e1, e2]
    refine inverse_finds hu hD ?_
    field_simp; ring
  · split at hx
    · refine ⟨1, by decide, ?_⟩
      have hx : (svdw u).x = X2 u := hx
      have q1 : 2 * X2 u + 1 = -(2 * X1 u + 1) := by rw [X2]; ring
      rw [invert1 hi, hx, q1, neg_neg, e1, e2]
      refine inverse_finds hu hD ?_
      field_simp; ring
    · have hx : (svdw u).x = X3 u := hx
      have hcu : c ^ 2 * u ^ 2 ≠ 0 := mul_ne_zero (pow_ne_zero _ hc) (pow_ne_zero _ hu)
      have e3 : X3 u = 1 - (u ^ 2 + 8) ^ 2 / (3 * u ^ 2) := by
        have h3 := three_ne
        rw [X3, mul_pow, c_sq]
        field_simp; ring
      have ev : 3 * (-X3 u + 1) + -16 = u ^ 2 + 64 / u ^ 2 := by
        have h3 := three_ne
        rw [e3]; field_simp; ring
      have ed : disc (X3 u) = (u ^ 2 - 64 / u ^ 2) * (u ^ 2 - 64 / u ^ 2) := by
        have : disc (X3 u) = (3 * (-X3 u + 1) + -16) ^ 2 - 256 := by rw [disc]; ring
        rw [this, ev]; field_simp; ring
      have hs : IsSquare (disc (X3 u)) := ⟨_, ed⟩
      have hf := (sqrt_flag _).2 hs
      have hr := sqrt_spec hs
      rw [ed] at hr
      have hor : ((sqrt (disc (X3 u))).1 - (u ^ 2 - 64 / u ^ 2)) * ((sqrt (disc (X3 u))).1 + (u ^ 2 - 64 / u ^ 2)) = 0 := by
        rw [ed]; linear_combination hr
      rcases mul_eq_zero.1 hor with e | e
      · refine ⟨2, by decide, ?_⟩
        rw [invert2 hi, hx, hf, ev]
        refine inverse_finds hu h2 ?_
        linear_combination e
      · refine ⟨3, by decide, ?_⟩
        rw [invert3 hi, hx, hf, ev]
        refine inverse_finds hu h2 ?_
        linear_combination -e

theorem svdw_zero : ∃ s, svdw 0 = ⟨0, s, false⟩ ∧ s ≠ 0 := by
  have h7 : (sqrt 7).1 ≠ 0 := by
    rw [sqrt_fst]; exact pow_ne_zero _ seven_ne
  refine ⟨(svdw 0).y, ge_ext rfl (by rw [svdw_x, xy2_zero]) rfl, ?_⟩
  rw [svdw_y, xy2_zero]
  dsimp only
  split
  · exact neg_ne_zero.2 h7
  · exact h7

/-- Two halves of 0: the sum has `x = 0`. -/
theorem fromHash_zero {b : Bytes} (h1 : half1 b = 0) (h2 : half2 b = 0) : fromHash b = .ub := by
  obtain ⟨s, hs, hne⟩ := svdw_zero
  rw [fromHash_eq, h1, h2, hs]
  have e : addGe (gejSetGe ⟨0, s, false⟩) ⟨0, s, false⟩ = addGe ⟨0, s, 1, false⟩ ⟨0, s, false⟩ := rfl
  have hm : s + s ≠ 0 := by rw [← two_mul]; exact mul_ne_zero two_ne hne
  rw [e, addGe_eq]
  have hb : (s + s == 0) = false := beq_eq_false_iff_ne.2 hm
  simp [geSetGej, hb, serialize, pubkeyLoad]

end Verif.Lemmas.EllComplete

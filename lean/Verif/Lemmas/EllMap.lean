import Verif.Lemmas.EllField
/-
The map of Shallue and van de Woestijne leads to the curve, and what its inverse yields.
-/
namespace Verif.Lemmas.EllMap
open Verif Verif.Spec.Secp Verif.Elligator Verif.Lemmas.EllField

/-- The coordinates are those of a point of the curve. -/
def On (g : Ge) : Prop := g.infinity = false ∧ g.y ^ 2 = g.x ^ 3 + 7

theorem c_sq : c ^ 2 = -3 := by
  have h := cast_eq (a := 0x0a2d2ba93507f1df233770c2a797962cc61f6d15da14ecd47d8d27ae1cd5f852 ^ 2 + 3) (b := 0)
    (by decide +kernel)
  rw [Nat.cast_add, Nat.cast_pow, Nat.cast_zero] at h
  have h : c ^ 2 + ((3 : Nat) : F) = 0 := h
  have e3 : ((3 : Nat) : F) = 3 := by norm_cast
  rw [e3] at h
  linear_combination h

theorem d_eq : 2 * d = c - 1 := by
  have h := cast_eq (a := 2 * 0x851695d49a83f8ef919bb86153cbcb16630fb68aed0a766a3ec693d68e6afa40 + 1)
    (b := 0x0a2d2ba93507f1df233770c2a797962cc61f6d15da14ecd47d8d27ae1cd5f852) (by decide +kernel)
  rw [Nat.cast_add, Nat.cast_mul, Nat.cast_one] at h
  have e2 : ((2 : Nat) : F) = 2 := by norm_cast
  rw [e2] at h
  have h : 2 * d + 1 = c := h
  linear_combination h

theorem c_ne : c ≠ 0 := by
  intro h
  have := c_sq
  rw [h] at this
  exact three_ne (by linear_combination this)

theorem d_sq : d ^ 2 + d + 1 = 0 := by
  have h : (4 : F) * (d ^ 2 + d + 1) = 0 := by linear_combination c_sq + (2 * d + c + 1) * d_eq
  have h4 : (4 : F) ≠ 0 := by
    have : (4 : F) = 2 * 2 := by norm_num
    rw [this]; exact mul_ne_zero two_ne two_ne
  rcases mul_eq_zero.1 h with e | e
  · exact absurd e h4
  · exact e

/-- The three candidates. -/
def X1 (u : F) : F := (d * (u * u + 8) - c * (u * u)) / (u * u + 8)
def X2 (u : F) : F := -1 - X1 u
def X3 (u : F) : F := 1 + (u * u + 8) ^ 2 / (c * u) ^ 2

theorem f_eq (x : F) : x * x * x + 7 = x ^ 3 + 7 := by ring

/-- The choice among the candidates. -/
theorem xy2_eq {u : F} (hu : u ≠ 0) : xy2 u =
    if IsSquare (X1 u ^ 3 + 7) then (X1 u, X1 u ^ 3 + 7)
    else if IsSquare (X2 u ^ 3 + 7) then (X2 u, X2 u ^ 3 + 7) else (X3 u, X3 u ^ 3 + 7) := by
  have hw := wd_ne u
  have hw2 : u ^ 2 + 8 ≠ 0 := by rw [pow_two]; exact hw
  have hc := c_ne
  have e1 : (d * (u * u + 8) + -(u * (c * u))) * (c * u * (c * u)) * inv (c * u * (c * u) * (u * u + 8)) = X1 u := by
    rw [inv_eq, X1]; field_simp; ring
  have e2 : -(d * (u * u + 8) + -(u * (c * u)) + (u * u + 8)) * (c * u * (c * u)) *
      inv (c * u * (c * u) * (u * u + 8)) = X2 u := by
    rw [inv_eq, X2, X1]; field_simp; ring
  have e3 : ((u * u + 8) * (u * u + 8) + c * u * (c * u)) * (u * u + 8) * inv (c * u * (c * u) * (u * u + 8)) =
      X3 u := by
    rw [inv_eq, X3]; field_simp; ring
  simp only [xy2, e1, e2, e3, f_eq]
  have q1 := sqrt_flag (X1 u ^ 3 + 7)
  have q2 := sqrt_flag (X2 u ^ 3 + 7)
  by_cases h1 : IsSquare (X1 u ^ 3 + 7) <;> by_cases h2 : IsSquare (X2 u ^ 3 + 7) <;> simp [h1, h2, q1, q2] <;> simp_all

theorem cancel (s x y : F) (hq : s * (x * x + x) = -(s + 8)) (hy : y = -1 - x) :
    s ^ 3 * ((x ^ 3 + 7) * (y ^ 3 + 7)) = 64 * ((1 + s) ^ 3 + 7) := by
  subst hy
  have h : s ^ 3 * ((x ^ 3 + 7) * ((-1 - x) ^ 3 + 7)) =
      -((s * (x * x + x)) ^ 3 + 21 * s ^ 2 * (s * (x * x + x)) - 42 * s ^ 3) := by ring
  rw [h, hq]; ring

/-- One of the candidates is the coordinate of a point. -/
theorem third {u : F} (hu : u ≠ 0) (h1 : ¬ IsSquare (X1 u ^ 3 + 7)) (h2 : ¬ IsSquare (X2 u ^ 3 + 7)) :
    IsSquare (X3 u ^ 3 + 7) := by
  have hw := wd_ne u
  have hw2 : u ^ 2 + 8 ≠ 0 := by rw [pow_two]; exact hw
  have hc := c_ne
  have hcu : c * u ≠ 0 := mul_ne_zero c_ne hu
  obtain ⟨t, ht⟩ := nonsq_mul h1 h2
  have hs : (u * u + 8) ^ 2 / (c * u) ^ 2 * (X1 u * X1 u + X1 u) = -((u * u + 8) ^ 2 / (c * u) ^ 2 + 8) := by
    rw [X1]
    field_simp
    linear_combination (u ^ 2 + 8) ^ 2 * d_sq - c * u ^ 2 * (u ^ 2 + 8) * d_eq
  have h := cancel _ _ (X2 u) hs rfl
  rw [ht] at h
  have h64 : (64 : F) ≠ 0 := by
    have : (64 : F) = 2 ^ 6 := by norm_num
    rw [this]; exact pow_ne_zero _ two_ne
  refine ⟨((u * u + 8) / (c * u)) ^ 3 * t / 8, ?_⟩
  have h8 : (8 : F) ≠ 0 := by
    have : (8 : F) = 2 ^ 3 := by norm_num
    rw [this]; exact pow_ne_zero _ two_ne
  have e : X3 u = 1 + (u * u + 8) ^ 2 / (c * u) ^ 2 := rfl
  rw [← e] at h
  have h' : ((u * u + 8) / (c * u)) ^ 3 * t / 8 * (((u * u + 8) / (c * u)) ^ 3 * t / 8) =
      ((u * u + 8) ^ 2 / (c * u) ^ 2) ^ 3 * (t * t) / 64 := by
    field_simp; ring
  rw [h', h, mul_div_assoc, mul_comm, div_mul_cancel₀ _ h64]

theorem xy2_snd {u : F} (hu : u ≠ 0) : (xy2 u).2 = (xy2 u).1 ^ 3 + 7 := by
  rw [xy2_eq hu]; split
  · rfl
  · split <;> rfl

theorem xy2_sq {u : F} (hu : u ≠ 0) : IsSquare (xy2 u).2 := by
  rw [xy2_eq hu]
  by_cases h1 : IsSquare (X1 u ^ 3 + 7)
  · rw [if_pos h1]; exact h1
  · rw [if_neg h1]
    by_cases h2 : IsSquare (X2 u ^ 3 + 7)
    · rw [if_pos h2]; exact h2
    · rw [if_neg h2]; exact third hu h1 h2

theorem xy2_neg (u : F) : xy2 (-u) = xy2 u := by
  have h1 : c * -u = -(c * u) := by ring
  have h2 : -u * -(c * u) = u * (c * u) := by ring
  have h3 : -(c * u) * -(c * u) = c * u * (c * u) := by ring
  have h4 : -u * -u = u * u := by ring
  simp only [xy2, h1, h2, h3, h4]

attribute [local irreducible] xy2 sqrt isqrt

theorem svdw_x (u : F) : (svdw u).x = (xy2 u).1 := rfl
theorem svdw_y (u : F) : (svdw u).y =
    if xor (isOdd (sqrt (xy2 u).2).1) (isOdd u) then -(sqrt (xy2 u).2).1 else (sqrt (xy2 u).2).1 := rfl

/-- The map leads to the curve. -/
theorem svdw_on {u : F} (hu : u ≠ 0) : On (svdw u) := by
  refine ⟨rfl, ?_⟩
  have h := sqrt_spec (xy2_sq hu)
  rw [svdw_y, svdw_x, ← xy2_snd hu]
  split <;> linear_combination h

theorem xor_not {a b : Bool} (h : xor a b = true) : (!a) = b := by cases a <;> cases b <;> simp_all
theorem xor_eq {a b : Bool} (h : ¬ xor a b = true) : a = b := by cases a <;> cases b <;> simp_all

/-- The parity of `y` is that of the preimage. -/
theorem svdw_odd {u : F} (hu : u ≠ 0) : isOdd (svdw u).y = isOdd u := by
  have hy : (svdw u).y ≠ 0 := y_ne (svdw_on hu).2
  rw [svdw_y] at hy ⊢
  by_cases hx : xor (isOdd (sqrt (xy2 u).2).1) (isOdd u) = true
  · rw [if_pos hx] at hy ⊢
    rw [odd_neg (fun h => hy (by rw [h, neg_zero]))]
    exact xor_not hx
  · rw [if_neg hx]
    exact xor_eq hx

theorem svdw_inj {u v : F} (hu : u ≠ 0) (hx : (xy2 u).1 = (xy2 v).1) (ho : isOdd u = isOdd v) (hv : v ≠ 0) :
    svdw u = svdw v := by
  have h1 := svdw_on hu
  have h2 := svdw_on hv
  have ex : (svdw u).x = (svdw v).x := hx
  have hy : (svdw u).y = (svdw v).y := by
    refine sq_parity (y_ne h2.2) ?_ (by rw [svdw_odd hu, svdw_odd hv, ho])
    have := h1.2
    rw [ex, ← h2.2] at this
    linear_combination this
  have : ∀ g h : Ge, g.infinity = false → h.infinity = false → g.x = h.x → g.y = h.y → g = h := by
    rintro ⟨_, _, _⟩ ⟨_, _, _⟩ h1 h2 h3 h4; simp_all
  exact this _ _ h1.1 h2.1 ex hy

theorem ge_ext {g h : Ge} (h1 : g.infinity = h.infinity) (h2 : g.x = h.x) (h3 : g.y = h.y) : g = h := by
  cases g; cases h; simp_all

theorem xy2_zero : xy2 0 = (0, 7) := by
  have h : ∀ a b : Bool, (if (!a && !b) = true then ((0 : F), (7 : F)) else if (!a && b) = true then (0, 7) else (0, 7)) = (0, 7) := by
    intro a b; split
    · rfl
    · split <;> rfl
  have e0 : inv 0 = 0 := by rw [inv_eq, inv_zero]
  simp only [xy2, mul_zero, zero_mul, neg_zero, e0, add_zero, zero_add, ite_self]

/-- What the inverse yields is a preimage. -/
theorem invert_spec {g : Ge} (hg : On g) {hint : Nat} {u : F} (h : invert g hint = (u, true)) :
    u ≠ 0 ∧ svdw u = g := by
  have hgx := x_ne hg.2
  have hgy := y_ne hg.2
  rw [invert] at h
  simp only [hg.1, Bool.false_eq_true, if_false] at h
  generalize isqrt _ _ = T at h
  obtain ⟨h1, h2⟩ := Prod.mk.inj h
  rw [Bool.and_eq_true, beq_iff_eq] at h2
  have hx := h2.2
  generalize T.1 = t at h1 hx
  have ht : t ≠ 0 := by
    intro h0
    rw [h0, xy2_zero] at hx
    exact hgx hx.symm
  have hu : u ≠ 0 := by
    rw [← h1]; split
    · exact neg_ne_zero.2 ht
    · exact ht
  have hxu : (xy2 u).1 = g.x := by
    rw [← h1]; split
    · rw [xy2_neg]; exact hx
    · exact hx
  have hou : isOdd u = isOdd g.y := by
    rw [← h1]
    by_cases hc : xor (isOdd t) (isOdd g.y) = true
    · rw [if_pos hc, odd_neg ht]; exact xor_not hc
    · rw [if_neg hc]; exact xor_eq hc
  refine ⟨hu, ge_ext (by rw [hg.1]; rfl) hxu ?_⟩
  refine sq_parity hgy ?_ (by rw [svdw_odd hu, hou])
  have h3 := (svdw_on hu).2
  have : (svdw u).x = g.x := hxu
  rw [this, ← hg.2] at h3
  linear_combination h3

end Verif.Lemmas.EllMap

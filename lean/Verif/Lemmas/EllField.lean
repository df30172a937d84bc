import Verif.Model.Elligator
import Verif.Lemmas.EccPrime
import Mathlib.NumberTheory.LegendreSymbol.Basic
import Mathlib.Tactic.Ring
import Mathlib.Tactic.LinearCombination
import Mathlib.Tactic.FieldSimp
/-
The field of secp256k1: what the addition chains compute, the squares, and the parity of an element.
-/
namespace Verif.Lemmas.EllField
open Verif Verif.Spec.Secp Verif.Elligator
open Verif.Lemmas.EccPrime (powMod powMod_spec)

theorem sqrs_eq (a : F) (k : Nat) : sqrs a k = a ^ 2 ^ k := by
  induction k generalizing a with
  | zero => rw [sqrs, Nat.pow_zero, pow_one]
  | succ k ih => rw [sqrs, ih, ← pow_two, ← pow_mul, pow_succ' 2 k]

theorem sqrn_eq (a : F) (k : Nat) (hk : 0 < k) : sqrn a k = a ^ 2 ^ k := by
  have : k = k - 1 + 1 := by omega
  rw [sqrn]
  conv => rhs; rw [this]
  rw [← sqrs_eq, sqrs]

/-- A step of a chain. -/
theorem step {a x y : F} {i j : Nat} (k e : Nat) (hx : x = a ^ i) (hy : y = a ^ j) (h : i * 2 ^ k + j = e) :
    sqrs x k * y = a ^ e := by
  rw [sqrs_eq, hx, hy, ← pow_mul, ← pow_add, h]

theorem stepn {a x y : F} {i j : Nat} (k e : Nat) (hk : 0 < k) (hx : x = a ^ i) (hy : y = a ^ j)
    (h : i * 2 ^ k + j = e) : sqrn x k * y = a ^ e := by
  rw [sqrn_eq _ _ hk, ← sqrs_eq, step k e hx hy h]

theorem chain_eq (a : F) : (chain a).x2 = a ^ 3 ∧ (chain a).x22 = a ^ (2 ^ 22 - 1) ∧ (chain a).x223 = a ^ (2 ^ 223 - 1) := by
  have h1 : a = a ^ 1 := (pow_one a).symm
  have h2 : a * a * a = a ^ 3 := by ring
  have h3 : a * a * a * (a * a * a) * a = a ^ 7 := by ring
  have h6 := step 3 63 h3 h3 (by norm_num)
  have h9 := step 3 511 h6 h3 (by norm_num)
  have h11 := step 2 2047 h9 h2 (by norm_num)
  have h22 := step 11 (2 ^ 22 - 1) h11 h11 (by norm_num)
  have h44 := step 22 (2 ^ 44 - 1) h22 h22 (by norm_num)
  have h88 := step 44 (2 ^ 88 - 1) h44 h44 (by norm_num)
  have h176 := step 88 (2 ^ 176 - 1) h88 h88 (by norm_num)
  have h220 := step 44 (2 ^ 220 - 1) h176 h44 (by norm_num)
  have h223 := step 3 (2 ^ 223 - 1) h220 h3 (by norm_num)
  exact ⟨h2, h22, h223⟩

theorem sqrt_fst (a : F) : (sqrt a).1 = a ^ ((p + 1) / 4) := by
  obtain ⟨h2, h22, h223⟩ := chain_eq a
  have e1 := step 23 (2 ^ 246 - 2 ^ 22 - 1) h223 h22 (by norm_num)
  have e2 := step 6 ((2 ^ 246 - 2 ^ 22 - 1) * 64 + 3) e1 h2 (by norm_num)
  have e3 := step (y := 1) (j := 0) 2 ((p + 1) / 4) e2 (pow_zero a).symm (by decide +kernel)
  rw [mul_one] at e3
  exact e3

theorem sqrt_snd (a : F) : (sqrt a).2 = ((sqrt a).1 * (sqrt a).1 == a) := rfl

theorem powPm3d4_eq (a : F) : powPm3d4 a = a ^ ((p - 3) / 4) := by
  have h1 : a = a ^ 1 := (pow_one a).symm
  have h2 : a * a * a = a ^ 3 := by ring
  have h3 : a * a * a * (a * a * a) * a = a ^ 7 := by ring
  have h6 := stepn 3 63 (by decide) h3 h3 (by norm_num)
  have h9 := stepn 3 511 (by decide) h6 h3 (by norm_num)
  have h11 := stepn 2 2047 (by decide) h9 h2 (by norm_num)
  have h22 := stepn 11 (2 ^ 22 - 1) (by decide) h11 h11 (by norm_num)
  have h44 := stepn 22 (2 ^ 44 - 1) (by decide) h22 h22 (by norm_num)
  have h88 := stepn 44 (2 ^ 88 - 1) (by decide) h44 h44 (by norm_num)
  have h176 := stepn 88 (2 ^ 176 - 1) (by decide) h88 h88 (by norm_num)
  have h220 := stepn 44 (2 ^ 220 - 1) (by decide) h176 h44 (by norm_num)
  have h223 := stepn 3 (2 ^ 223 - 1) (by decide) h220 h3 (by norm_num)
  have e1 := stepn 23 (2 ^ 246 - 2 ^ 22 - 1) (by decide) h223 h22 (by norm_num)
  have e2 := stepn 5 ((2 ^ 246 - 2 ^ 22 - 1) * 32 + 1) (by decide) e1 h1 (by norm_num)
  exact stepn 3 ((p - 3) / 4) (by decide) e2 h2 (by decide +kernel)

theorem card_pow {a : F} (ha : a ≠ 0) : a ^ (p - 1) = 1 := ZMod.pow_card_sub_one_eq_one ha

theorem inv_eq (a : F) : inv a = a⁻¹ := by
  obtain ⟨h2, h22, h223⟩ := chain_eq a
  have h1 : a = a ^ 1 := (pow_one a).symm
  have e1 := step 23 (2 ^ 246 - 2 ^ 22 - 1) h223 h22 (by norm_num)
  have e2 := step 5 ((2 ^ 246 - 2 ^ 22 - 1) * 32 + 1) e1 h1 (by norm_num)
  have e3 := step 3 (((2 ^ 246 - 2 ^ 22 - 1) * 32 + 1) * 8 + 3) e2 h2 (by norm_num)
  have e4 := step 2 (p - 2) e3 h1 (by decide +kernel)
  rw [mul_comm] at e4
  have e : inv a = a ^ (p - 2) := e4
  rw [e]
  by_cases ha : a = 0
  · rw [ha, inv_zero, zero_pow (by decide +kernel)]
  · have : a ^ (p - 2) * a = 1 := by
      rw [← pow_succ, ← card_pow ha]
      exact congrArg (a ^ ·) (by decide +kernel)
    exact eq_inv_of_mul_eq_one_left this

/-! ### Squares -/

theorem sq_iff {a : F} (ha : a ≠ 0) : IsSquare a ↔ a ^ (p / 2) = 1 := ZMod.euler_criterion p ha

theorem sqrt_sq (a : F) : (sqrt a).1 * (sqrt a).1 = a * a ^ (p / 2) := by
  rw [sqrt_fst, ← pow_add, ← pow_succ']
  exact congrArg (a ^ ·) (by decide +kernel)

/-- The flag of the square root says whether there is one. -/
theorem sqrt_flag (a : F) : (sqrt a).2 = true ↔ IsSquare a := by
  rw [sqrt_snd, beq_iff_eq, sqrt_sq]
  by_cases ha : a = 0
  · rw [ha]; simp
  · rw [sq_iff ha]
    constructor
    · intro h; exact mul_left_cancel₀ ha (by rw [h, mul_one])
    · intro h; rw [h, mul_one]

theorem sqrt_spec {a : F} (h : IsSquare a) : (sqrt a).1 * (sqrt a).1 = a := by
  have := (sqrt_flag a).2 h
  rwa [sqrt_snd, beq_iff_eq] at this

/-- A power of a number, computed. -/
theorem pow_of {a e r : Nat} (he : e < 2 ^ 256) (h : powMod p 256 a e = r) : (a : F) ^ e = (r : F) := by
  rw [← powMod_spec p 256 a e he, h]

theorem neg_one_ne : (-1 : F) ≠ 1 := by
  intro h
  have : (2 : F) = 0 := by linear_combination -h
  exact two_ne this

/-- 7 is not a square: there is no point with `x = 0`. -/
theorem seven_nonsq : ¬ IsSquare (7 : F) := by
  rw [sq_iff seven_ne]
  have h := pow_of (a := 7) (e := p / 2) (r := p - 1) (by decide +kernel) (by decide +kernel)
  have h7 : ((7 : Nat) : F) = 7 := by norm_cast
  rw [h7] at h
  rw [h]
  intro hc
  have hc : ((p - 1 : Nat) : F) = ((1 : Nat) : F) := by rw [hc, Nat.cast_one]
  exact cast_ne (by decide +kernel) hc

/-- -8 is not a square. -/
theorem wd_ne (u : F) : u * u + 8 ≠ 0 := by
  intro h
  have h8 : ((p - 8 : Nat) : F) = -8 := by
    have := cast_eq (a := p - 8 + 8) (b := 0) (by decide +kernel)
    rw [Nat.cast_add] at this
    have e8 : ((8 : Nat) : F) = 8 := by norm_cast
    rw [e8, Nat.cast_zero] at this
    linear_combination this
  have hs : IsSquare ((p - 8 : Nat) : F) := ⟨u, by rw [h8]; linear_combination -h⟩
  have hne : ((p - 8 : Nat) : F) ≠ 0 := by
    have := cast_ne (a := p - 8) (b := 0) (by decide +kernel)
    rwa [Nat.cast_zero] at this
  rw [sq_iff hne, pow_of (a := p - 8) (e := p / 2) (r := p - 1) (by decide +kernel) (by decide +kernel)] at hs
  have hc : ((p - 1 : Nat) : F) = ((1 : Nat) : F) := by rw [hs, Nat.cast_one]
  exact cast_ne (by decide +kernel) hc

/-- -7 is not a cube: there is no point with `y = 0`. -/
theorem y_ne {x y : F} (h : y ^ 2 = x ^ 3 + 7) : y ≠ 0 := by
  intro hy
  have h7 : ((p - 7 : Nat) : F) = -7 := by
    have := cast_eq (a := p - 7 + 7) (b := 0) (by decide +kernel)
    rw [Nat.cast_add] at this
    have e7 : ((7 : Nat) : F) = 7 := by norm_cast
    rw [e7, Nat.cast_zero] at this
    linear_combination this
  have hx : x ^ 3 = ((p - 7 : Nat) : F) := by rw [h7]; rw [hy] at h; linear_combination -h
  have hx0 : x ≠ 0 := by
    intro h0
    rw [h0, h7] at hx
    exact seven_ne (by linear_combination hx)
  have h1 : (x ^ 3) ^ ((p - 1) / 3) = 1 := by
    rw [← pow_mul, ← card_pow hx0]
    exact congrArg (x ^ ·) (by decide +kernel)
  rw [hx, ← powMod_spec p 256 _ _ (by decide +kernel)] at h1
  have hc : ((powMod p 256 (p - 7) ((p - 1) / 3) : Nat) : F) = ((1 : Nat) : F) := by rw [h1, Nat.cast_one]
  exact cast_ne (by decide +kernel) hc

theorem x_ne {x y : F} (h : y ^ 2 = x ^ 3 + 7) : x ≠ 0 := by
  intro h0
  refine seven_nonsq ⟨y, ?_⟩
  rw [h0] at h
  linear_combination -h

/-- The product of two elements that are no squares is one. -/
theorem nonsq_mul {a b : F} (ha : ¬ IsSquare a) (hb : ¬ IsSquare b) : IsSquare (a * b) := by
  have ha0 : a ≠ 0 := fun h => ha (by rw [h]; exact IsSquare.zero)
  have hb0 : b ≠ 0 := fun h => hb (by rw [h]; exact IsSquare.zero)
  rw [sq_iff (mul_ne_zero ha0 hb0), mul_pow]
  rw [sq_iff ha0] at ha
  rw [sq_iff hb0] at hb
  rcases ZMod.pow_div_two_eq_neg_one_or_one p ha0 with h | h
  · exact absurd h ha
  rcases ZMod.pow_div_two_eq_neg_one_or_one p hb0 with h' | h'
  · exact absurd h' hb
  rw [h, h']; ring

/-- The root of a quotient. -/
theorem isqrt_spec {u v : F} (hv : v ≠ 0) (h : IsSquare (u * v)) : (isqrt u v).1 * (isqrt u v).1 * v = u := by
  have e : (isqrt u v).1 = u * u * u * v * (u * u * u * (u * u) * (v * v * v)) ^ ((p - 3) / 4) := by
    rw [← powPm3d4_eq]; rfl
  rw [e]
  by_cases hu : u = 0
  · rw [hu]; ring
  have hm : u * u * u * (u * u) * (v * v * v) ≠ 0 := by
    simp [hu, hv]
  have hsq : IsSquare (u * u * u * (u * u) * (v * v * v)) := by
    obtain ⟨w, hw⟩ := h
    exact ⟨w * (u * u * v), by linear_combination (u * u * v) ^ 2 * hw⟩
  have h1 := (sq_iff hm).1 hsq
  generalize hM : u * u * u * (u * u) * (v * v * v) = M at *
  have h2 : M ^ ((p - 3) / 4) * M ^ ((p - 3) / 4) * M = 1 := by
    rw [← pow_add, ← pow_succ, ← h1]
    exact congrArg (M ^ ·) (by decide +kernel)
  refine mul_right_cancel₀ hm ?_
  linear_combination (u * u * u * v) ^ 2 * v * h2 + u * hM

theorem isqrt_flag {u v : F} (hv : v ≠ 0) (h : IsSquare (u * v)) : (isqrt u v).2 = true := by
  have e : (isqrt u v).2 = ((isqrt u v).1 * (isqrt u v).1 * v == u) := rfl
  rw [e, beq_iff_eq]
  exact isqrt_spec hv h

/-! ### Parity -/

theorem odd_neg {y : F} (h : y ≠ 0) : isOdd (-y) = !isOdd y := by
  have h1 : (-y).val = p - y.val := by rw [ZMod.neg_val, if_neg h]
  have h2 : y.val < p := ZMod.val_lt y
  have h3 : y.val ≠ 0 := fun hc => h ((ZMod.val_eq_zero y).1 hc)
  have h4 : p % 2 = 1 := by decide +kernel
  rw [isOdd, isOdd, h1]
  rcases Nat.mod_two_eq_zero_or_one y.val with h5 | h5
  · have : (p - y.val) % 2 = 1 := by omega
    rw [this, h5]; rfl
  · have : (p - y.val) % 2 = 0 := by omega
    rw [this, h5]; rfl

theorem sq_parity {a b : F} (hb : b ≠ 0) (h : a * a = b * b) (ho : isOdd a = isOdd b) : a = b := by
  have : (a - b) * (a + b) = 0 := by linear_combination h
  rcases mul_eq_zero.1 this with h1 | h1
  · exact sub_eq_zero.1 h1
  · have : a = -b := by linear_combination h1
    rw [this, odd_neg hb] at ho
    cases h2 : isOdd b <;> simp [h2] at ho

end Verif.Lemmas.EllField

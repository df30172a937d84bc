import Verif.Spec.Scalar64
import Mathlib.Tactic.Ring
import Mathlib.Tactic.LinearCombination
import Mathlib.Tactic.Linarith
/-
The accumulator of the scalar arithmetic and the products over it.
-/
namespace Verif.Lemmas.Scalar64
open Verif Verif.Scalar64 Verif.Spec.Scalar64 Verif.Field52

/-- The number in the accumulator. -/
def aval (c : Acc) : Nat := c.c0 + c.c1 * 2 ^ 64 + c.c2 * 2 ^ 128

/-- The accumulator is of words, the last of `k` bits. -/
def Ok (k : Nat) (c : Acc) : Prop := c.c0 < 2 ^ 64 ∧ c.c1 < 2 ^ 64 ∧ c.c2 < 2 ^ k

theorem prod_le {a b : Nat} (ha : a < 2 ^ 64) (hb : b < 2 ^ 64) : a * b ≤ (2 ^ 64 - 1) * (2 ^ 64 - 1) :=
  Nat.mul_le_mul (by omega) (by omega)

theorem less_le (x y : Nat) : less x y ≤ 1 := by unfold less; split <;> omega

theorem shr64 (x : Nat) : x >>> 64 = x / 2 ^ 64 := Nat.shiftRight_eq_div_pow x 64

theorem muladd_pure {P c0 c1 : Nat} (hP : P ≤ (2 ^ 64 - 1) * (2 ^ 64 - 1)) (h0 : c0 < 2 ^ 64) (h1 : c1 < 2 ^ 64) {x y z : Nat}
    (hx : x = (c0 + P % 2 ^ 64) % 2 ^ 64) (hy : y = P / 2 ^ 64 + less x (P % 2 ^ 64))
    (hz : z = (c1 + y) % 2 ^ 64) :
    y < 2 ^ 64 ∧ x + z * 2 ^ 64 + less z y * 2 ^ 128 = c0 + c1 * 2 ^ 64 + P := by
  unfold less at hy ⊢
  by_cases hc : x < P % 2 ^ 64
  · rw [if_pos hc] at hy
    have hy' : y < 2 ^ 64 := by omega
    refine ⟨hy', ?_⟩
    by_cases hd : z < y
    · rw [if_pos hd]; omega
    · rw [if_neg hd]; omega
  · rw [if_neg hc] at hy
    have hy' : y < 2 ^ 64 := by omega
    refine ⟨hy', ?_⟩
    by_cases hd : z < y
    · rw [if_pos hd]; omega
    · rw [if_neg hd]; omega

theorem muladd_spec {k : Nat} {c : Acc} {a b : Nat} (hk : 1 ≤ k) (hc : Ok k c) (ha : a < 2 ^ 64) (hb : b < 2 ^ 64)
    (hv : c.c2 + 2 < 2 ^ k) :
    Ok k (muladd k c a b) ∧ aval (muladd k c a b) = aval c + a * b ∧ (muladd k c a b).c2 ≤ c.c2 + 1 := by
  have hP := prod_le ha hb
  obtain ⟨h0, h1, h2⟩ := hc
  unfold muladd
  simp only [w64, w128, shr64]
  generalize a * b = P at hP ⊢
  rw [Nat.mod_eq_of_lt (show P < 2 ^ 128 by omega), Nat.mod_eq_of_lt (show P / 2 ^ 64 < 2 ^ 64 by omega)]
  generalize hx : (c.c0 + P % 2 ^ 64) % 2 ^ 64 = x
  generalize hy : P / 2 ^ 64 + less x (P % 2 ^ 64) = y
  have hy' : y % 2 ^ 64 = y := Nat.mod_eq_of_lt (by unfold less at hy; split at hy <;> omega)
  rw [hy']
  generalize hz : (c.c1 + y) % 2 ^ 64 = z
  have hh := (muladd_pure hP h0 h1 hx.symm hy.symm hz.symm).2
  generalize hi : less z y = i at hh ⊢
  have hi' : i ≤ 1 := by unfold less at hi; split at hi <;> omega
  rw [Nat.mod_eq_of_lt (show c.c2 + i < 2 ^ k by omega)]
  refine ⟨⟨by dsimp only; omega, by dsimp only; omega, by dsimp only; omega⟩, ?_, by omega⟩
  unfold aval
  simp only
  rw [Nat.add_mul]
  linarith

theorem muladdFast_spec {k : Nat} {c : Acc} {a b : Nat} (hc : Ok k c) (ha : a < 2 ^ 64) (hb : b < 2 ^ 64)
    (hv : c.c0 + c.c1 * 2 ^ 64 + a * b < 2 ^ 128) :
    Ok k (muladdFast c a b) ∧ aval (muladdFast c a b) = aval c + a * b ∧ (muladdFast c a b).c2 = c.c2 := by
  have hP := prod_le ha hb
  obtain ⟨h0, h1, h2⟩ := hc
  unfold muladdFast
  simp only [w64, w128, shr64]
  generalize a * b = P at hP hv ⊢
  rw [Nat.mod_eq_of_lt (show P < 2 ^ 128 by omega), Nat.mod_eq_of_lt (show P / 2 ^ 64 < 2 ^ 64 by omega)]
  generalize hx : (c.c0 + P % 2 ^ 64) % 2 ^ 64 = x
  generalize hy : P / 2 ^ 64 + less x (P % 2 ^ 64) = y
  have hy' : y % 2 ^ 64 = y := Nat.mod_eq_of_lt (by unfold less at hy; split at hy <;> omega)
  rw [hy']
  generalize hz : (c.c1 + y) % 2 ^ 64 = z
  have hh := (muladd_pure hP h0 h1 hx.symm hy.symm hz.symm).2
  refine ⟨⟨by dsimp only; omega, by dsimp only; omega, h2⟩, ?_, trivial⟩
  unfold aval
  simp only
  have hl := less_le z y
  clear * - hh hl hv h0 h1
  generalize less z y = i at hh hl
  have hi : i = 0 := by
    rcases Nat.lt_or_ge i 1 with h | h
    · omega
    · have : i = 1 := by omega
      subst this
      omega
  subst hi
  linarith

theorem sumadd_spec {k : Nat} {c : Acc} {a : Nat} (hk : 1 ≤ k) (hc : Ok k c) (ha : a < 2 ^ 64) (hv : c.c2 + 2 < 2 ^ k) :
    Ok k (sumadd k c a) ∧ aval (sumadd k c a) = aval c + a ∧ (sumadd k c a).c2 ≤ c.c2 + 1 := by
  obtain ⟨h0, h1, h2⟩ := hc
  unfold sumadd
  simp only [w64]
  generalize hx : (c.c0 + a) % 2 ^ 64 = x
  generalize ho : less x a = o
  generalize hz : (c.c1 + o) % 2 ^ 64 = z
  generalize hi : less z o = i
  have hi' : i ≤ 1 := by unfold less at hi; split at hi <;> omega
  rw [Nat.mod_eq_of_lt (show c.c2 + i < 2 ^ k by omega)]
  refine ⟨⟨by dsimp only; omega, by dsimp only; omega, by dsimp only; omega⟩, ?_, by omega⟩
  unfold aval
  simp only
  rw [Nat.add_mul]
  unfold less at ho; unfold less at hi; split at ho <;> split at hi <;> omega

theorem sumaddFast_spec {k : Nat} {c : Acc} {a : Nat} (hc : Ok k c) (ha : a < 2 ^ 64) (hv : c.c0 + c.c1 * 2 ^ 64 + a < 2 ^ 128) :
    Ok k (sumaddFast c a) ∧ aval (sumaddFast c a) = aval c + a ∧ (sumaddFast c a).c2 = c.c2 := by
  obtain ⟨h0, h1, h2⟩ := hc
  unfold sumaddFast
  simp only [w64]
  generalize hx : (c.c0 + a) % 2 ^ 64 = x
  generalize ho : less x a = o
  generalize hz : (c.c1 + o) % 2 ^ 64 = z
  refine ⟨⟨by dsimp only; omega, by dsimp only; omega, h2⟩, ?_, trivial⟩
  unfold aval
  simp only
  unfold less at ho; split at ho <;> omega

theorem extract_spec {k : Nat} {c : Acc} (hc : Ok k c) (hk : k ≤ 64) :
    Ok k (extract c) ∧ aval c = c.c0 + aval (extract c) * 2 ^ 64 ∧ (extract c).c2 = 0 := by
  obtain ⟨h0, h1, h2⟩ := hc
  have : 2 ^ k ≤ 2 ^ 64 := Nat.pow_le_pow_right (by omega) hk
  refine ⟨⟨h1, by simp only [extract]; omega, Nat.two_pow_pos k⟩, ?_, rfl⟩
  unfold aval extract; simp only; omega

theorem extractFast_spec {k : Nat} {c : Acc} (hc : Ok k c) (h : c.c2 = 0) :
    Ok k (extractFast c) ∧ aval c = c.c0 + aval (extractFast c) * 2 ^ 64 ∧ (extractFast c).c2 = 0 ∧ (extractFast c).c1 = 0 := by
  obtain ⟨h0, h1, h2⟩ := hc
  refine ⟨⟨h1, by simp only [extractFast]; omega, h2⟩, ?_, h, rfl⟩
  unfold aval extractFast; simp only; omega

theorem muladd2_pure {P c0 c1 : Nat} (hP : P ≤ (2 ^ 64 - 1) * (2 ^ 64 - 1)) (h0 : c0 < 2 ^ 64) (h1 : c1 < 2 ^ 64)
    {th tl th2 i1 tl2 i2 u i3 v i4 x i5 : Nat}
    (e1 : th = P / 2 ^ 64) (e2 : tl = P % 2 ^ 64) (e3 : th2 = (th + th) % 2 ^ 64) (e4 : i1 = less th2 th)
    (e5 : tl2 = (tl + tl) % 2 ^ 64) (e6 : i2 = less tl2 tl) (e7 : u = (c0 + tl2) % 2 ^ 64)
    (e8 : i3 = less u tl2) (e9 : v = ((th2 + i2) % 2 ^ 64 + i3) % 2 ^ 64) (e10 : i4 = i3 &&& zero v)
    (e11 : x = (c1 + v) % 2 ^ 64) (e12 : i5 = less x v) :
    u + x * 2 ^ 64 + (i1 + i4 + i5) * 2 ^ 128 = c0 + c1 * 2 ^ 64 + 2 * P := by
  have a1 : th2 + i1 * 2 ^ 64 = 2 * th := by unfold less at e4; split at e4 <;> omega
  have a2 : tl2 + i2 * 2 ^ 64 = 2 * tl := by unfold less at e6; split at e6 <;> omega
  have a3 : u + i3 * 2 ^ 64 = c0 + tl2 := by unfold less at e8; split at e8 <;> omega
  have b2 : i2 ≤ 1 := by unfold less at e6; split at e6 <;> omega
  have b3 : i3 ≤ 1 := by unfold less at e8; split at e8 <;> omega
  have a4 : v + i4 * 2 ^ 64 = th2 + i2 + i3 := by
    have t2 : th2 % 2 = 0 := by omega
    unfold zero at e10
    unfold less at e8
    by_cases hu : u < tl2
    · rw [if_pos hu] at e8
      by_cases hv : v = 0
      · rw [e8, if_pos hv] at e10; simp at e10; omega
      · rw [e8, if_neg hv] at e10; simp at e10; omega
    · rw [if_neg hu] at e8
      rw [e8] at e10; simp at e10; omega
  have a5 : x + i5 * 2 ^ 64 = c1 + v := by unfold less at e12; split at e12 <;> omega
  omega

theorem muladd2_spec {k : Nat} {c : Acc} {a b : Nat} (hk : 1 ≤ k) (hc : Ok k c) (ha : a < 2 ^ 64) (hb : b < 2 ^ 64)
    (hv : c.c2 + 4 < 2 ^ k) :
    Ok k (muladd2 k c a b) ∧ aval (muladd2 k c a b) = aval c + 2 * (a * b) ∧ (muladd2 k c a b).c2 ≤ c.c2 + 3 := by
  have hP := prod_le ha hb
  obtain ⟨h0, h1, h2⟩ := hc
  unfold muladd2
  simp only [w64, w128, shr64]
  generalize a * b = P at hP ⊢
  rw [Nat.mod_eq_of_lt (show P < 2 ^ 128 by omega), Nat.mod_eq_of_lt (show P / 2 ^ 64 < 2 ^ 64 by omega)]
  generalize e1 : P / 2 ^ 64 = th
  generalize e2 : P % 2 ^ 64 = tl
  generalize e3 : (th + th) % 2 ^ 64 = th2
  generalize e4 : less th2 th = i1
  generalize e5 : (tl + tl) % 2 ^ 64 = tl2
  generalize e6 : less tl2 tl = i2
  generalize e7 : (c.c0 + tl2) % 2 ^ 64 = u
  generalize e8 : less u tl2 = i3
  generalize e9 : ((th2 + i2) % 2 ^ 64 + i3) % 2 ^ 64 = v
  generalize e10 : i3 &&& zero v = i4
  generalize e11 : (c.c1 + v) % 2 ^ 64 = x
  generalize e12 : less x v = i5
  have hh := muladd2_pure hP h0 h1 e1.symm e2.symm e3.symm e4.symm e5.symm e6.symm e7.symm e8.symm e9.symm e10.symm e11.symm e12.symm
  have b1 : i1 ≤ 1 := by unfold less at e4; split at e4 <;> omega
  have b4 : i4 ≤ 1 := by rw [← e10]; exact Nat.le_trans Nat.and_le_left (by rw [← e8]; exact less_le _ _)
  have b5 : i5 ≤ 1 := by unfold less at e12; split at e12 <;> omega
  rw [Nat.mod_eq_of_lt (show c.c2 + i1 < 2 ^ k by omega), Nat.mod_eq_of_lt (show c.c2 + i1 + i4 < 2 ^ k by omega),
    Nat.mod_eq_of_lt (show c.c2 + i1 + i4 + i5 < 2 ^ k by omega)]
  clear e1 e2 e3 e4 e5 e6 e8 e9 e10 e12
  refine ⟨⟨by dsimp only; omega, by dsimp only; omega, by dsimp only; omega⟩, ?_, by omega⟩
  unfold aval
  simp only
  linarith

/-! The same for an accumulator with a name. -/

theorem mad {k : Nat} {c d : Acc} {a b : Nat} (h : d = muladd k c a b) (hk : 1 ≤ k) (hc : Ok k c) (ha : a < 2 ^ 64) (hb : b < 2 ^ 64)
    (hv : c.c2 + 2 < 2 ^ k) : Ok k d ∧ aval d = aval c + a * b ∧ d.c2 ≤ c.c2 + 1 := h ▸ muladd_spec hk hc ha hb hv

theorem madf {k : Nat} {c d : Acc} {a b : Nat} (h : d = muladdFast c a b) (hc : Ok k c) (ha : a < 2 ^ 64) (hb : b < 2 ^ 64)
    (hv : c.c0 + c.c1 * 2 ^ 64 + a * b < 2 ^ 128) : Ok k d ∧ aval d = aval c + a * b ∧ d.c2 = c.c2 := h ▸ muladdFast_spec hc ha hb hv

theorem mad2 {k : Nat} {c d : Acc} {a b : Nat} (h : d = muladd2 k c a b) (hk : 1 ≤ k) (hc : Ok k c) (ha : a < 2 ^ 64) (hb : b < 2 ^ 64)
    (hv : c.c2 + 4 < 2 ^ k) : Ok k d ∧ aval d = aval c + 2 * (a * b) ∧ d.c2 ≤ c.c2 + 3 := h ▸ muladd2_spec hk hc ha hb hv

theorem sad {k : Nat} {c d : Acc} {a : Nat} (h : d = sumadd k c a) (hk : 1 ≤ k) (hc : Ok k c) (ha : a < 2 ^ 64) (hv : c.c2 + 2 < 2 ^ k) :
    Ok k d ∧ aval d = aval c + a ∧ d.c2 ≤ c.c2 + 1 := h ▸ sumadd_spec hk hc ha hv

theorem sadf {k : Nat} {c d : Acc} {a : Nat} (h : d = sumaddFast c a) (hc : Ok k c) (ha : a < 2 ^ 64)
    (hv : c.c0 + c.c1 * 2 ^ 64 + a < 2 ^ 128) : Ok k d ∧ aval d = aval c + a ∧ d.c2 = c.c2 := h ▸ sumaddFast_spec hc ha hv

theorem ext {k : Nat} {c d : Acc} (h : d = extract c) (hc : Ok k c) (hk : k ≤ 64) :
    Ok k d ∧ aval c = c.c0 + aval d * 2 ^ 64 ∧ d.c2 = 0 := h ▸ extract_spec hc hk

theorem ext_small {k : Nat} {c d : Acc} (h : d = extract c) (hc : Ok k c) : aval d < (c.c2 + 1) * 2 ^ 64 := by
  obtain ⟨h0, h1, h2⟩ := hc
  subst h
  unfold aval extract; simp only; omega

theorem extf_small {k : Nat} {c d : Acc} (h : d = extractFast c) (hc : Ok k c) (h0 : c.c2 = 0) : aval d < 2 ^ 64 := by
  obtain ⟨q0, h1, h2⟩ := hc
  subst h
  unfold aval extractFast; simp only [h0]; omega

theorem extf {k : Nat} {c d : Acc} (h : d = extractFast c) (hc : Ok k c) (h0 : c.c2 = 0) :
    Ok k d ∧ aval c = c.c0 + aval d * 2 ^ 64 ∧ d.c2 = 0 ∧ d.c1 = 0 := h ▸ extractFast_spec hc h0

theorem low_word {c : Acc} (h2 : c.c2 = 0) (h1 : c.c1 = 0) : aval c = c.c0 := by
  simp [aval, h1, h2]

theorem fits_fast {c : Acc} {P : Nat} (h : aval c + P < 2 ^ 128) (h2 : c.c2 = 0) : c.c0 + c.c1 * 2 ^ 64 + P < 2 ^ 128 := by
  have e : aval c = c.c0 + c.c1 * 2 ^ 64 := by simp [aval, h2]
  rwa [e] at h

/-- The number eight words write. -/
def wval (l : Wide) : Nat := l.l0 + l.l1 * 2 ^ 64 + l.l2 * 2 ^ 128 + l.l3 * 2 ^ 192 + l.l4 * 2 ^ 256 + l.l5 * 2 ^ 320 + l.l6 * 2 ^ 384 +
  l.l7 * 2 ^ 448

def WOk (l : Wide) : Prop := l.l0 < 2 ^ 64 ∧ l.l1 < 2 ^ 64 ∧ l.l2 < 2 ^ 64 ∧ l.l3 < 2 ^ 64 ∧ l.l4 < 2 ^ 64 ∧ l.l5 < 2 ^ 64 ∧
  l.l6 < 2 ^ 64 ∧ l.l7 < 2 ^ 64

end Verif.Lemmas.Scalar64

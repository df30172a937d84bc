import Verif.Model.Poly1305
import Verif.Spec.Poly1305
import Verif.Lemmas.Chunks
import Verif.Lemmas.Sha256Stream
import Mathlib.Tactic.Ring
/-
Poly1305: the arithmetic of the limbs.
-/
namespace Verif.Poly1305
open Verif.Words Verif.Chunks

theorem m44 (n : Nat) : n &&& 0xfffffffffff = n % 2 ^ 44 := Nat.and_two_pow_sub_one_eq_mod n 44
theorem m42 (n : Nat) : n &&& 0x3ffffffffff = n % 2 ^ 42 := Nat.and_two_pow_sub_one_eq_mod n 42

/-- The number of the limbs. -/
def val (h : Nat × Nat × Nat) : Nat := h.1 + 2 ^ 44 * h.2.1 + 2 ^ 88 * h.2.2

theorem or_low {a b k : Nat} (h : a < 2 ^ k) : a ||| 2 ^ k * b = a + 2 ^ k * b := by
  have := Nat.shiftLeft_add_eq_or_of_lt h b
  rw [Nat.shiftLeft_eq] at this
  rw [Nat.or_comm, Nat.mul_comm, ← this, Nat.add_comm]

/-- The middle limb of a number of 128 bits. -/
theorem mid (t0 t1 : Nat) (h0 : t0 < 2 ^ 64) : t0 >>> 44 ||| u64 (t1 <<< 20) = (t0 + 2 ^ 64 * t1) / 2 ^ 44 % 2 ^ 64 := by
  have e : u64 (t1 <<< 20) = 2 ^ 20 * (t1 % 2 ^ 44) := by rw [u64, Nat.shiftLeft_eq]; omega
  rw [e, Nat.shiftRight_eq_div_pow, or_low (by omega)]
  omega

theorem addBlock_spec (h : Nat × Nat × Nat) (t0 t1 e : Nat) (h0 : t0 < 2 ^ 64) (h1 : t1 < 2 ^ 64) (he : e ≤ 1)
    (b0 : h.1 < 2 ^ 44) (b1 : h.2.1 < 2 ^ 44 + 2 ^ 12) (b2 : h.2.2 < 2 ^ 42) :
    val (addBlock (2 ^ 40 * e) h t0 t1) = val h + (t0 + 2 ^ 64 * t1 + 2 ^ 128 * e) ∧ (addBlock (2 ^ 40 * e) h t0 t1).1 < 2 ^ 45 ∧
      (addBlock (2 ^ 40 * e) h t0 t1).2.1 < 2 ^ 45 + 2 ^ 12 ∧ (addBlock (2 ^ 40 * e) h t0 t1).2.2 < 2 ^ 43 := by
  unfold addBlock val
  dsimp only
  rw [m44, m44, m42, mid t0 t1 h0, Nat.shiftRight_eq_div_pow, or_low (by omega)]
  unfold u64
  omega

/-- The bound of a product. -/
theorem mul_bound {a b A B : Nat} (ha : a ≤ A) (hb : b ≤ B) : a * b ≤ A * B := Nat.mul_le_mul ha hb

theorem mulMod_spec (r0 r1 r2 : Nat) (h : Nat × Nat × Nat) (hr0 : r0 < 2 ^ 44) (hr1 : r1 < 2 ^ 44) (hr2 : r2 < 2 ^ 36)
    (b0 : h.1 < 2 ^ 45) (b1 : h.2.1 < 2 ^ 45 + 2 ^ 12) (b2 : h.2.2 < 2 ^ 43) :
    (val (mulMod r0 r1 r2 h)) % Spec.Poly1305.p = val h * (r0 + 2 ^ 44 * r1 + 2 ^ 88 * r2) % Spec.Poly1305.p ∧
      (mulMod r0 r1 r2 h).1 < 2 ^ 44 ∧ (mulMod r0 r1 r2 h).2.1 < 2 ^ 44 + 2 ^ 12 ∧ (mulMod r0 r1 r2 h).2.2 < 2 ^ 42 := by
  obtain ⟨h0, h1, h2⟩ := h
  dsimp only at b0 b1 b2
  have hs1 : u64 (r1 * 20) = r1 * 20 := by unfold u64; omega
  have hs2 : u64 (r2 * 20) = r2 * 20 := by unfold u64; omega
  have p00 := mul_bound (Nat.le_of_lt b0) (Nat.le_of_lt hr0)
  have p01 := mul_bound (Nat.le_of_lt b0) (Nat.le_of_lt hr1)
  have p02 := mul_bound (Nat.le_of_lt b0) (Nat.le_of_lt hr2)
  have p10 := mul_bound (Nat.le_of_lt b1) (Nat.le_of_lt hr0)
  have p11 := mul_bound (Nat.le_of_lt b1) (Nat.le_of_lt hr1)
  have p12 := mul_bound (Nat.le_of_lt b1) (Nat.le_of_lt hr2)
  have p20 := mul_bound (Nat.le_of_lt b2) (Nat.le_of_lt hr0)
  have p21 := mul_bound (Nat.le_of_lt b2) (Nat.le_of_lt hr1)
  have p22 := mul_bound (Nat.le_of_lt b2) (Nat.le_of_lt hr2)
  have key : (h0 + 2 ^ 44 * h1 + 2 ^ 88 * h2) * (r0 + 2 ^ 44 * r1 + 2 ^ 88 * r2) =
      (h0 * r0 + 20 * (h1 * r2) + 20 * (h2 * r1)) + 2 ^ 44 * (h0 * r1 + h1 * r0 + 20 * (h2 * r2)) + 2 ^ 88 * (h0 * r2 + h1 * r1 + h2 * r0)
        + (2 ^ 130 - 5) * (4 * (h1 * r2 + h2 * r1 + 2 ^ 44 * (h2 * r2))) := by
    norm_num
    ring
  unfold mulMod val
  dsimp only
  rw [hs1, hs2, key]
  have e1 : h1 * (r2 * 20) = 20 * (h1 * r2) := by ring
  have e2 : h2 * (r1 * 20) = 20 * (h2 * r1) := by ring
  have e3 : h2 * (r2 * 20) = 20 * (h2 * r2) := by ring
  rw [e1, e2, e3]
  unfold Spec.Poly1305.p
  rw [Nat.add_mul_mod_self_left]
  generalize h0 * r0 = x00 at *
  generalize h0 * r1 = x01 at *
  generalize h0 * r2 = x02 at *
  generalize h1 * r0 = x10 at *
  generalize h1 * r1 = x11 at *
  generalize h1 * r2 = x12 at *
  generalize h2 * r0 = x20 at *
  generalize h2 * r1 = x21 at *
  generalize h2 * r2 = x22 at *
  clear key e1 e2 e3 hs1 hs2 b0 b1 b2 hr0 hr1 hr2
  have d0 : u128 (u128 (x00 + 20 * x12) + 20 * x21) = x00 + 20 * x12 + 20 * x21 := by unfold u128; omega
  have d1 : u128 (u128 (x01 + x10) + 20 * x22) = x01 + x10 + 20 * x22 := by unfold u128; omega
  have d2 : u128 (u128 (x02 + x11) + x20) = x02 + x11 + x20 := by unfold u128; omega
  rw [d0, d1, d2]
  have D0 : x00 + 20 * x12 + 20 * x21 < 2 ^ 94 := by omega
  have D1 : x01 + x10 + 20 * x22 < 2 ^ 94 := by omega
  have D2 : x02 + x11 + x20 < 2 ^ 91 := by omega
  generalize x00 + 20 * x12 + 20 * x21 = y0 at *
  generalize x01 + x10 + 20 * x22 = y1 at *
  generalize x02 + x11 + x20 = y2 at *
  clear p00 p01 p02 p10 p11 p12 p20 p21 p22 d0 d1 d2
  simp only [m44, m42, Nat.shiftRight_eq_div_pow]
  have c0 : u64 (y0 / 2 ^ 44) = y0 / 2 ^ 44 := by unfold u64; omega
  have f0 : u64 y0 % 2 ^ 44 = y0 % 2 ^ 44 := by unfold u64; omega
  rw [c0, f0]
  have z1 : u128 (y1 + y0 / 2 ^ 44) = y1 + y0 / 2 ^ 44 := by unfold u128; omega
  rw [z1]
  have Z1 : y1 + y0 / 2 ^ 44 < 2 ^ 95 := by omega
  have v1 : y0 + 2 ^ 44 * y1 = y0 % 2 ^ 44 + 2 ^ 44 * (y1 + y0 / 2 ^ 44) := by omega
  rw [v1]
  have A0 : y0 % 2 ^ 44 < 2 ^ 44 := Nat.mod_lt _ (by decide)
  generalize y1 + y0 / 2 ^ 44 = w1 at *
  generalize y0 % 2 ^ 44 = w0 at *
  clear c0 f0 z1 v1 D0 D1
  have c1 : u64 (w1 / 2 ^ 44) = w1 / 2 ^ 44 := by unfold u64; omega
  have f1 : u64 w1 % 2 ^ 44 = w1 % 2 ^ 44 := by unfold u64; omega
  rw [c1, f1]
  have z2 : u128 (y2 + w1 / 2 ^ 44) = y2 + w1 / 2 ^ 44 := by unfold u128; omega
  rw [z2]
  have Z2 : y2 + w1 / 2 ^ 44 < 2 ^ 92 := by omega
  have v2 : w0 + 2 ^ 44 * w1 + 2 ^ 88 * y2 = w0 + 2 ^ 44 * (w1 % 2 ^ 44) + 2 ^ 88 * (y2 + w1 / 2 ^ 44) := by omega
  rw [v2]
  have A1 : w1 % 2 ^ 44 < 2 ^ 44 := Nat.mod_lt _ (by decide)
  generalize y2 + w1 / 2 ^ 44 = w2 at *
  generalize w1 % 2 ^ 44 = v at *
  clear c1 f1 z2 v2 D2 Z1
  have c2 : u64 (w2 / 2 ^ 42) = w2 / 2 ^ 42 := by unfold u64; omega
  have f2 : u64 w2 % 2 ^ 42 = w2 % 2 ^ 42 := by unfold u64; omega
  rw [c2, f2]
  have k5 : u64 (w0 + u64 (w2 / 2 ^ 42 * 5)) = w0 + w2 / 2 ^ 42 * 5 := by unfold u64; omega
  rw [k5]
  have k6 : u64 (v + (w0 + w2 / 2 ^ 42 * 5) / 2 ^ 44) = v + (w0 + w2 / 2 ^ 42 * 5) / 2 ^ 44 := by unfold u64; omega
  rw [k6]
  refine ⟨?_, by omega, by omega, by omega⟩
  have : w0 + 2 ^ 44 * v + 2 ^ 88 * w2 = (w0 + w2 / 2 ^ 42 * 5) % 2 ^ 44 + 2 ^ 44 * (v + (w0 + w2 / 2 ^ 42 * 5) / 2 ^ 44) + 2 ^ 88 * (w2 % 2 ^ 42)
      + (2 ^ 130 - 5) * (w2 / 2 ^ 42) := by omega
  rw [this, Nat.add_mul_mod_self_left]

theorem carry_spec (h : Nat × Nat × Nat) (b0 : h.1 < 2 ^ 44) (b1 : h.2.1 < 2 ^ 44 + 2 ^ 12) (b2 : h.2.2 < 2 ^ 42) :
    val (carry h) % Spec.Poly1305.p = val h % Spec.Poly1305.p ∧ (carry h).1 < 2 ^ 44 ∧ (carry h).2.1 < 2 ^ 44 ∧ (carry h).2.2 < 2 ^ 42 := by
  obtain ⟨h0, h1, h2⟩ := h
  dsimp only at b0 b1 b2
  have key : ∃ k, val (h0, h1, h2) = val (carry (h0, h1, h2)) + (2 ^ 130 - 5) * k ∧ (carry (h0, h1, h2)).1 < 2 ^ 44 ∧
      (carry (h0, h1, h2)).2.1 < 2 ^ 44 ∧ (carry (h0, h1, h2)).2.2 < 2 ^ 42 := by
    unfold carry val
    simp only [m44, m42, Nat.shiftRight_eq_div_pow]
    have e1 : u64 (h2 + h1 / 2 ^ 44) = h2 + h1 / 2 ^ 44 := by unfold u64; omega
    rw [e1]
    have q1 : h2 + h1 / 2 ^ 44 ≤ 2 ^ 42 := by omega
    have q2 : h1 % 2 ^ 44 < 2 ^ 44 := by omega
    have v1 : h0 + 2 ^ 44 * h1 + 2 ^ 88 * h2 = h0 + 2 ^ 44 * (h1 % 2 ^ 44) + 2 ^ 88 * (h2 + h1 / 2 ^ 44) := by omega
    have q3 : h2 + h1 / 2 ^ 44 = 2 ^ 42 → h1 % 2 ^ 44 < 2 ^ 12 := by omega
    rw [v1]
    generalize h2 + h1 / 2 ^ 44 = x2 at *
    generalize h1 % 2 ^ 44 = x1 at *
    clear e1 v1 b1 b2
    by_cases hx : x2 = 2 ^ 42
    · subst hx
      have := q3 rfl
      refine ⟨1, ?_⟩
      have e2 : u64 (h0 + u64 (2 ^ 42 / 2 ^ 42 * 5)) = h0 + 5 := by unfold u64; omega
      rw [e2]
      have e3 : u64 (x1 + (h0 + 5) / 2 ^ 44) = x1 + (h0 + 5) / 2 ^ 44 := by unfold u64; omega
      rw [e3]
      have e4 : (x1 + (h0 + 5) / 2 ^ 44) / 2 ^ 44 = 0 := by omega
      rw [e4]
      have e5 : u64 (2 ^ 42 % 2 ^ 42 + 0) = 0 := by decide
      rw [e5]
      have e6 : u64 ((h0 + 5) % 2 ^ 44 + u64 (0 / 2 ^ 42 * 5)) = (h0 + 5) % 2 ^ 44 := by unfold u64; omega
      rw [e6]
      have e7 : u64 ((x1 + (h0 + 5) / 2 ^ 44) % 2 ^ 44 + (h0 + 5) % 2 ^ 44 / 2 ^ 44) = x1 + (h0 + 5) / 2 ^ 44 := by unfold u64; omega
      rw [e7]
      omega
    · refine ⟨0, ?_⟩
      have hx' : x2 < 2 ^ 42 := by omega
      have e2 : u64 (h0 + u64 (x2 / 2 ^ 42 * 5)) = h0 := by unfold u64; omega
      rw [e2]
      have e3 : u64 (x1 + h0 / 2 ^ 44) = x1 := by unfold u64; omega
      rw [e3]
      have e4 : x1 / 2 ^ 44 = 0 := by omega
      rw [e4]
      have e5 : u64 (x2 % 2 ^ 42 + 0) = x2 := by unfold u64; omega
      rw [e5]
      have e6 : u64 (h0 % 2 ^ 44 + u64 (x2 / 2 ^ 42 * 5)) = h0 := by unfold u64; omega
      rw [e6]
      have e7 : u64 (x1 % 2 ^ 44 + h0 / 2 ^ 44) = x1 := by unfold u64; omega
      rw [e7]
      omega
  obtain ⟨k, e, hb⟩ := key
  refine ⟨?_, hb⟩
  rw [e]
  unfold Spec.Poly1305.p
  rw [Nat.add_mul_mod_self_left]

theorem and_full {a : Nat} (h : a < 2 ^ 64) : a &&& (2 ^ 64 - 1) = a := by
  rw [Nat.and_two_pow_sub_one_eq_mod, Nat.mod_eq_of_lt h]

theorem select_spec (h : Nat × Nat × Nat) (b0 : h.1 < 2 ^ 44) (b1 : h.2.1 < 2 ^ 44) (b2 : h.2.2 < 2 ^ 42) :
    val (select h) = val h % Spec.Poly1305.p ∧ (select h).1 < 2 ^ 44 ∧ (select h).2.1 < 2 ^ 44 ∧ (select h).2.2 < 2 ^ 42 := by
  obtain ⟨h0, h1, h2⟩ := h
  dsimp only at b0 b1 b2
  unfold select val Spec.Poly1305.p
  simp only [m44, Nat.shiftRight_eq_div_pow, Nat.shiftLeft_eq]
  have e1 : u64 (h0 + 5) = h0 + 5 := by unfold u64; omega
  have e2 : u64 (h1 + (h0 + 5) / 2 ^ 44) = h1 + (h0 + 5) / 2 ^ 44 := by unfold u64; omega
  rw [e1, e2]
  have e3 : u64 (h2 + (h1 + (h0 + 5) / 2 ^ 44) / 2 ^ 44) = h2 + (h1 + (h0 + 5) / 2 ^ 44) / 2 ^ 44 := by unfold u64; omega
  rw [e3]
  have v : h0 + 2 ^ 44 * h1 + 2 ^ 88 * h2 + 5 = (h0 + 5) % 2 ^ 44 + 2 ^ 44 * ((h1 + (h0 + 5) / 2 ^ 44) % 2 ^ 44) + 2 ^ 88 * (h2 + (h1 + (h0 + 5) / 2 ^ 44) / 2 ^ 44) := by
    omega
  have q : h2 + (h1 + (h0 + 5) / 2 ^ 44) / 2 ^ 44 ≤ 2 ^ 42 := by omega
  have g0 : (h0 + 5) % 2 ^ 44 < 2 ^ 44 := Nat.mod_lt _ (by decide)
  have g1 : (h1 + (h0 + 5) / 2 ^ 44) % 2 ^ 44 < 2 ^ 44 := Nat.mod_lt _ (by decide)
  generalize h2 + (h1 + (h0 + 5) / 2 ^ 44) / 2 ^ 44 = x2 at *
  generalize (h1 + (h0 + 5) / 2 ^ 44) % 2 ^ 44 = x1 at *
  generalize (h0 + 5) % 2 ^ 44 = x0 at *
  by_cases hx : x2 = 2 ^ 42
  · have f1 : u64 (x2 + (2 ^ 64 - 1 * 2 ^ 42)) = 0 := by unfold u64; omega
    rw [f1]
    have f2 : u64 (0 / 2 ^ 63 + (2 ^ 64 - 1)) = 2 ^ 64 - 1 := by decide
    have f3 : not64 (2 ^ 64 - 1) = 0 := by decide
    rw [f2, f3, and_full (by omega), and_full (by omega)]
    simp only [Nat.and_zero, Nat.zero_or, Nat.zero_and]
    omega
  · have f1 : u64 (x2 + (2 ^ 64 - 1 * 2 ^ 42)) / 2 ^ 63 = 1 := by unfold u64; omega
    rw [f1]
    have f2 : u64 (1 + (2 ^ 64 - 1)) = 0 := by decide
    have f3 : not64 0 = 2 ^ 64 - 1 := by decide
    rw [f2, f3, and_full (by omega), and_full (by omega), and_full (by omega)]
    simp only [Nat.and_zero, Nat.or_zero]
    omega

theorem addPad_spec (h : Nat × Nat × Nat) (t0 t1 : Nat) (h0 : t0 < 2 ^ 64) (h1 : t1 < 2 ^ 64) (b0 : h.1 < 2 ^ 44) (b1 : h.2.1 < 2 ^ 44) (b2 : h.2.2 < 2 ^ 42) :
    addPad h t0 t1 = leBytes 16 ((val h + (t0 + 2 ^ 64 * t1)) % 2 ^ 128) := by
  obtain ⟨x0, x1, x2⟩ := h
  dsimp only at b0 b1 b2
  unfold addPad val
  simp only [m44, m42, mid t0 t1 h0]
  simp only [Nat.shiftRight_eq_div_pow, Nat.shiftLeft_eq]
  have e1 : u64 (x0 + t0 % 2 ^ 44) = x0 + t0 % 2 ^ 44 := by unfold u64; omega
  rw [e1]
  have e2 : u64 (x1 + u64 ((t0 + 2 ^ 64 * t1) / 2 ^ 44 % 2 ^ 64 % 2 ^ 44 + (x0 + t0 % 2 ^ 44) / 2 ^ 44)) =
      x1 + ((t0 + 2 ^ 64 * t1) / 2 ^ 44 % 2 ^ 44 + (x0 + t0 % 2 ^ 44) / 2 ^ 44) := by unfold u64; omega
  rw [e2]
  generalize hy1 : x1 + ((t0 + 2 ^ 64 * t1) / 2 ^ 44 % 2 ^ 44 + (x0 + t0 % 2 ^ 44) / 2 ^ 44) = y1
  have q1 : y1 < 2 ^ 46 := by omega
  have e3 : u64 (x2 + u64 (t1 / 2 ^ 24 % 2 ^ 42 + y1 / 2 ^ 44)) = x2 + (t1 / 2 ^ 24 + y1 / 2 ^ 44) := by unfold u64; omega
  rw [e3]
  have v : x0 + 2 ^ 44 * x1 + 2 ^ 88 * x2 + (t0 + 2 ^ 64 * t1) =
      (x0 + t0 % 2 ^ 44) % 2 ^ 44 + 2 ^ 44 * (y1 % 2 ^ 44) + 2 ^ 88 * (x2 + (t1 / 2 ^ 24 + y1 / 2 ^ 44)) := by omega
  rw [v]
  have r0 : (x0 + t0 % 2 ^ 44) % 2 ^ 44 < 2 ^ 44 := Nat.mod_lt _ (by decide)
  have r1 : y1 % 2 ^ 44 < 2 ^ 44 := Nat.mod_lt _ (by decide)
  generalize x2 + (t1 / 2 ^ 24 + y1 / 2 ^ 44) = z2 at *
  generalize y1 % 2 ^ 44 = z1 at *
  generalize (x0 + t0 % 2 ^ 44) % 2 ^ 44 = z0 at *
  have a1 : u64 (z1 * 2 ^ 44) = 2 ^ 44 * (z1 % 2 ^ 20) := by unfold u64; omega
  have a2 : u64 (z2 % 2 ^ 42 * 2 ^ 24) = 2 ^ 24 * (z2 % 2 ^ 40) := by unfold u64; omega
  rw [a1, a2, or_low r0, or_low (by omega)]
  unfold u64to8
  rw [show (16 : Nat) = 8 + 8 from rfl, Sha256.leBytes_add]
  have l1 : leBytes 8 (z0 + 2 ^ 44 * (z1 % 2 ^ 20)) = leBytes 8 ((z0 + 2 ^ 44 * z1 + 2 ^ 88 * z2) % 2 ^ 128) := by
    apply leNat_inj (by simp)
    rw [leNat_leBytes, leNat_leBytes]
    omega
  have l2 : z1 / 2 ^ 20 + 2 ^ 24 * (z2 % 2 ^ 40) = (z0 + 2 ^ 44 * z1 + 2 ^ 88 * z2) % 2 ^ 128 / 256 ^ 8 := by omega
  rw [l1, l2]

/-! ## The key -/

theorem and_split (k a b c d : Nat) (ha : a < 2 ^ k) (hc : c < 2 ^ k) : (a + 2 ^ k * b) &&& (c + 2 ^ k * d) = (a &&& c) + 2 ^ k * (b &&& d) := by
  have h1 := Nat.and_mod_two_pow (a := a + 2 ^ k * b) (b := c + 2 ^ k * d) (n := k)
  have h2 := Nat.and_div_two_pow (a := a + 2 ^ k * b) (b := c + 2 ^ k * d) (n := k)
  rw [Nat.add_mul_mod_self_left, Nat.add_mul_mod_self_left, Nat.mod_eq_of_lt ha, Nat.mod_eq_of_lt hc] at h1
  rw [Nat.add_mul_div_left _ _ (Nat.two_pow_pos k), Nat.add_mul_div_left _ _ (Nat.two_pow_pos k), Nat.div_eq_of_lt ha, Nat.div_eq_of_lt hc, Nat.zero_add, Nat.zero_add] at h2
  rw [← Nat.mod_add_div ((a + 2 ^ k * b) &&& (c + 2 ^ k * d)) (2 ^ k), h1, h2]

/-- The limbs of the clamped key. -/
theorem clamp_limbs (t0 t1 : Nat) (h0 : t0 < 2 ^ 64) (h1 : t1 < 2 ^ 64) :
    Spec.Poly1305.clamp (t0 + 2 ^ 64 * t1) =
      (t0 &&& 0xffc0fffffff) + 2 ^ 44 * ((t0 >>> 44 ||| u64 (t1 <<< 20)) &&& 0xfffffc0ffff) + 2 ^ 88 * (t1 >>> 24 &&& 0x00ffffffc0f) := by
  have e : t0 + 2 ^ 64 * t1 = t0 % 2 ^ 44 + 2 ^ 44 * ((t0 + 2 ^ 64 * t1) / 2 ^ 44 % 2 ^ 44 + 2 ^ 44 * (t1 / 2 ^ 24)) := by omega
  have m : 0x0ffffffc0ffffffc0ffffffc0fffffff = 0xffc0fffffff + 2 ^ 44 * (0xfffffc0ffff + 2 ^ 44 * 0x00ffffffc0f) := by decide
  have a0 : t0 &&& 0xffc0fffffff = t0 % 2 ^ 44 &&& 0xffc0fffffff := by
    rw [← m44, Nat.and_assoc]; rfl
  have a1 : (t0 + 2 ^ 64 * t1) / 2 ^ 44 % 2 ^ 64 &&& 0xfffffc0ffff = (t0 + 2 ^ 64 * t1) / 2 ^ 44 % 2 ^ 44 &&& 0xfffffc0ffff := by
    have : (t0 + 2 ^ 64 * t1) / 2 ^ 44 % 2 ^ 44 = (t0 + 2 ^ 64 * t1) / 2 ^ 44 % 2 ^ 64 % 2 ^ 44 := by omega
    rw [this, ← m44, Nat.and_assoc]; rfl
  unfold Spec.Poly1305.clamp
  rw [mid t0 t1 h0, Nat.shiftRight_eq_div_pow, a0, a1, e, m, and_split 44 _ _ _ _ (Nat.mod_lt _ (by decide)) (by decide),
    and_split 44 _ _ _ _ (Nat.mod_lt _ (by decide)) (by decide), ← e, Nat.mul_add, ← Nat.mul_assoc, ← Nat.pow_add, Nat.add_assoc]

theorem u8to64_ok {p : Bytes} {i : Nat} (h : i + 8 ≤ p.length) : u8to64 p i = .ok (leNat ((p.drop i).take 8)) := by
  unfold u8to64; rw [if_pos h]

theorem lt64 (p : Bytes) : leNat (p.take 8) < 2 ^ 64 := by
  have := leNat_lt (p.take 8)
  have h2 : (p.take 8).length ≤ 8 := by rw [List.length_take]; omega
  have h3 : 256 ^ (p.take 8).length ≤ 256 ^ 8 := Nat.pow_le_pow_right (by decide) h2
  omega

theorem leNat_append (a b : Bytes) : leNat (a ++ b) = leNat a + 256 ^ a.length * leNat b := by
  induction a with
  | nil => simp [leNat]
  | cons x xs ih =>
    simp only [List.cons_append, leNat, ih, List.length_cons, Nat.pow_succ]
    ring

/-- Two words are sixteen bytes. -/
theorem two_words (p : Bytes) (h : 16 ≤ p.length) : leNat (p.take 8) + 2 ^ 64 * leNat ((p.drop 8).take 8) = leNat (p.take 16) := by
  rw [show (16 : Nat) = 8 + 8 from rfl, List.take_add, leNat_append]
  have : (p.take 8).length = 8 := by rw [List.length_take]; omega
  rw [this, show (256 : Nat) ^ 8 = 2 ^ 64 from by decide]

/-! ## The stream -/

/-- The state has the key in it. -/
structure Key (key : Bytes) (st : St) : Prop where
  r : Spec.Poly1305.clamp (leNat (key.take 16)) = st.r0 + 2 ^ 44 * st.r1 + 2 ^ 88 * st.r2
  r0 : st.r0 < 2 ^ 44
  r1 : st.r1 < 2 ^ 44
  r2 : st.r2 < 2 ^ 36
  pad : leNat ((key.drop 16).take 16) = st.pad0 + 2 ^ 64 * st.pad1
  pad0 : st.pad0 < 2 ^ 64
  pad1 : st.pad1 < 2 ^ 64

def Bounds (h : Nat × Nat × Nat) : Prop := h.1 < 2 ^ 44 ∧ h.2.1 < 2 ^ 44 + 2 ^ 12 ∧ h.2.2 < 2 ^ 42

abbrev rOf (key : Bytes) : Nat := Spec.Poly1305.clamp (leNat (key.take 16))

theorem loop_spec (r0 r1 r2 e r : Nat) (hr : r = r0 + 2 ^ 44 * r1 + 2 ^ 88 * r2) (hr0 : r0 < 2 ^ 44) (hr1 : r1 < 2 ^ 44) (hr2 : r2 < 2 ^ 36) (he : e ≤ 1)
    (n : Nat) (h : Nat × Nat × Nat) (m : Bytes) (hb : Bounds h) (hm : 16 * n ≤ m.length) :
    ∃ h', loop r0 r1 r2 (2 ^ 40 * e) n h m = .ok h' ∧ Bounds h' ∧
      val h' % Spec.Poly1305.p = chunks 16 (fun a b => (a + (leNat b + 2 ^ 128 * e)) * r % Spec.Poly1305.p) n m (val h % Spec.Poly1305.p) := by
  induction n generalizing h m with
  | zero => exact ⟨h, rfl, hb, rfl⟩
  | succ n ih =>
    unfold loop
    rw [u8to64_ok (by omega), u8to64_ok (by omega)]
    dsimp only [Out.bind]
    rw [List.drop_zero]
    obtain ⟨a1, a2, a3, a4⟩ := addBlock_spec h (leNat (m.take 8)) (leNat ((m.drop 8).take 8)) e (lt64 _) (lt64 _) he hb.1 hb.2.1 hb.2.2
    obtain ⟨c1, c2⟩ := mulMod_spec r0 r1 r2 _ hr0 hr1 hr2 a2 a3 a4
    obtain ⟨h', e1, e2, e3⟩ := ih (mulMod r0 r1 r2 (addBlock (2 ^ 40 * e) h (leNat (m.take 8)) (leNat ((m.drop 8).take 8)))) (m.drop 16) c2 (by rw [List.length_drop]; omega)
    refine ⟨h', e1, e2, ?_⟩
    rw [e3, chunks, c1, a1, two_words m (by omega), ← hr]
    congr 1
    rw [Nat.mul_mod, Nat.add_mod, ← Nat.mul_mod_mod, Nat.mod_mul_mod]
    rw [Nat.mul_mod, Nat.add_mod (val h % Spec.Poly1305.p), Nat.mod_mod, ← Nat.mul_mod]
    simp [Nat.mul_mod]

theorem add_full (r a : Nat) (b : Bytes) (h : b.length = 16) :
    Spec.Poly1305.add r a b = (a + (leNat b + 2 ^ 128 * 1)) * r % Spec.Poly1305.p := by
  unfold Spec.Poly1305.add
  rw [leNat_append, h]
  rfl

theorem chunks_congr {σ : Type} (B : Nat) (f g : σ → Bytes → σ) (h : ∀ s b, b.length = B → f s b = g s b) (n : Nat) (m : Bytes) (s : σ) (hl : n * B ≤ m.length) :
    chunks B f n m s = chunks B g n m s := chunks_map B f g id h n m s hl

theorem blocks_spec {key : Bytes} {st : St} (hk : Key key st) (hf : st.final = false) (hb : Bounds (st.h0, st.h1, st.h2)) (m : Bytes) (n : Nat) (hm : 16 * n ≤ m.length) :
    ∃ x, blocks st m (16 * n) = .ok { st with h0 := x.1, h1 := x.2.1, h2 := x.2.2 } ∧ Bounds x ∧
      val x % Spec.Poly1305.p = chunks 16 (Spec.Poly1305.add (rOf key)) n m (val (st.h0, st.h1, st.h2) % Spec.Poly1305.p) := by
  obtain ⟨x, e1, e2, e3⟩ := loop_spec st.r0 st.r1 st.r2 1 (rOf key) hk.r hk.r0 hk.r1 hk.r2 (Nat.le_refl 1) n _ m hb hm
  refine ⟨x, ?_, e2, ?_⟩
  · unfold blocks
    dsimp only
    rw [hf, show 16 * n / 16 = n by omega]
    have : (if false = true then 0 else 1 <<< 40) = 2 ^ 40 * 1 := by decide
    rw [this, e1]
    rfl
  · rw [e3]
    exact chunks_congr 16 _ _ (fun s b hb => (add_full _ s b hb).symm) n m _ (by omega)

/-- The state stands for the message `M`. -/
structure Inv (key M : Bytes) (st : St) : Prop where
  keyed : Key key st
  fin : st.final = false
  size : st.buffer.length = 16
  bounds : Bounds (st.h0, st.h1, st.h2)
  acc : val (st.h0, st.h1, st.h2) % Spec.Poly1305.p = chunks 16 (Spec.Poly1305.add (rOf key)) (M.length / 16) M 0
  left : st.leftover = M.length % 16
  rest : st.buffer.take (M.length % 16) = M.drop (16 * (M.length / 16))

theorem init_spec (st : St) (key : Bytes) (hk : key.length = 32) (hs : st.buffer.length = 16) : ∃ st', init st key = .ok st' ∧ Inv key [] st' := by
  unfold init
  rw [u8to64_ok (by omega), u8to64_ok (by omega), u8to64_ok (by omega), u8to64_ok (by omega)]
  refine ⟨_, rfl, ⟨?_, ?_, ?_, ?_, ?_, lt64 _, lt64 _⟩, rfl, hs, ⟨(by decide : (0 : Nat) < 2 ^ 44), (by decide : (0 : Nat) < 2 ^ 44 + 2 ^ 12), (by decide : (0 : Nat) < 2 ^ 42)⟩, rfl, rfl, by simp⟩
  · show _ = _ + 2 ^ 44 * _ + 2 ^ 88 * _
    rw [← two_words key (by omega)]
    exact clamp_limbs _ _ (lt64 _) (lt64 _)
  · exact Nat.lt_of_le_of_lt Nat.and_le_right (by decide)
  · exact Nat.lt_of_le_of_lt Nat.and_le_right (by decide)
  · exact Nat.lt_of_le_of_lt Nat.and_le_right (by decide)
  · show _ = _ + 2 ^ 64 * _
    rw [← two_words (key.drop 16) (by rw [List.length_drop]; omega), List.drop_drop]

/-- The part after the leftover bytes, with none left over. -/
theorem tail_spec {key M : Bytes} {st : St} (m : Bytes) (h : Inv key M st) (h0 : st.leftover = 0) : ∃ st', tail st m = .ok st' ∧ Inv key (M ++ m) st' := by
  have hM : M.length % 16 = 0 := by rw [← h.left]; exact h0
  have hdiv : (M ++ m).length / 16 = M.length / 16 + m.length / 16 := by rw [List.length_append]; omega
  have hmod : (M ++ m).length % 16 = m.length % 16 := by rw [List.length_append]; omega
  have hdrop : (M ++ m).drop (16 * (M.length / 16 + m.length / 16)) = m.drop (16 * (m.length / 16)) := by
    rw [show 16 * (M.length / 16 + m.length / 16) = M.length + 16 * (m.length / 16) by omega, List.drop_append]
    rw [List.drop_of_length_le (by omega), List.nil_append]
    congr 1; omega
  have hch : chunks 16 (Spec.Poly1305.add (rOf key)) (M.length / 16 + m.length / 16) (M ++ m) 0 =
      chunks 16 (Spec.Poly1305.add (rOf key)) (m.length / 16) m (val (st.h0, st.h1, st.h2) % Spec.Poly1305.p) := by
    rw [chunks_add, chunks_append 16 _ _ M m 0 (by omega), h.acc, show M.length / 16 * 16 = M.length by omega, List.drop_left]
  -- storing the rest
  have store : ∀ x : Nat × Nat × Nat, Bounds x → val x % Spec.Poly1305.p = chunks 16 (Spec.Poly1305.add (rOf key)) (m.length / 16) m (val (st.h0, st.h1, st.h2) % Spec.Poly1305.p) →
      ∃ st', (if (m.drop (16 * (m.length / 16))).length ≠ 0 then
          (memcpy st.buffer st.leftover (m.drop (16 * (m.length / 16)))).bind fun b =>
            .ok { st with h0 := x.1, h1 := x.2.1, h2 := x.2.2, buffer := b, leftover := st.leftover + (m.drop (16 * (m.length / 16))).length }
        else .ok { st with h0 := x.1, h1 := x.2.1, h2 := x.2.2 } : Out Unit St) = .ok st' ∧ Inv key (M ++ m) st' := by
    intro x hx ha
    have hl : (m.drop (16 * (m.length / 16))).length = m.length % 16 := by rw [List.length_drop]; omega
    by_cases hz : m.length % 16 = 0
    · rw [if_neg (by rw [hl]; simpa using hz)]
      refine ⟨_, rfl, ⟨h.keyed.r, h.keyed.r0, h.keyed.r1, h.keyed.r2, h.keyed.pad, h.keyed.pad0, h.keyed.pad1⟩, h.fin, h.size, hx, ?_, ?_, ?_⟩
      · rw [hdiv, hch]; exact ha
      · rw [hmod, hz]; exact h0
      · rw [hdiv, hmod, hdrop, hz]
        rw [List.drop_of_length_le (by omega)]
        rfl
    · rw [if_pos (by rw [hl]; exact hz), memcpy_ok (by rw [h0, hl, h.size]; omega)]
      refine ⟨_, rfl, ⟨h.keyed.r, h.keyed.r0, h.keyed.r1, h.keyed.r2, h.keyed.pad, h.keyed.pad0, h.keyed.pad1⟩, h.fin, ?_, hx, ?_, ?_, ?_⟩
      · simp only [List.length_append, List.length_take, List.length_drop, h0, h.size]; omega
      · rw [hdiv, hch]; exact ha
      · rw [hmod]; show st.leftover + _ = _; rw [h0, hl, Nat.zero_add]
      · rw [hdiv, hmod, hdrop]
        show List.take _ (st.buffer.take st.leftover ++ _ ++ _) = _
        rw [h0, List.take_zero, List.nil_append]
        exact List.take_left' hl
  unfold tail
  dsimp only
  by_cases hg : m.length ≥ 16
  · rw [if_pos hg, show m.length - m.length % 16 = 16 * (m.length / 16) by omega]
    obtain ⟨x, e1, e2, e3⟩ := blocks_spec h.keyed h.fin h.bounds m (m.length / 16) (by omega)
    rw [e1]
    exact store x e2 e3
  · rw [if_neg hg]
    have hq : m.length / 16 = 0 := by omega
    have := store (st.h0, st.h1, st.h2) h.bounds (by rw [hq]; rfl)
    rw [hq, Nat.mul_zero, List.drop_zero] at this
    exact this

theorem update_spec {key M : Bytes} {st : St} (m : Bytes) (h : Inv key M st) : ∃ st', update st m = .ok st' ∧ Inv key (M ++ m) st' := by
  unfold update
  by_cases h0 : st.leftover = 0
  · rw [if_neg (by simpa using h0)]
    exact tail_spec m h h0
  · rw [if_pos h0]
    dsimp only
    have hl := h.left
    have hrl : (M.drop (16 * (M.length / 16))).length = M.length % 16 := by rw [List.length_drop]; omega
    by_cases h1 : 16 - st.leftover > m.length
    · rw [if_pos h1, List.take_length, memcpy_ok (by rw [h.size]; omega)]
      dsimp only [Out.bind]
      rw [if_pos (by omega)]
      have hdiv : (M ++ m).length / 16 = M.length / 16 := by rw [List.length_append]; omega
      have hmod : (M ++ m).length % 16 = M.length % 16 + m.length := by rw [List.length_append]; omega
      refine ⟨_, rfl, ⟨h.keyed.r, h.keyed.r0, h.keyed.r1, h.keyed.r2, h.keyed.pad, h.keyed.pad0, h.keyed.pad1⟩, h.fin, ?_, h.bounds, ?_, ?_, ?_⟩
      · simp only [List.length_append, List.length_take, List.length_drop, h.size]; omega
      · rw [hdiv, chunks_append 16 _ _ M m 0 (by omega)]; exact h.acc
      · rw [hmod]; show st.leftover + m.length = _; rw [hl]
      · rw [hdiv, hmod]
        show List.take _ (st.buffer.take st.leftover ++ m ++ _) = _
        rw [hl, h.rest, List.drop_append_of_le_length (by omega)]
        exact List.take_left' (by rw [List.length_append, hrl])
    · rw [if_neg h1]
      have htl : (m.take (16 - st.leftover)).length = 16 - st.leftover := by rw [List.length_take]; omega
      rw [memcpy_ok (by rw [h.size]; omega)]
      dsimp only [Out.bind]
      rw [if_neg (by omega)]
      have e : st.buffer.take st.leftover ++ m.take (16 - st.leftover) ++ st.buffer.drop (st.leftover + (m.take (16 - st.leftover)).length)
          = M.drop (16 * (M.length / 16)) ++ m.take (16 - st.leftover) := by
        rw [htl, List.drop_of_length_le (l := st.buffer) (by rw [h.size]; omega), List.append_nil, hl, h.rest]
      rw [e]
      have hbl : (M.drop (16 * (M.length / 16)) ++ m.take (16 - st.leftover)).length = 16 := by rw [List.length_append, hrl, htl]; omega
      generalize hB : M.drop (16 * (M.length / 16)) ++ m.take (16 - st.leftover) = B at hbl ⊢
      obtain ⟨x, e1, e2, e3⟩ := blocks_spec (st := { st with buffer := B, leftover := st.leftover + (16 - st.leftover) })
        ⟨h.keyed.r, h.keyed.r0, h.keyed.r1, h.keyed.r2, h.keyed.pad, h.keyed.pad0, h.keyed.pad1⟩ h.fin h.bounds B 1 (by omega)
      rw [e1]
      have hM : M ++ m = (M ++ m.take (16 - st.leftover)) ++ m.drop (16 - st.leftover) := by rw [List.append_assoc, List.take_append_drop]
      rw [hM]
      refine tail_spec _ ?_ rfl
      have hlen : (M ++ m.take (16 - st.leftover)).length = 16 * (M.length / 16 + 1) := by rw [List.length_append, htl]; omega
      refine ⟨⟨h.keyed.r, h.keyed.r0, h.keyed.r1, h.keyed.r2, h.keyed.pad, h.keyed.pad0, h.keyed.pad1⟩, h.fin, hbl, e2, ?_, ?_, ?_⟩
      · show val x % _ = _
        rw [e3, hlen, show 16 * (M.length / 16 + 1) / 16 = M.length / 16 + 1 by omega]
        have hsplit : M ++ m.take (16 - st.leftover) = M.take (16 * (M.length / 16)) ++ B := by
          rw [← hB, ← List.append_assoc, List.take_append_drop]
        rw [hsplit, chunks_snoc 16 _ (M.length / 16) _ _ 0 (by rw [List.length_take]; omega) hbl, chunks, chunks, List.take_of_length_le (by omega)]
        show Spec.Poly1305.add _ (val (st.h0, st.h1, st.h2) % _) _ = _
        rw [h.acc]
        congr 1
        rw [← chunks_append 16 _ (M.length / 16) (M.take (16 * (M.length / 16))) (M.drop (16 * (M.length / 16))) 0
          (by rw [List.length_take]; omega), List.take_append_drop]
      · rw [hlen]; show 0 = _; omega
      · rw [hlen, show 16 * (M.length / 16 + 1) % 16 = 0 by omega, show 16 * (M.length / 16 + 1) / 16 = M.length / 16 + 1 by omega]
        rw [← hlen, List.drop_length]; rfl

theorem updates_spec {key : Bytes} (l : List Bytes) {M : Bytes} {st : St} (h : Inv key M st) : ∃ st', updates l st = .ok st' ∧ Inv key (M ++ l.flatten) st' := by
  induction l generalizing M st with
  | nil => exact ⟨st, rfl, by simpa using h⟩
  | cons m l ih =>
    obtain ⟨s1, e1, h1⟩ := update_spec m h
    obtain ⟨s2, e2, h2⟩ := ih h1
    refine ⟨s2, ?_, by simpa using h2⟩
    unfold updates
    rw [e1]
    exact e2

/-! ## The end -/

theorem split_foldl {σ : Type} (f : σ → Bytes → σ) (n : Nat) (m : Bytes) (s : σ) : (Spec.Poly1305.split n m).foldl f s = chunks 16 f n m s := by
  induction n generalizing m s with
  | zero => rfl
  | succ n ih => rw [Spec.Poly1305.split, List.foldl_cons, ih, chunks]

theorem leNat_zeros (n : Nat) : leNat (List.replicate n 0) = 0 := by
  induction n with
  | zero => rfl
  | succ n ih => rw [List.replicate_succ, leNat, ih]; rfl

theorem result (key : Bytes) (st : St) (hk : Key key st) (hb : Bounds (st.h0, st.h1, st.h2)) :
    addPad (select (carry (st.h0, st.h1, st.h2))) st.pad0 st.pad1 =
      leBytes 16 ((val (st.h0, st.h1, st.h2) % Spec.Poly1305.p + leNat ((key.drop 16).take 16)) % 2 ^ 128) := by
  obtain ⟨c1, c2, c3, c4⟩ := carry_spec (st.h0, st.h1, st.h2) hb.1 hb.2.1 hb.2.2
  obtain ⟨s1, s2, s3, s4⟩ := select_spec _ c2 c3 c4
  rw [addPad_spec _ _ _ hk.pad0 hk.pad1 s2 s3 s4, s1, c1, hk.pad]

theorem finish_spec {key M : Bytes} {st : St} (h : Inv key M st) : finish st = .ok (Spec.Poly1305.mac key M) := by
  have hl := h.left
  unfold finish
  by_cases h0 : st.leftover = 0
  · rw [if_neg (by simpa using h0)]
    dsimp only [Out.bind]
    rw [result key st h.keyed h.bounds, h.acc]
    unfold Spec.Poly1305.mac Spec.Poly1305.blocks
    dsimp only
    rw [split_foldl, show (M.length + 15) / 16 = M.length / 16 by omega]
  · rw [if_pos h0]
    have hrep : (1 :: List.replicate (15 - st.leftover) (0 : UInt8)).length = 16 - st.leftover := by
      rw [List.length_cons, List.length_replicate]; omega
    rw [memcpy_ok (by rw [hrep, h.size]; omega)]
    dsimp only [Out.bind]
    have hrl : (M.drop (16 * (M.length / 16))).length = M.length % 16 := by rw [List.length_drop]; omega
    have e : st.buffer.take st.leftover ++ 1 :: List.replicate (15 - st.leftover) 0 ++ st.buffer.drop (st.leftover + (1 :: List.replicate (15 - st.leftover) (0 : UInt8)).length)
        = M.drop (16 * (M.length / 16)) ++ 1 :: List.replicate (15 - st.leftover) 0 := by
      rw [hrep, List.drop_of_length_le (l := st.buffer) (by rw [h.size]; omega), List.append_nil, hl, h.rest]
    rw [e]
    have hbl : (M.drop (16 * (M.length / 16)) ++ 1 :: List.replicate (15 - st.leftover) 0).length = 16 := by rw [List.length_append, hrl, hrep]; omega
    have hval : leNat (M.drop (16 * (M.length / 16)) ++ 1 :: List.replicate (15 - st.leftover) 0) = leNat (M.drop (16 * (M.length / 16)) ++ [1]) := by
      rw [leNat_append, leNat_append, leNat, leNat, leNat_zeros]; rfl
    generalize M.drop (16 * (M.length / 16)) ++ 1 :: List.replicate (15 - st.leftover) 0 = B at hbl hval ⊢
    obtain ⟨x, e1, e2, e3⟩ := loop_spec st.r0 st.r1 st.r2 0 (rOf key) h.keyed.r h.keyed.r0 h.keyed.r1 h.keyed.r2 (Nat.zero_le 1) 1 _ B h.bounds (by omega)
    unfold blocks
    dsimp only
    rw [if_pos rfl]
    have : 2 ^ 40 * 0 = 0 := rfl
    rw [this] at e1
    rw [show 16 / 16 = 1 from rfl, e1]
    dsimp only [Out.bind]
    have := result key { st with buffer := B, final := true, h0 := x.1, h1 := x.2.1, h2 := x.2.2 }
      ⟨h.keyed.r, h.keyed.r0, h.keyed.r1, h.keyed.r2, h.keyed.pad, h.keyed.pad0, h.keyed.pad1⟩ e2
    refine Eq.trans (congrArg Out.ok this) ?_
    unfold Spec.Poly1305.mac Spec.Poly1305.blocks
    dsimp only
    rw [split_foldl, show (M.length + 15) / 16 = M.length / 16 + 1 by omega]
    rw [chunks_add, chunks, chunks, ← h.acc]
    show Out.ok (leBytes 16 ((val x % _ + _) % _)) = _
    rw [e3, chunks, chunks, List.take_of_length_le (by omega), hval]
    have ht : (M.drop (M.length / 16 * 16)).take 16 = M.drop (16 * (M.length / 16)) := by
      rw [Nat.mul_comm, List.take_of_length_le (by omega)]
    rw [ht]
    rfl

theorem auth_spec (st : St) (l : List Bytes) (key : Bytes) (hk : key.length = 32) (hs : st.buffer.length = 16) :
    auth st l key = .ok (Spec.Poly1305.mac key l.flatten) := by
  obtain ⟨s1, e1, h1⟩ := init_spec st key hk hs
  obtain ⟨s2, e2, h2⟩ := updates_spec l h1
  unfold auth
  rw [e1]
  dsimp only [Out.bind]
  rw [e2]
  dsimp only [Out.bind]
  rw [finish_spec h2, List.nil_append]

/-! ## Comparing tags -/

theorem diff_eq (l m : Bytes) (d : UInt8) : ∃ x : UInt8, diff l m d.toUInt32 = x.toUInt32 ∧ (l.length = m.length → (x = 0 ↔ d = 0 ∧ l = m)) := by
  induction l generalizing m d with
  | nil => exact ⟨d, by unfold diff; rfl, fun h => by have := List.eq_nil_of_length_eq_zero h.symm; simp [this]⟩
  | cons a l ih =>
    cases m with
    | nil => exact ⟨d, by unfold diff; rfl, fun h => by simp at h⟩
    | cons b m =>
      obtain ⟨x, e, hx⟩ := ih m (d ||| (a ^^^ b))
      refine ⟨x, ?_, fun h => ?_⟩
      · unfold diff; rw [← e]; congr 1
      · rw [hx (by simpa using h), List.cons.injEq, ← UInt8.xor_eq_zero_iff (a := a), UInt8.or_eq_zero_iff, and_assoc]

theorem verify_bit : ∀ x : UInt8, (decide (((x.toUInt32 - 1) >>> 31) &&& 1 ≠ 0) = decide (x = 0)) := by
  have : ∀ i : Fin 256, (decide ((((UInt8.ofNat i.val).toUInt32 - 1) >>> 31) &&& 1 ≠ 0) = decide (UInt8.ofNat i.val = 0)) := by decide +kernel
  intro x
  have h := this ⟨x.toNat, x.toNat_lt⟩
  simpa using h

theorem verify_spec (m1 m2 : Bytes) (h1 : m1.length = 16) (h2 : m2.length = 16) : verify m1 m2 = .ok (decide (m1 = m2)) := by
  unfold verify
  rw [if_pos (by omega)]
  dsimp only
  rw [List.take_of_length_le (by omega), List.take_of_length_le (by omega)]
  obtain ⟨x, e, hx⟩ := diff_eq m1 m2 0
  have e' : diff m1 m2 0 = x.toUInt32 := e
  rw [e', verify_bit x]
  congr 1
  rw [decide_eq_decide, hx (by omega)]
  simp

end Verif.Poly1305

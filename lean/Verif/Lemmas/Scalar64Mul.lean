import Verif.Lemmas.Scalar64
/-
Products and squares of four words.
-/
namespace Verif.Lemmas.Scalar64
open Verif Verif.Scalar64 Verif.Spec.Scalar64 Verif.Field52

theorem val_lt {a : Sc} (ha : Words a) : val a < 2 ^ 256 := by
  obtain ⟨h0, h1, h2, h3⟩ := ha
  unfold val; omega

theorem val_mul_lt {a b : Sc} (ha : Words a) (hb : Words b) : val a * val b < 2 ^ 512 := by
  have := Nat.mul_lt_mul'' (val_lt ha) (val_lt hb)
  rwa [← Nat.pow_add] at this

theorem ok_zero (k : Nat) : Ok k ⟨0, 0, 0⟩ := by
  refine ⟨?_, ?_, ?_⟩ <;> simp

theorem lt_of_scaled {X Y L : Nat} (h : Y * 2 ^ 384 + L = X) (hx : X < 2 ^ 512) : Y < 2 ^ 128 := by omega

theorem columns {B S0 S1 S2 S3 S4 S5 S6 l0 l1 l2 l3 l4 l5 k1 k2 k3 k4 k5 k6 : Nat} (h0 : S0 = l0 + k1 * B) (h1 : k1 + S1 = l1 + k2 * B)
    (h2 : k2 + S2 = l2 + k3 * B) (h3 : k3 + S3 = l3 + k4 * B) (h4 : k4 + S4 = l4 + k5 * B) (h5 : k5 + S5 = l5 + k6 * B) :
    (k6 + S6) * B ^ 6 + (l0 + l1 * B + l2 * B ^ 2 + l3 * B ^ 3 + l4 * B ^ 4 + l5 * B ^ 5) =
      S0 + S1 * B + S2 * B ^ 2 + S3 * B ^ 3 + S4 * B ^ 4 + S5 * B ^ 5 + S6 * B ^ 6 := by
  zify at *
  linear_combination -h0 - B * h1 - B ^ 2 * h2 - B ^ 3 * h3 - B ^ 4 * h4 - B ^ 5 * h5

/-- Powers of 2^64. -/
theorem pw (x : Nat) : x * 2 ^ 64 = x * (2 ^ 64) ∧ x * 2 ^ 128 = x * (2 ^ 64) ^ 2 ∧ x * 2 ^ 192 = x * (2 ^ 64) ^ 3 ∧
    x * 2 ^ 256 = x * (2 ^ 64) ^ 4 ∧ x * 2 ^ 320 = x * (2 ^ 64) ^ 5 ∧ x * 2 ^ 384 = x * (2 ^ 64) ^ 6 ∧ x * 2 ^ 448 = x * (2 ^ 64) ^ 7 := by
  refine ⟨rfl, ?_, ?_, ?_, ?_, ?_, ?_⟩ <;> rw [← Nat.pow_mul]

theorem join8 {l0 l1 l2 l3 l4 l5 l6 l7 X Y : Nat} (h : X * 2 ^ 384 + (l0 + l1 * 2 ^ 64 + l2 * 2 ^ 128 + l3 * 2 ^ 192 + l4 * 2 ^ 256 + l5 * 2 ^ 320) = Y)
    (hx : X = l6 + l7 * 2 ^ 64) : wval ⟨l0, l1, l2, l3, l4, l5, l6, l7⟩ = Y := by
  rw [← h, hx]
  unfold wval
  simp only [(pw _).2.1, (pw _).2.2.1, (pw _).2.2.2.1, (pw _).2.2.2.2.1, (pw _).2.2.2.2.2.1, (pw _).2.2.2.2.2.2]
  generalize 2 ^ 64 = B
  ring

theorem expand (a b : Sc) : val a * val b = a.d0 * b.d0 + (a.d0 * b.d1 + a.d1 * b.d0) * 2 ^ 64 +
    (a.d0 * b.d2 + a.d1 * b.d1 + a.d2 * b.d0) * 2 ^ 128 + (a.d0 * b.d3 + a.d1 * b.d2 + a.d2 * b.d1 + a.d3 * b.d0) * 2 ^ 192 +
    (a.d1 * b.d3 + a.d2 * b.d2 + a.d3 * b.d1) * 2 ^ 256 + (a.d2 * b.d3 + a.d3 * b.d2) * 2 ^ 320 + a.d3 * b.d3 * 2 ^ 384 := by
  unfold val
  simp only [(pw _).2.1, (pw _).2.2.1, (pw _).2.2.2.1, (pw _).2.2.2.2.1, (pw _).2.2.2.2.2.1]
  generalize 2 ^ 64 = B
  ring

theorem expand2 (a : Sc) : val a * val a = a.d0 * a.d0 + 2 * (a.d0 * a.d1) * 2 ^ 64 +
    (2 * (a.d0 * a.d2) + a.d1 * a.d1) * 2 ^ 128 + (2 * (a.d0 * a.d3) + 2 * (a.d1 * a.d2)) * 2 ^ 192 +
    (2 * (a.d1 * a.d3) + a.d2 * a.d2) * 2 ^ 256 + 2 * (a.d2 * a.d3) * 2 ^ 320 + a.d3 * a.d3 * 2 ^ 384 := by
  unfold val
  simp only [(pw _).2.1, (pw _).2.2.1, (pw _).2.2.2.1, (pw _).2.2.2.2.1, (pw _).2.2.2.2.2.1]
  generalize 2 ^ 64 = B
  ring

theorem mul512_core {a b : Sc} (ha : Words a) (hb : Words b) {c0 c1 c2 c3 c4 c5 c6 c7 c8 c9 c10 c11 c12 c13 c14 c15 c16 c17 c18 c19 c20 c21 c22 c23 : Acc}
    (e0 : c0 = ⟨0, 0, 0⟩)
    (e1 : c1 = muladdFast c0 a.d0 b.d0)
    (e2 : c2 = extractFast c1)
    (e3 : c3 = muladd 32 c2 a.d0 b.d1)
    (e4 : c4 = muladd 32 c3 a.d1 b.d0)
    (e5 : c5 = extract c4)
    (e6 : c6 = muladd 32 c5 a.d0 b.d2)
    (e7 : c7 = muladd 32 c6 a.d1 b.d1)
    (e8 : c8 = muladd 32 c7 a.d2 b.d0)
    (e9 : c9 = extract c8)
    (e10 : c10 = muladd 32 c9 a.d0 b.d3)
    (e11 : c11 = muladd 32 c10 a.d1 b.d2)
    (e12 : c12 = muladd 32 c11 a.d2 b.d1)
    (e13 : c13 = muladd 32 c12 a.d3 b.d0)
    (e14 : c14 = extract c13)
    (e15 : c15 = muladd 32 c14 a.d1 b.d3)
    (e16 : c16 = muladd 32 c15 a.d2 b.d2)
    (e17 : c17 = muladd 32 c16 a.d3 b.d1)
    (e18 : c18 = extract c17)
    (e19 : c19 = muladd 32 c18 a.d2 b.d3)
    (e20 : c20 = muladd 32 c19 a.d3 b.d2)
    (e21 : c21 = extract c20)
    (e22 : c22 = muladdFast c21 a.d3 b.d3)
    (e23 : c23 = extractFast c22)
    : WOk ⟨c1.c0, c4.c0, c8.c0, c13.c0, c17.c0, c20.c0, c22.c0, c23.c0⟩ ∧ wval ⟨c1.c0, c4.c0, c8.c0, c13.c0, c17.c0, c20.c0, c22.c0, c23.c0⟩ = val a * val b := by
  have hX := val_mul_lt ha hb
  obtain ⟨a0, a1, a2, a3⟩ := ha
  obtain ⟨b0, b1, b2, b3⟩ := hb
  have o0 : Ok 32 c0 := e0 ▸ ok_zero 32
  have v0 : aval c0 = 0 := by rw [e0]; simp [aval]
  have z0 : c0.c0 + c0.c1 * 2 ^ 64 = 0 := by rw [e0, Nat.zero_mul]
  have t0 : c0.c2 = 0 := by rw [e0]
  obtain ⟨o1, v1, t1⟩ := madf e1 o0 a0 b0 (by have := prod_le a0 b0; rw [z0]; omega)
  obtain ⟨o2, v2, t2, s2⟩ := extf e2 o1 (t1.trans t0)
  obtain ⟨o3, v3, t3⟩ := mad e3 (by decide) o2 a0 b1 (by omega)
  obtain ⟨o4, v4, t4⟩ := mad e4 (by decide) o3 a1 b0 (by omega)
  obtain ⟨o5, v5, t5⟩ := ext e5 o4 (by decide)
  obtain ⟨o6, v6, t6⟩ := mad e6 (by decide) o5 a0 b2 (by omega)
  obtain ⟨o7, v7, t7⟩ := mad e7 (by decide) o6 a1 b1 (by omega)
  obtain ⟨o8, v8, t8⟩ := mad e8 (by decide) o7 a2 b0 (by omega)
  obtain ⟨o9, v9, t9⟩ := ext e9 o8 (by decide)
  obtain ⟨o10, v10, t10⟩ := mad e10 (by decide) o9 a0 b3 (by omega)
  obtain ⟨o11, v11, t11⟩ := mad e11 (by decide) o10 a1 b2 (by omega)
  obtain ⟨o12, v12, t12⟩ := mad e12 (by decide) o11 a2 b1 (by omega)
  obtain ⟨o13, v13, t13⟩ := mad e13 (by decide) o12 a3 b0 (by omega)
  obtain ⟨o14, v14, t14⟩ := ext e14 o13 (by decide)
  obtain ⟨o15, v15, t15⟩ := mad e15 (by decide) o14 a1 b3 (by omega)
  obtain ⟨o16, v16, t16⟩ := mad e16 (by decide) o15 a2 b2 (by omega)
  obtain ⟨o17, v17, t17⟩ := mad e17 (by decide) o16 a3 b1 (by omega)
  obtain ⟨o18, v18, t18⟩ := ext e18 o17 (by decide)
  obtain ⟨o19, v19, t19⟩ := mad e19 (by decide) o18 a2 b3 (by omega)
  obtain ⟨o20, v20, t20⟩ := mad e20 (by decide) o19 a3 b2 (by omega)
  obtain ⟨o21, v21, t21⟩ := ext e21 o20 (by decide)
  have hv : (aval c21 + a.d3 * b.d3) * 2 ^ 384 + (c1.c0 + c4.c0 * 2 ^ 64 + c8.c0 * 2 ^ 128 + c13.c0 * 2 ^ 192 + c17.c0 * 2 ^ 256 + c20.c0 * 2 ^ 320) = val a * val b := by
    have q0 : a.d0 * b.d0 = aval c1 := by rw [v1, v0, Nat.zero_add]
    have q1 : aval c2 + (a.d0 * b.d1 + a.d1 * b.d0) = aval c4 := by rw [v4, v3]; simp only [Nat.add_assoc]
    have q2 : aval c5 + (a.d0 * b.d2 + a.d1 * b.d1 + a.d2 * b.d0) = aval c8 := by rw [v8, v7, v6]; simp only [Nat.add_assoc]
    have q3 : aval c9 + (a.d0 * b.d3 + a.d1 * b.d2 + a.d2 * b.d1 + a.d3 * b.d0) = aval c13 := by rw [v13, v12, v11, v10]; simp only [Nat.add_assoc]
    have q4 : aval c14 + (a.d1 * b.d3 + a.d2 * b.d2 + a.d3 * b.d1) = aval c17 := by rw [v17, v16, v15]; simp only [Nat.add_assoc]
    have q5 : aval c18 + (a.d2 * b.d3 + a.d3 * b.d2) = aval c20 := by rw [v20, v19]; simp only [Nat.add_assoc]
    have := columns (S6 := a.d3 * b.d3) (q0.trans v2) (q1.trans v5) (q2.trans v9) (q3.trans v14) (q4.trans v18) (q5.trans v21)
    rw [expand]
    simp only [(pw _).2.1, (pw _).2.2.1, (pw _).2.2.2.1, (pw _).2.2.2.2.1, (pw _).2.2.2.2.2.1]
    exact this
  have hl := lt_of_scaled hv hX
  obtain ⟨o22, v22, t22⟩ := madf e22 o21 a3 b3 (fits_fast hl t21)
  obtain ⟨o23, v23, t23, s23⟩ := extf e23 o22 (t22.trans t21)
  refine ⟨⟨o1.1, o4.1, o8.1, o13.1, o17.1, o20.1, o22.1, o23.1⟩, join8 hv ?_⟩
  rw [← v22, v23, low_word t23 s23]

theorem mul512_spec {a b : Sc} (ha : Words a) (hb : Words b) : WOk (mul512 a b) ∧ wval (mul512 a b) = val a * val b :=
  mul512_core ha hb rfl rfl rfl rfl rfl rfl rfl rfl rfl rfl rfl rfl rfl rfl rfl rfl rfl rfl rfl rfl rfl rfl rfl rfl
theorem sqr512_core {a : Sc} (ha : Words a) {c0 c1 c2 c3 c4 c5 c6 c7 c8 c9 c10 c11 c12 c13 c14 c15 c16 c17 : Acc}
    (e0 : c0 = ⟨0, 0, 0⟩)
    (e1 : c1 = muladdFast c0 a.d0 a.d0)
    (e2 : c2 = extractFast c1)
    (e3 : c3 = muladd2 32 c2 a.d0 a.d1)
    (e4 : c4 = extract c3)
    (e5 : c5 = muladd2 32 c4 a.d0 a.d2)
    (e6 : c6 = muladd 32 c5 a.d1 a.d1)
    (e7 : c7 = extract c6)
    (e8 : c8 = muladd2 32 c7 a.d0 a.d3)
    (e9 : c9 = muladd2 32 c8 a.d1 a.d2)
    (e10 : c10 = extract c9)
    (e11 : c11 = muladd2 32 c10 a.d1 a.d3)
    (e12 : c12 = muladd 32 c11 a.d2 a.d2)
    (e13 : c13 = extract c12)
    (e14 : c14 = muladd2 32 c13 a.d2 a.d3)
    (e15 : c15 = extract c14)
    (e16 : c16 = muladdFast c15 a.d3 a.d3)
    (e17 : c17 = extractFast c16)
    : WOk ⟨c1.c0, c3.c0, c6.c0, c9.c0, c12.c0, c14.c0, c16.c0, c17.c0⟩ ∧ wval ⟨c1.c0, c3.c0, c6.c0, c9.c0, c12.c0, c14.c0, c16.c0, c17.c0⟩ = val a * val a := by
  have hX := val_mul_lt ha ha
  obtain ⟨a0, a1, a2, a3⟩ := ha
  have o0 : Ok 32 c0 := e0 ▸ ok_zero 32
  have v0 : aval c0 = 0 := by rw [e0]; simp [aval]
  have z0 : c0.c0 + c0.c1 * 2 ^ 64 = 0 := by rw [e0, Nat.zero_mul]
  have t0 : c0.c2 = 0 := by rw [e0]
  obtain ⟨o1, v1, t1⟩ := madf e1 o0 a0 a0 (by have := prod_le a0 a0; rw [z0]; omega)
  obtain ⟨o2, v2, t2, s2⟩ := extf e2 o1 (t1.trans t0)
  obtain ⟨o3, v3, t3⟩ := mad2 e3 (by decide) o2 a0 a1 (by omega)
  obtain ⟨o4, v4, t4⟩ := ext e4 o3 (by decide)
  obtain ⟨o5, v5, t5⟩ := mad2 e5 (by decide) o4 a0 a2 (by omega)
  obtain ⟨o6, v6, t6⟩ := mad e6 (by decide) o5 a1 a1 (by omega)
  obtain ⟨o7, v7, t7⟩ := ext e7 o6 (by decide)
  obtain ⟨o8, v8, t8⟩ := mad2 e8 (by decide) o7 a0 a3 (by omega)
  obtain ⟨o9, v9, t9⟩ := mad2 e9 (by decide) o8 a1 a2 (by omega)
  obtain ⟨o10, v10, t10⟩ := ext e10 o9 (by decide)
  obtain ⟨o11, v11, t11⟩ := mad2 e11 (by decide) o10 a1 a3 (by omega)
  obtain ⟨o12, v12, t12⟩ := mad e12 (by decide) o11 a2 a2 (by omega)
  obtain ⟨o13, v13, t13⟩ := ext e13 o12 (by decide)
  obtain ⟨o14, v14, t14⟩ := mad2 e14 (by decide) o13 a2 a3 (by omega)
  obtain ⟨o15, v15, t15⟩ := ext e15 o14 (by decide)
  have hv : (aval c15 + a.d3 * a.d3) * 2 ^ 384 + (c1.c0 + c3.c0 * 2 ^ 64 + c6.c0 * 2 ^ 128 + c9.c0 * 2 ^ 192 + c12.c0 * 2 ^ 256 + c14.c0 * 2 ^ 320) = val a * val a := by
    have q0 : a.d0 * a.d0 = aval c1 := by rw [v1, v0, Nat.zero_add]
    have q1 : aval c2 + (2 * (a.d0 * a.d1)) = aval c3 := by rw [v3]
    have q2 : aval c4 + (2 * (a.d0 * a.d2) + a.d1 * a.d1) = aval c6 := by rw [v6, v5]; simp only [Nat.add_assoc]
    have q3 : aval c7 + (2 * (a.d0 * a.d3) + 2 * (a.d1 * a.d2)) = aval c9 := by rw [v9, v8]; simp only [Nat.add_assoc]
    have q4 : aval c10 + (2 * (a.d1 * a.d3) + a.d2 * a.d2) = aval c12 := by rw [v12, v11]; simp only [Nat.add_assoc]
    have q5 : aval c13 + (2 * (a.d2 * a.d3)) = aval c14 := by rw [v14]
    have := columns (S6 := a.d3 * a.d3) (q0.trans v2) (q1.trans v4) (q2.trans v7) (q3.trans v10) (q4.trans v13) (q5.trans v15)
    rw [expand2]
    simp only [(pw _).2.1, (pw _).2.2.1, (pw _).2.2.2.1, (pw _).2.2.2.2.1, (pw _).2.2.2.2.2.1]
    exact this
  have hl := lt_of_scaled hv hX
  obtain ⟨o16, v16, t16⟩ := madf e16 o15 a3 a3 (fits_fast hl t15)
  obtain ⟨o17, v17, t17, s17⟩ := extf e17 o16 (t16.trans t15)
  refine ⟨⟨o1.1, o3.1, o6.1, o9.1, o12.1, o14.1, o16.1, o17.1⟩, join8 hv ?_⟩
  rw [← v16, v17, low_word t17 s17]

theorem sqr512_spec {a : Sc} (ha : Words a) : WOk (sqr512 a) ∧ wval (sqr512 a) = val a * val a :=
  sqr512_core ha rfl rfl rfl rfl rfl rfl rfl rfl rfl rfl rfl rfl rfl rfl rfl rfl rfl rfl
end Verif.Lemmas.Scalar64

import Verif.Lemmas.Scalar64Mul
/-
The reduction of eight words modulo the order.
-/
namespace Verif.Lemmas.Scalar64
open Verif Verif.Scalar64 Verif.Spec.Scalar64 Verif.Spec.Secp
open Verif.Field52 (w64 w128)

/-- 2^256 minus the order. -/
def C : Nat := 0x14551231950b75fc4402da1732fc9bebf

theorem C_eq : C = C0 + C1 * 2 ^ 64 + 2 ^ 128 := by decide +kernel
theorem n_add_C : n + C = 2 ^ 256 := by decide +kernel
theorem C0_eq : C0 = 0x402da1732fc9bebf := by decide +kernel
theorem C1_eq : C1 = 0x4551231950b75fc4 := by decide +kernel
theorem C0_lt : C0 < 2 ^ 64 := by rw [C0_eq]; decide +kernel
theorem C1_lt : C1 < 2 ^ 64 := by rw [C1_eq]; decide +kernel

theorem fold1_id {l0 l1 l2 l3 n0 n1 n2 n3 : Nat} :
    (l0 + n0 * C0) + (l1 + n1 * C0 + n0 * C1) * 2 ^ 64 + (l2 + n2 * C0 + n1 * C1 + n0) * (2 ^ 64) ^ 2 +
      (l3 + n3 * C0 + n2 * C1 + n1) * (2 ^ 64) ^ 3 + (n3 * C1 + n2) * (2 ^ 64) ^ 4 + n3 * (2 ^ 64) ^ 5 + 0 * (2 ^ 64) ^ 6 =
    (l0 + l1 * 2 ^ 64 + l2 * 2 ^ 128 + l3 * 2 ^ 192) + (n0 + n1 * 2 ^ 64 + n2 * 2 ^ 128 + n3 * 2 ^ 192) * C := by
  rw [C_eq]
  simp only [(pw _).2.1, (pw _).2.2.1, (pw _).2.2.2.1, (pw _).2.2.2.2.1, (pw _).2.2.2.2.2.1]
  rw [show (2 : Nat) ^ 128 = (2 ^ 64) ^ 2 by rw [← Nat.pow_mul]]
  generalize 2 ^ 64 = B
  ring

theorem fold1_core {l : Wide} (hl : WOk l) {c0 c1 c2 c3 c4 c5 c6 c7 c8 c9 c10 c11 c12 c13 c14 c15 c16 c17 c18 c19 c20 c21 : Acc}
    (e0 : c0 = ⟨l.l0, 0, 0⟩) (e1 : c1 = muladdFast c0 l.l4 C0) (e2 : c2 = extractFast c1) (e3 : c3 = sumaddFast c2 l.l1)
    (e4 : c4 = muladd 64 c3 l.l5 C0) (e5 : c5 = muladd 64 c4 l.l4 C1) (e6 : c6 = extract c5) (e7 : c7 = sumadd 64 c6 l.l2)
    (e8 : c8 = muladd 64 c7 l.l6 C0) (e9 : c9 = muladd 64 c8 l.l5 C1) (e10 : c10 = sumadd 64 c9 l.l4) (e11 : c11 = extract c10)
    (e12 : c12 = sumadd 64 c11 l.l3) (e13 : c13 = muladd 64 c12 l.l7 C0) (e14 : c14 = muladd 64 c13 l.l6 C1)
    (e15 : c15 = sumadd 64 c14 l.l5) (e16 : c16 = extract c15) (e17 : c17 = muladd 64 c16 l.l7 C1) (e18 : c18 = sumadd 64 c17 l.l6)
    (e19 : c19 = extract c18) (e20 : c20 = sumaddFast c19 l.l7) (e21 : c21 = extractFast c20) :
    (c1.c0 < 2 ^ 64 ∧ c5.c0 < 2 ^ 64 ∧ c10.c0 < 2 ^ 64 ∧ c15.c0 < 2 ^ 64 ∧ c18.c0 < 2 ^ 64 ∧ c20.c0 < 2 ^ 64) ∧
    c21.c0 * (2 ^ 64) ^ 6 + (c1.c0 + c5.c0 * 2 ^ 64 + c10.c0 * (2 ^ 64) ^ 2 + c15.c0 * (2 ^ 64) ^ 3 + c18.c0 * (2 ^ 64) ^ 4 +
      c20.c0 * (2 ^ 64) ^ 5) =
    (l.l0 + l.l1 * 2 ^ 64 + l.l2 * 2 ^ 128 + l.l3 * 2 ^ 192) + (l.l4 + l.l5 * 2 ^ 64 + l.l6 * 2 ^ 128 + l.l7 * 2 ^ 192) * C := by
  obtain ⟨h0, h1, h2, h3, h4, h5, h6, h7⟩ := hl
  have o0 : Ok 64 c0 := by rw [e0]; exact ⟨h0, Nat.two_pow_pos 64, Nat.two_pow_pos 64⟩
  have v0 : aval c0 = l.l0 := by rw [e0]; simp [aval]
  have t0 : c0.c2 = 0 := by rw [e0]
  have k0 := C0_lt
  have k1 := C1_lt
  obtain ⟨o1, v1, t1⟩ := madf e1 o0 h4 k0 (fits_fast (by rw [v0]; have := prod_le h4 k0; omega) t0)
  obtain ⟨o2, v2, t2, s2⟩ := extf e2 o1 (t1.trans t0)
  have z2 := extf_small e2 o1 (t1.trans t0)
  obtain ⟨o3, v3, t3⟩ := sadf e3 o2 h1 (fits_fast (by omega) t2)
  obtain ⟨o4, v4, t4⟩ := mad e4 (by decide) o3 h5 k0 (by omega)
  obtain ⟨o5, v5, t5⟩ := mad e5 (by decide) o4 h4 k1 (by omega)
  obtain ⟨o6, v6, t6⟩ := ext e6 o5 (by decide)
  obtain ⟨o7, v7, t7⟩ := sad e7 (by decide) o6 h2 (by omega)
  obtain ⟨o8, v8, t8⟩ := mad e8 (by decide) o7 h6 k0 (by omega)
  obtain ⟨o9, v9, t9⟩ := mad e9 (by decide) o8 h5 k1 (by omega)
  obtain ⟨o10, v10, t10⟩ := sad e10 (by decide) o9 h4 (by omega)
  obtain ⟨o11, v11, t11⟩ := ext e11 o10 (by decide)
  obtain ⟨o12, v12, t12⟩ := sad e12 (by decide) o11 h3 (by omega)
  obtain ⟨o13, v13, t13⟩ := mad e13 (by decide) o12 h7 k0 (by omega)
  obtain ⟨o14, v14, t14⟩ := mad e14 (by decide) o13 h6 k1 (by omega)
  obtain ⟨o15, v15, t15⟩ := sad e15 (by decide) o14 h5 (by omega)
  obtain ⟨o16, v16, t16⟩ := ext e16 o15 (by decide)
  obtain ⟨o17, v17, t17⟩ := mad e17 (by decide) o16 h7 k1 (by omega)
  obtain ⟨o18, v18, t18⟩ := sad e18 (by decide) o17 h6 (by omega)
  obtain ⟨o19, v19, t19⟩ := ext e19 o18 (by decide)
  have z19 := ext_small e19 o18
  obtain ⟨o20, v20, t20⟩ := sadf e20 o19 h7 (fits_fast (by omega) t19)
  obtain ⟨o21, v21, t21, s21⟩ := extf e21 o20 (t20.trans t19)
  rw [low_word t21 s21] at v21
  refine ⟨⟨o1.1, o5.1, o10.1, o15.1, o18.1, o20.1⟩, ?_⟩
  have q0 : l.l0 + l.l4 * C0 = aval c1 := by rw [v1, v0]
  have q1 : aval c2 + (l.l1 + l.l5 * C0 + l.l4 * C1) = aval c5 := by rw [v5, v4, v3]; simp only [Nat.add_assoc]
  have q2 : aval c6 + (l.l2 + l.l6 * C0 + l.l5 * C1 + l.l4) = aval c10 := by rw [v10, v9, v8, v7]; simp only [Nat.add_assoc]
  have q3 : aval c11 + (l.l3 + l.l7 * C0 + l.l6 * C1 + l.l5) = aval c15 := by rw [v15, v14, v13, v12]; simp only [Nat.add_assoc]
  have q4 : aval c16 + (l.l7 * C1 + l.l6) = aval c18 := by rw [v18, v17]; simp only [Nat.add_assoc]
  have q5 : aval c19 + l.l7 = aval c20 := by rw [v20]
  have := columns (S6 := 0) (q0.trans v2) (q1.trans v6) (q2.trans v11) (q3.trans v16) (q4.trans v19) (q5.trans v21)
  rw [Nat.add_zero, fold1_id] at this
  exact this

theorem fold1_tail {k X Y : Nat} (h : k * (2 ^ 64) ^ 6 + X = Y) (hY : Y < 2 ^ 256 + 2 ^ 256 * C) : k ≤ 1 := by
  rw [← Nat.pow_mul] at h
  unfold C at hY
  omega

theorem top_lt {x0 x1 x2 x3 : Nat} (h0 : x0 < 2 ^ 64) (h1 : x1 < 2 ^ 64) (h2 : x2 < 2 ^ 64) (h3 : x3 < 2 ^ 64) :
    x0 + x1 * 2 ^ 64 + x2 * 2 ^ 128 + x3 * 2 ^ 192 < 2 ^ 256 := by omega

/-- What the first step makes of the words. -/
theorem fold1_spec {l : Wide} (hl : WOk l) : ∃ m, fold1 l = m ∧
    (m.l0 < 2 ^ 64 ∧ m.l1 < 2 ^ 64 ∧ m.l2 < 2 ^ 64 ∧ m.l3 < 2 ^ 64 ∧ m.l4 < 2 ^ 64 ∧ m.l5 < 2 ^ 64 ∧ m.l6 ≤ 1) ∧
    m.l6 * 2 ^ 384 + (m.l0 + m.l1 * 2 ^ 64 + m.l2 * 2 ^ 128 + m.l3 * 2 ^ 192 + m.l4 * 2 ^ 256 + m.l5 * 2 ^ 320) =
    (l.l0 + l.l1 * 2 ^ 64 + l.l2 * 2 ^ 128 + l.l3 * 2 ^ 192) + (l.l4 + l.l5 * 2 ^ 64 + l.l6 * 2 ^ 128 + l.l7 * 2 ^ 192) * C := by
  have hh := fold1_core hl rfl rfl rfl rfl rfl rfl rfl rfl rfl rfl rfl rfl rfl rfl rfl rfl rfl rfl rfl rfl rfl rfl
  obtain ⟨⟨w0, w1, w2, w3, w4, w5⟩, hv⟩ := hh
  have hk := fold1_tail hv (by
    have a := top_lt hl.1 hl.2.1 hl.2.2.1 hl.2.2.2.1
    have b := top_lt hl.2.2.2.2.1 hl.2.2.2.2.2.1 hl.2.2.2.2.2.2.1 hl.2.2.2.2.2.2.2
    have c := Nat.mul_le_mul_right C (Nat.le_of_lt b)
    exact Nat.add_lt_add_of_lt_of_le a c)
  refine ⟨_, rfl, ⟨w0, w1, w2, w3, w4, w5, ?_⟩, ?_⟩
  · exact Nat.le_trans (Nat.mod_le _ _) hk
  · rw [← hv]
    show _ % 2 ^ 32 * 2 ^ 384 + _ = _
    rw [Nat.mod_eq_of_lt (Nat.lt_of_le_of_lt hk (by decide))]
    simp only [(pw _).2.1, (pw _).2.2.1, (pw _).2.2.2.1, (pw _).2.2.2.2.1, (pw _).2.2.2.2.2.1]
    rfl

theorem columns4 {B S0 S1 S2 S3 l0 l1 l2 l3 k1 k2 k3 k4 : Nat} (h0 : S0 = l0 + k1 * B) (h1 : k1 + S1 = l1 + k2 * B)
    (h2 : k2 + S2 = l2 + k3 * B) (h3 : k3 + S3 = l3 + k4 * B) :
    k4 * B ^ 4 + (l0 + l1 * B + l2 * B ^ 2 + l3 * B ^ 3) = S0 + S1 * B + S2 * B ^ 2 + S3 * B ^ 3 := by
  zify at *
  linear_combination -h0 - B * h1 - B ^ 2 * h2 - B ^ 3 * h3

theorem fold2_id {m0 m1 m2 m3 m4 m5 m6 k : Nat} {X : Nat}
    (h : k * (2 ^ 64) ^ 4 + X = (m0 + m4 * C0) + (m1 + m5 * C0 + m4 * C1) * 2 ^ 64 + (m2 + m6 * C0 + m5 * C1 + m4) * (2 ^ 64) ^ 2 +
      (m3 + m6 * C1 + m5) * (2 ^ 64) ^ 3) :
    (k + m6) * (2 ^ 64) ^ 4 + X = (m0 + m1 * 2 ^ 64 + m2 * 2 ^ 128 + m3 * 2 ^ 192) + (m4 + m5 * 2 ^ 64 + m6 * 2 ^ 128) * C := by
  rw [C_eq, Nat.add_mul, Nat.add_right_comm, h]
  simp only [(pw _).2.1, (pw _).2.2.1, (pw _).2.2.2.1, (pw _).2.2.2.2.1, (pw _).2.2.2.2.2.1]
  rw [show (2 : Nat) ^ 128 = (2 ^ 64) ^ 2 by rw [← Nat.pow_mul]]
  generalize 2 ^ 64 = B
  ring

theorem fold2_core {m : Wide} (hm : m.l0 < 2 ^ 64 ∧ m.l1 < 2 ^ 64 ∧ m.l2 < 2 ^ 64 ∧ m.l3 < 2 ^ 64 ∧ m.l4 < 2 ^ 64 ∧ m.l5 < 2 ^ 64 ∧ m.l6 ≤ 1)
    {c0 c1 c2 c3 c4 c5 c6 c7 c8 c9 c10 c11 c12 c13 c14 c15 : Acc}
    (e0 : c0 = ⟨m.l0, 0, 0⟩) (e1 : c1 = muladdFast c0 m.l4 C0) (e2 : c2 = extractFast c1) (e3 : c3 = sumaddFast c2 m.l1)
    (e4 : c4 = muladd 64 c3 m.l5 C0) (e5 : c5 = muladd 64 c4 m.l4 C1) (e6 : c6 = extract c5) (e7 : c7 = sumadd 64 c6 m.l2)
    (e8 : c8 = muladd 64 c7 m.l6 C0) (e9 : c9 = muladd 64 c8 m.l5 C1) (e10 : c10 = sumadd 64 c9 m.l4) (e11 : c11 = extract c10)
    (e12 : c12 = sumaddFast c11 m.l3) (e13 : c13 = muladdFast c12 m.l6 C1) (e14 : c14 = sumaddFast c13 m.l5)
    (e15 : c15 = extractFast c14) :
    (c1.c0 < 2 ^ 64 ∧ c5.c0 < 2 ^ 64 ∧ c10.c0 < 2 ^ 64 ∧ c14.c0 < 2 ^ 64) ∧
    (c15.c0 + m.l6) * (2 ^ 64) ^ 4 + (c1.c0 + c5.c0 * 2 ^ 64 + c10.c0 * (2 ^ 64) ^ 2 + c14.c0 * (2 ^ 64) ^ 3) =
    (m.l0 + m.l1 * 2 ^ 64 + m.l2 * 2 ^ 128 + m.l3 * 2 ^ 192) + (m.l4 + m.l5 * 2 ^ 64 + m.l6 * 2 ^ 128) * C := by
  obtain ⟨h0, h1, h2, h3, h4, h5, h6⟩ := hm
  have h6' : m.l6 < 2 ^ 64 := by omega
  have o0 : Ok 64 c0 := by rw [e0]; exact ⟨h0, Nat.two_pow_pos 64, Nat.two_pow_pos 64⟩
  have v0 : aval c0 = m.l0 := by rw [e0]; simp [aval]
  have t0 : c0.c2 = 0 := by rw [e0]
  have k0 := C0_lt
  have k1 := C1_lt
  obtain ⟨o1, v1, t1⟩ := madf e1 o0 h4 k0 (fits_fast (by rw [v0]; have := prod_le h4 k0; omega) t0)
  obtain ⟨o2, v2, t2, s2⟩ := extf e2 o1 (t1.trans t0)
  have z2 := extf_small e2 o1 (t1.trans t0)
  obtain ⟨o3, v3, t3⟩ := sadf e3 o2 h1 (fits_fast (by omega) t2)
  obtain ⟨o4, v4, t4⟩ := mad e4 (by decide) o3 h5 k0 (by omega)
  obtain ⟨o5, v5, t5⟩ := mad e5 (by decide) o4 h4 k1 (by omega)
  obtain ⟨o6, v6, t6⟩ := ext e6 o5 (by decide)
  obtain ⟨o7, v7, t7⟩ := sad e7 (by decide) o6 h2 (by omega)
  obtain ⟨o8, v8, t8⟩ := mad e8 (by decide) o7 h6' k0 (by omega)
  obtain ⟨o9, v9, t9⟩ := mad e9 (by decide) o8 h5 k1 (by omega)
  obtain ⟨o10, v10, t10⟩ := sad e10 (by decide) o9 h4 (by omega)
  obtain ⟨o11, v11, t11⟩ := ext e11 o10 (by decide)
  have z11 := ext_small e11 o10
  have hb : m.l6 * C1 ≤ 2 ^ 64 := by
    have := Nat.mul_le_mul h6 (Nat.le_of_lt k1); omega
  obtain ⟨o12, v12, t12⟩ := sadf e12 o11 h3 (fits_fast (by omega) t11)
  obtain ⟨o13, v13, t13⟩ := madf e13 o12 h6' k1 (fits_fast (by omega) (t12.trans t11))
  obtain ⟨o14, v14, t14⟩ := sadf e14 o13 h5 (fits_fast (by omega) (t13.trans (t12.trans t11)))
  obtain ⟨o15, v15, t15, s15⟩ := extf e15 o14 (t14.trans (t13.trans (t12.trans t11)))
  rw [low_word t15 s15] at v15
  refine ⟨⟨o1.1, o5.1, o10.1, o14.1⟩, ?_⟩
  have q0 : m.l0 + m.l4 * C0 = aval c1 := by rw [v1, v0]
  have q1 : aval c2 + (m.l1 + m.l5 * C0 + m.l4 * C1) = aval c5 := by rw [v5, v4, v3]; simp only [Nat.add_assoc]
  have q2 : aval c6 + (m.l2 + m.l6 * C0 + m.l5 * C1 + m.l4) = aval c10 := by rw [v10, v9, v8, v7]; simp only [Nat.add_assoc]
  have q3 : aval c11 + (m.l3 + m.l6 * C1 + m.l5) = aval c14 := by rw [v14, v13, v12]; simp only [Nat.add_assoc]
  exact fold2_id (columns4 (q0.trans v2) (q1.trans v6) (q2.trans v11) (q3.trans v15))

theorem fold2_tail {k X L H Y : Nat} (h : k * (2 ^ 64) ^ 4 + X = L + H * C) (hL : L < 2 ^ 256) (hY : H * 2 ^ 256 + Y < 2 ^ 256 + 2 ^ 256 * C) :
    k ≤ 2 := by
  rw [← Nat.pow_mul] at h
  unfold C at h hY
  omega

theorem fold2_spec {l m : Wide} (hl : WOk l)
    (hm : m.l0 < 2 ^ 64 ∧ m.l1 < 2 ^ 64 ∧ m.l2 < 2 ^ 64 ∧ m.l3 < 2 ^ 64 ∧ m.l4 < 2 ^ 64 ∧ m.l5 < 2 ^ 64 ∧ m.l6 ≤ 1)
    (hv : m.l6 * 2 ^ 384 + (m.l0 + m.l1 * 2 ^ 64 + m.l2 * 2 ^ 128 + m.l3 * 2 ^ 192 + m.l4 * 2 ^ 256 + m.l5 * 2 ^ 320) =
      (l.l0 + l.l1 * 2 ^ 64 + l.l2 * 2 ^ 128 + l.l3 * 2 ^ 192) + (l.l4 + l.l5 * 2 ^ 64 + l.l6 * 2 ^ 128 + l.l7 * 2 ^ 192) * C) :
    ∃ q, fold2 m = q ∧ (q.l0 < 2 ^ 64 ∧ q.l1 < 2 ^ 64 ∧ q.l2 < 2 ^ 64 ∧ q.l3 < 2 ^ 64 ∧ q.l4 ≤ 2) ∧
    q.l4 * 2 ^ 256 + (q.l0 + q.l1 * 2 ^ 64 + q.l2 * 2 ^ 128 + q.l3 * 2 ^ 192) =
      (m.l0 + m.l1 * 2 ^ 64 + m.l2 * 2 ^ 128 + m.l3 * 2 ^ 192) + (m.l4 + m.l5 * 2 ^ 64 + m.l6 * 2 ^ 128) * C := by
  have hh := fold2_core hm rfl rfl rfl rfl rfl rfl rfl rfl rfl rfl rfl rfl rfl rfl rfl rfl
  obtain ⟨⟨w0, w1, w2, w3⟩, hw⟩ := hh
  have hk := fold2_tail (Y := m.l0 + m.l1 * 2 ^ 64 + m.l2 * 2 ^ 128 + m.l3 * 2 ^ 192) hw (top_lt hm.1 hm.2.1 hm.2.2.1 hm.2.2.2.1) (by
    have a := top_lt hl.1 hl.2.1 hl.2.2.1 hl.2.2.2.1
    have b := top_lt hl.2.2.2.2.1 hl.2.2.2.2.2.1 hl.2.2.2.2.2.2.1 hl.2.2.2.2.2.2.2
    have c := Nat.mul_le_mul_right C (Nat.le_of_lt b)
    have d := Nat.add_lt_add_of_lt_of_le a c
    rw [← hv] at d
    refine Nat.lt_of_le_of_lt (Nat.le_of_eq ?_) d
    simp only [(pw _).2.1, (pw _).2.2.1, (pw _).2.2.2.1, (pw _).2.2.2.2.1, (pw _).2.2.2.2.2.1]
    generalize 2 ^ 64 = B
    ring)
  refine ⟨_, rfl, ⟨w0, w1, w2, w3, ?_⟩, ?_⟩
  · exact Nat.le_trans (Nat.mod_le _ _) hk
  · rw [← hw]
    show _ % 2 ^ 32 * 2 ^ 256 + _ = _
    rw [Nat.mod_eq_of_lt (Nat.lt_of_le_of_lt hk (by decide))]
    simp only [(pw _).2.1, (pw _).2.2.1, (pw _).2.2.2.1, (pw _).2.2.2.2.1, (pw _).2.2.2.2.2.1]
    rfl

/-- Four sums with the carry between them. -/
theorem chain {X0 X1 X2 X3 t0 t1 t2 t3 : Nat} (h0 : X0 < 2 ^ 127) (h1 : X1 < 2 ^ 127) (h2 : X2 < 2 ^ 127) (h3 : X3 < 2 ^ 127)
    (e0 : t0 = w128 X0) (e1 : t1 = w128 (t0 >>> 64 + X1)) (e2 : t2 = w128 (t1 >>> 64 + X2)) (e3 : t3 = w128 (t2 >>> 64 + X3)) :
    Words ⟨w64 t0, w64 t1, w64 t2, w64 t3⟩ ∧
    (t3 >>> 64) * 2 ^ 256 + val ⟨w64 t0, w64 t1, w64 t2, w64 t3⟩ = X0 + X1 * 2 ^ 64 + X2 * 2 ^ 128 + X3 * 2 ^ 192 := by
  simp only [w128, shr64] at e0 e1 e2 e3
  rw [Nat.mod_eq_of_lt (by omega)] at e0
  rw [Nat.mod_eq_of_lt (by omega)] at e1
  rw [Nat.mod_eq_of_lt (by omega)] at e2
  rw [Nat.mod_eq_of_lt (by omega)] at e3
  unfold Words val
  simp only [w64, shr64]
  have a0 : t0 = t0 / 2 ^ 64 * 2 ^ 64 + t0 % 2 ^ 64 := by omega
  have a1 : t1 = t1 / 2 ^ 64 * 2 ^ 64 + t1 % 2 ^ 64 := by omega
  have a2 : t2 = t2 / 2 ^ 64 * 2 ^ 64 + t2 % 2 ^ 64 := by omega
  have a3 : t3 = t3 / 2 ^ 64 * 2 ^ 64 + t3 % 2 ^ 64 := by omega
  refine ⟨by omega, ?_⟩
  generalize t0 / 2 ^ 64 = k0 at *
  generalize t1 / 2 ^ 64 = k1 at *
  generalize t2 / 2 ^ 64 = k2 at *
  generalize t3 / 2 ^ 64 = k3 at *
  generalize t0 % 2 ^ 64 = r0 at *
  generalize t1 % 2 ^ 64 = r1 at *
  generalize t2 % 2 ^ 64 = r2 at *
  generalize t3 % 2 ^ 64 = r3 at *
  omega

theorem fold3_spec {q : Wide} (hq : q.l0 < 2 ^ 64 ∧ q.l1 < 2 ^ 64 ∧ q.l2 < 2 ^ 64 ∧ q.l3 < 2 ^ 64 ∧ q.l4 ≤ 2) :
    Words (fold3 q).1 ∧ (fold3 q).2 * 2 ^ 256 + val (fold3 q).1 = (q.l0 + q.l1 * 2 ^ 64 + q.l2 * 2 ^ 128 + q.l3 * 2 ^ 192) + q.l4 * C ∧
      (fold3 q).2 ≤ 1 := by
  obtain ⟨q0, q1, q2, q3, q4, q5, q6, q7⟩ := q
  obtain ⟨h0, h1, h2, h3, h4⟩ := hq
  simp only at h0 h1 h2 h3 h4
  have hw := chain (X0 := q0 + C0 * q4) (X1 := q1 + C1 * q4) (X2 := q2 + q4) (X3 := q3) (by rw [C0_eq]; omega) (by rw [C1_eq]; omega)
    (by omega) (by omega) rfl rfl rfl rfl
  refine ⟨hw.1, ?_, ?_⟩
  · refine Eq.trans hw.2 ?_
    rw [C0_eq, C1_eq]; unfold C; simp only; omega
  · have hv : (fold3 ⟨q0, q1, q2, q3, q4, q5, q6, q7⟩).2 * 2 ^ 256 + val (fold3 ⟨q0, q1, q2, q3, q4, q5, q6, q7⟩).1 =
      (q0 + C0 * q4) + (q1 + C1 * q4) * 2 ^ 64 + (q2 + q4) * 2 ^ 128 + q3 * 2 ^ 192 := hw.2
    clear hw
    rw [C0_eq, C1_eq] at hv
    generalize (fold3 ⟨q0, q1, q2, q3, q4, q5, q6, q7⟩).2 = k at hv ⊢
    generalize val (fold3 ⟨q0, q1, q2, q3, q4, q5, q6, q7⟩).1 = v at hv
    omega

theorem checkOverflow_spec {a : Sc} (ha : Words a) : checkOverflow a = if n ≤ val a then 1 else 0 := by
  obtain ⟨a0, a1, a2, a3⟩ := a
  obtain ⟨h0, h1, h2, h3⟩ := ha
  simp only at h0 h1 h2 h3
  have key : (checkOverflow ⟨a0, a1, a2, a3⟩ = 1 ∧ n ≤ val ⟨a0, a1, a2, a3⟩) ∨ (checkOverflow ⟨a0, a1, a2, a3⟩ = 0 ∧ ¬ n ≤ val ⟨a0, a1, a2, a3⟩) := by
    unfold checkOverflow val N0 N1 N2 N3 n
    simp only
    by_cases k3 : a3 < 0xFFFFFFFFFFFFFFFF
    · right; simp [k3]; omega
    · by_cases k2 : a2 < 0xFFFFFFFFFFFFFFFE
      · right; simp [k3, k2]; omega
      · by_cases k2' : a2 > 0xFFFFFFFFFFFFFFFE
        · left; simp [k3, k2, k2']; omega
        · by_cases k1 : a1 < 0xBAAEDCE6AF48A03B
          · right; simp [k3, k2, k2', k1]; omega
          · by_cases k1' : a1 > 0xBAAEDCE6AF48A03B
            · left; simp [k3, k2, k2', k1, k1']; omega
            · by_cases k0 : a0 ≥ 0xBFD25E8CD0364141
              · left; simp [k3, k2, k2', k1, k1', k0]; omega
              · right; simp [k3, k2, k2', k1, k1', k0]; omega
  rcases key with ⟨e, h⟩ | ⟨e, h⟩
  · rw [e, if_pos h]
  · rw [e, if_neg h]

theorem reduce_spec {r : Sc} {x : Nat} (hr : Words r) (hx : x ≤ 1) : Words (reduce r x) ∧ val (reduce r x) = (val r + x * C) % 2 ^ 256 := by
  obtain ⟨a0, a1, a2, a3⟩ := r
  obtain ⟨h0, h1, h2, h3⟩ := hr
  simp only at h0 h1 h2 h3
  have c0 : w64 (x * C0) = x * C0 := Nat.mod_eq_of_lt (by rw [C0_eq]; omega)
  have c1 : w64 (x * C1) = x * C1 := Nat.mod_eq_of_lt (by rw [C1_eq]; omega)
  have c2 : x * C2 % 2 ^ 32 = x := by unfold C2; omega
  have hw := chain (X0 := a0 + w64 (x * C0)) (X1 := a1 + w64 (x * C1)) (X2 := a2 + x * C2 % 2 ^ 32) (X3 := a3) (by rw [c0, C0_eq]; omega)
    (by rw [c1, C1_eq]; omega) (by omega) (by omega) rfl rfl rfl rfl
  refine ⟨hw.1, ?_⟩
  have hv := hw.2
  have hl := val_lt hw.1
  change _ + val (reduce ⟨a0, a1, a2, a3⟩ x) = _ at hv
  change val (reduce ⟨a0, a1, a2, a3⟩ x) < _ at hl
  rw [c0, c1, c2, C0_eq, C1_eq] at hv
  generalize val (reduce ⟨a0, a1, a2, a3⟩ x) = v at hv hl ⊢
  generalize _ >>> 64 = k at hv
  unfold val C
  simp only
  omega

/-- The whole step for a number of 257 bits that is below 2n. -/
theorem reduce_mod {r : Sc} {c : Nat} (hr : Words r) (hc : c * 2 ^ 256 + val r < 2 * n) :
    Words (reduce r ((c + checkOverflow r) % 2 ^ 32)) ∧ val (reduce r ((c + checkOverflow r) % 2 ^ 32)) = (c * 2 ^ 256 + val r) % n ∧
      (c + checkOverflow r) % 2 ^ 32 = if n ≤ c * 2 ^ 256 + val r then 1 else 0 := by
  have hlt := val_lt hr
  have ho := checkOverflow_spec hr
  have hC := n_add_C
  have hn : n = 0xfffffffffffffffffffffffffffffffebaaedce6af48a03bbfd25e8cd0364141 := rfl
  have hcc : C = 0x14551231950b75fc4402da1732fc9bebf := rfl
  have hc1 : c = 0 ∨ c = 1 := by omega
  have hx : c + checkOverflow r = if n ≤ c * 2 ^ 256 + val r then 1 else 0 := by
    rw [ho]
    rcases hc1 with rfl | rfl
    · simp only [Nat.zero_mul, Nat.zero_add]
    · rw [if_neg (by omega), if_pos (by omega)]
  have hx1 : c + checkOverflow r ≤ 1 := by rw [hx]; split <;> omega
  rw [Nat.mod_eq_of_lt (Nat.lt_of_le_of_lt hx1 (by decide))]
  obtain ⟨s1, s2⟩ := reduce_spec hr hx1
  refine ⟨s1, ?_, hx⟩
  rw [s2, hx]
  clear s2 s1 hx hx1 ho
  split
  · rename_i h
    rw [Nat.mod_eq_sub_mod h, Nat.mod_eq_of_lt (show c * 2 ^ 256 + val r - n < n by omega)]
    rw [Nat.one_mul, hcc, hn]
    rw [hn] at h hc
    rcases hc1 with rfl | rfl
    · rw [Nat.zero_mul, Nat.zero_add] at h ⊢; omega
    · rw [Nat.one_mul] at h hc ⊢; omega
  · rename_i h
    rw [Nat.mod_eq_of_lt (by omega : c * 2 ^ 256 + val r < n)]
    omega

theorem step_mod (L H : Nat) : (L + H * 2 ^ 256) % n = (L + H * C) % n := by
  rw [← n_add_C, Nat.mul_add, Nat.add_comm (H * n), ← Nat.add_assoc, Nat.add_mul_mod_self_right]

theorem reduce512_spec {l : Wide} (hl : WOk l) : Words (reduce512 l) ∧ val (reduce512 l) = wval l % n := by
  obtain ⟨m, em, hm, hv⟩ := fold1_spec hl
  obtain ⟨q, eq, hq, hw⟩ := fold2_spec hl hm hv
  obtain ⟨hr, h3, hc⟩ := fold3_spec hq
  have hb : (fold3 q).2 * 2 ^ 256 + val (fold3 q).1 < 2 * n := by
    rw [h3]
    have := top_lt hq.1 hq.2.1 hq.2.2.1 hq.2.2.2.1
    have hq4 := hq.2.2.2.2
    clear * - this hq4
    unfold n C
    omega
  obtain ⟨w, e, -⟩ := reduce_mod hr hb
  unfold reduce512
  rw [em, eq]
  refine ⟨w, ?_⟩
  rw [e, h3, ← step_mod, Nat.add_comm, hw, ← step_mod]
  have e1 : (m.l0 + m.l1 * 2 ^ 64 + m.l2 * 2 ^ 128 + m.l3 * 2 ^ 192) + (m.l4 + m.l5 * 2 ^ 64 + m.l6 * 2 ^ 128) * 2 ^ 256 =
      m.l6 * 2 ^ 384 + (m.l0 + m.l1 * 2 ^ 64 + m.l2 * 2 ^ 128 + m.l3 * 2 ^ 192 + m.l4 * 2 ^ 256 + m.l5 * 2 ^ 320) := by
    simp only [(pw _).2.1, (pw _).2.2.1, (pw _).2.2.2.1, (pw _).2.2.2.2.1, (pw _).2.2.2.2.2.1]
    generalize 2 ^ 64 = B
    ring
  rw [e1, hv, ← step_mod]
  congr 1
  unfold wval
  simp only [(pw _).2.1, (pw _).2.2.1, (pw _).2.2.2.1, (pw _).2.2.2.2.1, (pw _).2.2.2.2.2.1, (pw _).2.2.2.2.2.2]
  generalize 2 ^ 64 = B
  ring

theorem mul_val {a b : Sc} (ha : Words a) (hb : Words b) : Words (mul a b) ∧ val (mul a b) = val a * val b % n := by
  obtain ⟨w, e⟩ := mul512_spec ha hb
  obtain ⟨s, t⟩ := reduce512_spec w
  exact ⟨s, by rw [mul, t, e]⟩

theorem sqr_val {a : Sc} (ha : Words a) : Words (sqr a) ∧ val (sqr a) = val a * val a % n := by
  obtain ⟨w, e⟩ := sqr512_spec ha
  obtain ⟨s, t⟩ := reduce512_spec w
  exact ⟨s, by rw [sqr, t, e]⟩

end Verif.Lemmas.Scalar64

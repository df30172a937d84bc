import Verif.Lemmas.Field52
/-
The other operations of `field_5x52_impl.h`.
-/
namespace Verif.Field52
open Verif Verif.Spec.Secp

theorem p_eq : p = 0xfffffffffffffffffffffffffffffffffffffffffffffffffffffffefffffc2f := rfl

/-! ### Products -/

section
variable {x y : Nat}
theorem pb (h1 : x ≤ 2 * 8 * (2 ^ 52 - 1)) (h2 : y ≤ 2 * 8 * (2 ^ 52 - 1)) : x * y ≤ 5192296858534827628530496329220096 :=
  (Nat.mul_le_mul h1 h2).trans (by norm_num)
theorem pb4 (h1 : x ≤ 2 * 8 * (2 ^ 52 - 1)) (h2 : y ≤ 2 * 8 * (2 ^ 48 - 1)) : x * y ≤ 324518553658426726783156020576256 :=
  (Nat.mul_le_mul h1 h2).trans (by norm_num)
theorem pb4' (h1 : x ≤ 2 * 8 * (2 ^ 48 - 1)) (h2 : y ≤ 2 * 8 * (2 ^ 52 - 1)) : x * y ≤ 324518553658426726783156020576256 :=
  (Nat.mul_le_mul h1 h2).trans (by norm_num)
theorem pb44 (h1 : x ≤ 2 * 8 * (2 ^ 48 - 1)) (h2 : y ≤ 2 * 8 * (2 ^ 48 - 1)) : x * y ≤ 20282409603651670423947251286016 :=
  (Nat.mul_le_mul h1 h2).trans (by norm_num)
end

set_option exponentiation.threshold 500 in
theorem mul_spec {a b : Fe} (ha : Mag 8 a) (hb : Mag 8 b) : Mag 1 (mul a b) ∧ val (mul a b) % p = val a * val b % p := by
  obtain ⟨a0, a1, a2, a3, a4⟩ := ha
  obtain ⟨b0, b1, b2, b3, b4⟩ := hb
  have e : mul a b = core (a.n0 * b.n0) (a.n0 * b.n1 + a.n1 * b.n0) (a.n0 * b.n2 + a.n1 * b.n1 + a.n2 * b.n0)
      (a.n0 * b.n3 + a.n1 * b.n2 + a.n2 * b.n1 + a.n3 * b.n0) (a.n0 * b.n4 + a.n1 * b.n3 + a.n2 * b.n2 + a.n3 * b.n1 + a.n4 * b.n0)
      (a.n1 * b.n4 + a.n2 * b.n3 + a.n3 * b.n2 + a.n4 * b.n1) (a.n2 * b.n4 + a.n3 * b.n3 + a.n4 * b.n2)
      (a.n3 * b.n4 + a.n4 * b.n3) (a.n4 * b.n4) := rfl
  have s {x y z w : Nat} : x ≤ y → z ≤ w → x + z ≤ y + w := Nat.add_le_add
  obtain ⟨h1, k, h2⟩ := core_spec (pb a0 b0) ((s (pb a0 b1) (pb a1 b0)).trans (by norm_num))
    ((s (s (pb a0 b2) (pb a1 b1)) (pb a2 b0)).trans (by norm_num))
    ((s (s (s (pb a0 b3) (pb a1 b2)) (pb a2 b1)) (pb a3 b0)).trans (by norm_num))
    ((s (s (s (s (pb4 a0 b4) (pb a1 b3)) (pb a2 b2)) (pb a3 b1)) (pb4' a4 b0)).trans (by norm_num))
    ((s (s (s (pb4 a1 b4) (pb a2 b3)) (pb a3 b2)) (pb4' a4 b1)).trans (by norm_num))
    ((s (s (pb4 a2 b4) (pb a3 b3)) (pb4' a4 b2)).trans (by norm_num))
    ((s (pb4 a3 b4) (pb4' a4 b3)).trans (by norm_num)) (pb44 a4 b4)
  rw [← e] at h1 h2
  refine ⟨h1, ?_⟩
  have : val a * val b = val (mul a b) + p * k := by rw [← h2, val, val]; ring
  rw [this, Nat.add_mul_mod_self_left]

theorem w64_two {x : Nat} (h : x ≤ 2 * 8 * (2 ^ 52 - 1)) : w64 (x * 2) = x * 2 := Nat.mod_eq_of_lt (by omega)

theorem sqr_eq {a : Fe} (ha : Mag 8 a) : sqr a = mul a a := by
  obtain ⟨a0, a1, a2, a3, a4⟩ := ha
  have e : sqr a = core (a.n0 * a.n0) (w64 (a.n0 * 2) * a.n1) (w64 (a.n0 * 2) * a.n2 + a.n1 * a.n1)
      (w64 (a.n0 * 2) * a.n3 + w64 (a.n1 * 2) * a.n2) (a.n0 * w64 (a.n4 * 2) + w64 (a.n1 * 2) * a.n3 + a.n2 * a.n2)
      (a.n1 * w64 (a.n4 * 2) + w64 (a.n2 * 2) * a.n3) (a.n2 * w64 (a.n4 * 2) + a.n3 * a.n3) (a.n3 * w64 (a.n4 * 2)) (a.n4 * a.n4) := rfl
  have e' : mul a a = core (a.n0 * a.n0) (a.n0 * a.n1 + a.n1 * a.n0) (a.n0 * a.n2 + a.n1 * a.n1 + a.n2 * a.n0)
      (a.n0 * a.n3 + a.n1 * a.n2 + a.n2 * a.n1 + a.n3 * a.n0) (a.n0 * a.n4 + a.n1 * a.n3 + a.n2 * a.n2 + a.n3 * a.n1 + a.n4 * a.n0)
      (a.n1 * a.n4 + a.n2 * a.n3 + a.n3 * a.n2 + a.n4 * a.n1) (a.n2 * a.n4 + a.n3 * a.n3 + a.n4 * a.n2)
      (a.n3 * a.n4 + a.n4 * a.n3) (a.n4 * a.n4) := rfl
  rw [e, e', w64_two a0, w64_two a1, w64_two a2, w64_two (a4.trans (by norm_num))]
  congr 1 <;> ring

theorem sqr_spec {a : Fe} (ha : Mag 8 a) : Mag 1 (sqr a) ∧ val (sqr a) % p = val a * val a % p := by
  rw [sqr_eq ha]; exact mul_spec ha ha

/-! ### Normalisation -/

/-- The first four words have 52 bits. -/
def Lim (t : Fe) : Prop := t.n0 < 2 ^ 52 ∧ t.n1 < 2 ^ 52 ∧ t.n2 < 2 ^ 52 ∧ t.n3 < 2 ^ 52

/-- The words of a number below p. -/
def Canon (t : Fe) : Prop := Lim t ∧ t.n4 < 2 ^ 48 ∧ val t < p

theorem w64_of {x y B : Nat} (h : y = w64 x) (hx : x ≤ B) (hB : B < 2 ^ 64) : y = x ∧ y ≤ B := by
  rw [h, w64, Nat.mod_eq_of_lt (by omega)]; exact ⟨rfl, hx⟩

theorem bp0 {a b m : Nat} (hm : m ≤ 2047) (ha : a ≤ 2 * m * (2 ^ 52 - 1)) (hb : b ≤ 2 * m * (2 ^ 48 - 1)) :
    a + b / 2 ^ 48 * 0x1000003D1 ≤ 4094 * 2 ^ 52 + 4094 * 0x1000003D1 := by omega
theorem bp {a b m : Nat} (hm : m ≤ 2047) (ha : a ≤ 2 * m * (2 ^ 52 - 1)) (hb : b ≤ 4094 * 2 ^ 52 + 4094 * 0x1000003D1) :
    a + b / 2 ^ 52 ≤ 4094 * 2 ^ 52 + 4094 * 0x1000003D1 := by omega
theorem bp4 {a b : Nat} (ha : a < 2 ^ 48) (hb : b ≤ 4094 * 2 ^ 52 + 4094 * 0x1000003D1) : a + b / 2 ^ 52 ≤ 2 ^ 48 + 2 ^ 12 := by omega

theorem pass_spec {m : Nat} {a : Fe} (hm : m ≤ 2047) (ha : Mag m a) :
    Lim (pass a) ∧ (pass a).n4 ≤ 2 ^ 48 + 2 ^ 12 ∧ val a = val (pass a) + p * (a.n4 / 2 ^ 48) := by
  obtain ⟨a0, a1, a2, a3, a4⟩ := ha
  generalize hr : pass a = r
  unfold pass at hr
  extract_lets -merge x s4 t0 t1 s0 t2 s1 t3 s2 t4 s3 at hr
  have ex : x = a.n4 >>> 48 := rfl
  have es4 : s4 = a.n4 &&& 0x0FFFFFFFFFFFF := rfl
  have et0 : t0 = w64 (a.n0 + x * 0x1000003D1) := rfl
  have et1 : t1 = w64 (a.n1 + t0 >>> 52) := rfl
  have et2 : t2 = w64 (a.n2 + t1 >>> 52) := rfl
  have et3 : t3 = w64 (a.n3 + t2 >>> 52) := rfl
  have et4 : t4 = w64 (s4 + t3 >>> 52) := rfl
  have es0 : s0 = t0 &&& 0xFFFFFFFFFFFFF := rfl
  have es1 : s1 = t1 &&& 0xFFFFFFFFFFFFF := rfl
  have es2 : s2 = t2 &&& 0xFFFFFFFFFFFFF := rfl
  have es3 : s3 = t3 &&& 0xFFFFFFFFFFFFF := rfl
  clear_value x s4 t0 t1 s0 t2 s1 t3 s2 t4 s3
  rw [and_52] at es0 es1 es2 es3
  rw [and_48] at es4
  simp only [Nat.shiftRight_eq_div_pow] at ex et1 et2 et3 et4
  subst hr ex
  obtain ⟨f0, h0⟩ := w64_of et0 (bp0 hm a0 a4) (by norm_num)
  obtain ⟨f1, h1⟩ := w64_of et1 (bp hm a1 h0) (by norm_num)
  obtain ⟨f2, h2⟩ := w64_of et2 (bp hm a2 h1) (by norm_num)
  obtain ⟨f3, h3⟩ := w64_of et3 (bp hm a3 h2) (by norm_num)
  have hs4 : s4 < 2 ^ 48 := by rw [es4]; exact Nat.mod_lt _ (by norm_num)
  obtain ⟨f4, h4⟩ := w64_of et4 (bp4 hs4 h3) (by norm_num)
  refine ⟨⟨?_, ?_, ?_, ?_⟩, h4, ?_⟩
  · show s0 < _; rw [es0]; exact Nat.mod_lt _ (by norm_num)
  · show s1 < _; rw [es1]; exact Nat.mod_lt _ (by norm_num)
  · show s2 < _; rw [es2]; exact Nat.mod_lt _ (by norm_num)
  · show s3 < _; rw [es3]; exact Nat.mod_lt _ (by norm_num)
  · have g4 := Nat.div_add_mod a.n4 (2 ^ 48)
    have g0 := Nat.div_add_mod t0 (2 ^ 52)
    have g1 := Nat.div_add_mod t1 (2 ^ 52)
    have g2 := Nat.div_add_mod t2 (2 ^ 52)
    have g3 := Nat.div_add_mod t3 (2 ^ 52)
    rw [← es4] at g4
    rw [← es0] at g0
    rw [← es1] at g1
    rw [← es2] at g2
    rw [← es3] at g3
    rw [val, val, p_eq]
    dsimp only
    clear et0 et1 et2 et3 et4 es0 es1 es2 es3 es4 h0 h1 h2 h3 h4 hs4 a0 a1 a2 a3 a4 hm
    generalize a.n4 / 2 ^ 48 = x at *
    generalize t0 / 2 ^ 52 = q0 at *
    generalize t1 / 2 ^ 52 = q1 at *
    generalize t2 / 2 ^ 52 = q2 at *
    generalize t3 / 2 ^ 52 = q3 at *
    omega

theorem and3 {x y z : Nat} (hx : x < 2 ^ 52) (hy : y < 2 ^ 52) (hz : z < 2 ^ 52) :
    (x &&& y &&& z) = 0xFFFFFFFFFFFFF ↔ x = 0xFFFFFFFFFFFFF ∧ y = 0xFFFFFFFFFFFFF ∧ z = 0xFFFFFFFFFFFFF := by
  constructor
  · intro h
    have h1 : x &&& y &&& z ≤ x &&& y := Nat.and_le_left
    have h2 : x &&& y &&& z ≤ z := Nat.and_le_right
    have h3 : x &&& y ≤ x := Nat.and_le_left
    have h4 : x &&& y ≤ y := Nat.and_le_right
    omega
  · rintro ⟨rfl, rfl, rfl⟩; rfl

theorem over_eq {t : Fe} (hl : Lim t) (h4 : t.n4 ≤ 2 ^ 48 + 2 ^ 12) : over t = if p ≤ val t then 1 else 0 := by
  obtain ⟨t0, t1, t2, t3, t4⟩ := t
  obtain ⟨h0, h1, h2, h3⟩ := hl
  dsimp only at *
  rw [over, val, p_eq]
  dsimp only
  simp only [and3 h1 h2 h3, Nat.shiftRight_eq_div_pow]
  by_cases hb : 2 ^ 48 ≤ t4
  · have e : t4 / 2 ^ 48 = 1 := by omega
    rw [e, if_neg (by omega), if_pos (by omega)]
    rfl
  · have e : t4 / 2 ^ 48 = 0 := by omega
    rw [e, Nat.zero_or]
    congr 1
    apply propext
    constructor
    · rintro ⟨rfl, ⟨rfl, rfl, rfl⟩, h⟩; omega
    · intro h; omega

/-- The carries of the final reduction. -/
theorem reduce_spec {t : Fe} (hl : Lim t) (h4 : t.n4 ≤ 2 ^ 48 + 2 ^ 12) {x : Nat} (hx : x ≤ 1) :
    Lim (reduce t x) ∧ ∃ q, q < 2 ^ 13 + 2 ^ 48 ∧ (reduce t x).n4 = q % 2 ^ 48 ∧
      val t + x * 0x1000003D1 = (reduce t x).n0 + (reduce t x).n1 * 2 ^ 52 + (reduce t x).n2 * 2 ^ 104 + (reduce t x).n3 * 2 ^ 156 + q * 2 ^ 208 := by
  obtain ⟨t0, t1, t2, t3, t4⟩ := t
  obtain ⟨h0, h1, h2, h3⟩ := hl
  dsimp only at *
  rw [reduce]
  dsimp only
  simp only [and_52, and_48, Nat.shiftRight_eq_div_pow, w64]
  have e0 : (t0 + x * 0x1000003D1) % 2 ^ 64 = t0 + x * 0x1000003D1 := Nat.mod_eq_of_lt (by omega)
  rw [e0]
  obtain ⟨u0, hu0⟩ : ∃ u, u = t0 + x * 0x1000003D1 := ⟨_, rfl⟩
  rw [← hu0]
  have e1 : (t1 + u0 / 2 ^ 52) % 2 ^ 64 = t1 + u0 / 2 ^ 52 := Nat.mod_eq_of_lt (by omega)
  rw [e1]
  obtain ⟨u1, hu1⟩ : ∃ u, u = t1 + u0 / 2 ^ 52 := ⟨_, rfl⟩
  rw [← hu1]
  have b1 : u1 ≤ 2 ^ 52 := by omega
  have e2 : (t2 + u1 / 2 ^ 52) % 2 ^ 64 = t2 + u1 / 2 ^ 52 := Nat.mod_eq_of_lt (by omega)
  rw [e2]
  obtain ⟨u2, hu2⟩ : ∃ u, u = t2 + u1 / 2 ^ 52 := ⟨_, rfl⟩
  rw [← hu2]
  have b2 : u2 ≤ 2 ^ 52 := by omega
  have e3 : (t3 + u2 / 2 ^ 52) % 2 ^ 64 = t3 + u2 / 2 ^ 52 := Nat.mod_eq_of_lt (by omega)
  rw [e3]
  obtain ⟨u3, hu3⟩ : ∃ u, u = t3 + u2 / 2 ^ 52 := ⟨_, rfl⟩
  rw [← hu3]
  have b3 : u3 ≤ 2 ^ 52 := by omega
  have e4 : (t4 + u3 / 2 ^ 52) % 2 ^ 64 = t4 + u3 / 2 ^ 52 := Nat.mod_eq_of_lt (by omega)
  rw [e4]
  refine ⟨⟨Nat.mod_lt _ (by norm_num), Nat.mod_lt _ (by norm_num), Nat.mod_lt _ (by norm_num), Nat.mod_lt _ (by norm_num)⟩, t4 + u3 / 2 ^ 52,
    by omega, rfl, ?_⟩
  rw [val]
  dsimp only
  clear e0 e1 e2 e3 e4
  omega

theorem normalize_var_eq {m : Nat} {a : Fe} (hm : m ≤ 2047) (ha : Mag m a) : normalizeVar a = normalize a := by
  obtain ⟨hl, h4, -⟩ := pass_spec hm ha
  rw [normalizeVar, normalize]
  generalize pass a = t at *
  rw [over_eq hl h4]
  by_cases h : p ≤ val t
  · rw [if_pos h, if_pos (by decide)]
  · rw [if_neg h, if_neg (by decide)]
    obtain ⟨⟨k0, k1, k2, k3⟩, q, hq, e4, e⟩ := reduce_spec hl h4 (Nat.zero_le 1)
    obtain ⟨t0, t1, t2, t3, t4⟩ := t
    generalize reduce ⟨t0, t1, t2, t3, t4⟩ 0 = r at *
    obtain ⟨r0, r1, r2, r3, r4⟩ := r
    obtain ⟨l0, l1, l2, l3⟩ := hl
    rw [val] at e h
    rw [p_eq] at h
    dsimp only at *
    rw [Fe.mk.injEq]
    have a0 : t0 = r0 := by omega
    have a1 : t1 = r1 := by omega
    have a2 : t2 = r2 := by omega
    have a3 : t3 = r3 := by omega
    exact ⟨a0, a1, a2, a3, by omega⟩

theorem normalize_spec {m : Nat} {a : Fe} (hm : m ≤ 2047) (ha : Mag m a) : Canon (normalize a) ∧ val (normalize a) = val a % p := by
  obtain ⟨hl, h4, hv⟩ := pass_spec hm ha
  rw [normalize]
  rw [hv, Nat.add_mul_mod_self_left]
  clear hv
  generalize pass a = t at *
  rw [over_eq hl h4]
  have h2p : val t < 2 * p := by
    obtain ⟨k0, k1, k2, k3⟩ := hl
    rw [val, p_eq]; omega
  by_cases h : p ≤ val t
  · rw [if_pos h]
    obtain ⟨k, q, hq, e4, e⟩ := reduce_spec hl h4 (Nat.le_refl 1)
    have hv : val (reduce t 1) = val t - p := by
      obtain ⟨k0, k1, k2, k3⟩ := k
      rw [p_eq] at h h2p ⊢
      rw [val, e4]
      omega
    rw [Nat.mod_eq_sub_mod h, Nat.mod_eq_of_lt (by omega)]
    exact ⟨⟨k, by rw [e4]; exact Nat.mod_lt _ (by norm_num), by rw [hv]; omega⟩, hv⟩
  · rw [if_neg h]
    obtain ⟨k, q, hq, e4, e⟩ := reduce_spec hl h4 (Nat.zero_le 1)
    have hv : val (reduce t 0) = val t := by
      obtain ⟨k0, k1, k2, k3⟩ := k
      rw [p_eq] at h h2p
      rw [val, e4]
      omega
    rw [Nat.mod_eq_of_lt (by omega)]
    exact ⟨⟨k, by rw [e4]; exact Nat.mod_lt _ (by norm_num), by rw [hv]; omega⟩, hv⟩

theorem weak_spec {m : Nat} {a : Fe} (hm : m ≤ 2047) (ha : Mag m a) : Mag 1 (normalizeWeak a) ∧ val (normalizeWeak a) % p = val a % p := by
  obtain ⟨⟨h0, h1, h2, h3⟩, h4, hv⟩ := pass_spec hm ha
  rw [normalizeWeak]
  refine ⟨⟨by omega, by omega, by omega, by omega, by omega⟩, ?_⟩
  rw [hv, Nat.add_mul_mod_self_left]

theorem xor_lt {x : Nat} (hx : x < 2 ^ 52) {c : Nat} (hc : c < 2 ^ 52) : x ^^^ c < 2 ^ 52 := Nat.xor_lt_two_pow hx hc

theorem xor_iff {x c d : Nat} : x ^^^ c = d ↔ x = d ^^^ c := by
  constructor
  · rintro rfl; rw [Nat.xor_assoc, Nat.xor_self, Nat.xor_zero]
  · rintro rfl; rw [Nat.xor_assoc, Nat.xor_self, Nat.xor_zero]

theorem zero_eq {t : Fe} (hl : Lim t) (h4 : t.n4 ≤ 2 ^ 48 + 2 ^ 12) :
    ((t.n0 ||| t.n1 ||| t.n2 ||| t.n3 ||| t.n4) = 0 ∨
      ((t.n0 ^^^ 0x1000003D0) &&& t.n1 &&& t.n2 &&& t.n3 &&& (t.n4 ^^^ 0xF000000000000)) = 0xFFFFFFFFFFFFF) ↔ val t % p = 0 := by
  have h2p : val t < 2 * p := by
    obtain ⟨k0, k1, k2, k3⟩ := hl
    rw [val, p_eq]; omega
  have e : val t % p = 0 ↔ val t = 0 ∨ val t = p := by
    constructor
    · intro h
      rcases Nat.lt_or_ge (val t) p with h' | h'
      · left; rwa [Nat.mod_eq_of_lt h'] at h
      · right; rw [Nat.mod_eq_sub_mod h', Nat.mod_eq_of_lt (by omega)] at h; omega
    · rintro (h | h)
      · rw [h]; rfl
      · rw [h]; exact Nat.mod_self _
  rw [e]
  clear e h2p
  obtain ⟨t0, t1, t2, t3, t4⟩ := t
  obtain ⟨h0, h1, h2, h3⟩ := hl
  rw [val, p_eq]
  dsimp only at *
  apply or_congr
  · simp only [Nat.or_eq_zero_iff]
    omega
  · have l0 := xor_lt h0 (c := 0x1000003D0) (by norm_num)
    have l4 := xor_lt (show t4 < 2 ^ 52 by omega) (c := 0xF000000000000) (by norm_num)
    have i0 : t0 ^^^ 0x1000003D0 = 0xFFFFFFFFFFFFF ↔ t0 = 0xFFFFEFFFFFC2F := xor_iff
    have i4 : t4 ^^^ 0xF000000000000 = 0xFFFFFFFFFFFFF ↔ t4 = 0x0FFFFFFFFFFFF := xor_iff
    generalize t0 ^^^ 0x1000003D0 = x0 at *
    generalize t4 ^^^ 0xF000000000000 = x4 at *
    have key : (x0 &&& t1 &&& t2 &&& t3 &&& x4) = 0xFFFFFFFFFFFFF ↔
        x0 = 0xFFFFFFFFFFFFF ∧ t1 = 0xFFFFFFFFFFFFF ∧ t2 = 0xFFFFFFFFFFFFF ∧ t3 = 0xFFFFFFFFFFFFF ∧ x4 = 0xFFFFFFFFFFFFF := by
      constructor
      · intro h
        have h1 : x0 &&& t1 &&& t2 &&& t3 &&& x4 ≤ x0 &&& t1 &&& t2 &&& t3 := Nat.and_le_left
        have h2 : x0 &&& t1 &&& t2 &&& t3 &&& x4 ≤ x4 := Nat.and_le_right
        have h3 : x0 &&& t1 &&& t2 &&& t3 ≤ x0 &&& t1 &&& t2 := Nat.and_le_left
        have h4 : x0 &&& t1 &&& t2 &&& t3 ≤ t3 := Nat.and_le_right
        have h5 : x0 &&& t1 &&& t2 ≤ x0 &&& t1 := Nat.and_le_left
        have h6 : x0 &&& t1 &&& t2 ≤ t2 := Nat.and_le_right
        have h7 : x0 &&& t1 ≤ x0 := Nat.and_le_left
        have h8 : x0 &&& t1 ≤ t1 := Nat.and_le_right
        omega
      · rintro ⟨rfl, rfl, rfl, rfl, rfl⟩; rfl
    rw [key, i0, i4]
    omega

theorem toZero_spec {m : Nat} {a : Fe} (hm : m ≤ 2047) (ha : Mag m a) : normalizesToZero a = decide (val a % p = 0) := by
  obtain ⟨hl, h4, hv⟩ := pass_spec hm ha
  have := zero_eq hl h4
  rw [hv, Nat.add_mul_mod_self_left, normalizesToZero, ← Bool.decide_or]
  exact decide_eq_decide.2 this

theorem toZeroVar_eq (a : Fe) : normalizesToZeroVar a = normalizesToZero a := by
  rw [normalizesToZeroVar, normalizesToZero, pass]
  dsimp only
  split
  · rename_i h
    obtain ⟨h1, h2⟩ := h
    have hx : w64 (a.n0 + a.n4 >>> 48 * 4294968273) &&& 4503599627370495 < 2 ^ 52 := by
      rw [and_52]; exact Nat.mod_lt _ (by norm_num)
    generalize w64 (a.n0 + a.n4 >>> 48 * 4294968273) &&& 4503599627370495 = x at *
    symm
    rw [Bool.or_eq_false_iff, decide_eq_false_iff_not, decide_eq_false_iff_not]
    refine ⟨?_, ?_⟩
    · simp only [Nat.or_eq_zero_iff]
      exact fun h => h1 h.1.1.1.1
    · intro h
      have l := xor_lt hx (c := 0x1000003D0) (by norm_num)
      have h3 := (le_of_eq h.symm).trans ((((Nat.and_le_left).trans Nat.and_le_left).trans Nat.and_le_left).trans Nat.and_le_left)
      exact h2 (by omega)
  · rfl

/-! ### The linear operations -/

theorem add_spec {m k : Nat} {a b : Fe} (ha : Mag m a) (hb : Mag k b) (h : m + k ≤ 2047) : Mag (m + k) (add a b) ∧ val (add a b) = val a + val b := by
  obtain ⟨a0, a1, a2, a3, a4⟩ := ha
  obtain ⟨b0, b1, b2, b3, b4⟩ := hb
  have e0 : w64 (a.n0 + b.n0) = a.n0 + b.n0 := Nat.mod_eq_of_lt (by omega)
  have e1 : w64 (a.n1 + b.n1) = a.n1 + b.n1 := Nat.mod_eq_of_lt (by omega)
  have e2 : w64 (a.n2 + b.n2) = a.n2 + b.n2 := Nat.mod_eq_of_lt (by omega)
  have e3 : w64 (a.n3 + b.n3) = a.n3 + b.n3 := Nat.mod_eq_of_lt (by omega)
  have e4 : w64 (a.n4 + b.n4) = a.n4 + b.n4 := Nat.mod_eq_of_lt (by omega)
  rw [add, e0, e1, e2, e3, e4]
  refine ⟨⟨by dsimp only; omega, by dsimp only; omega, by dsimp only; omega, by dsimp only; omega, by dsimp only; omega⟩, ?_⟩
  rw [val, val, val]; dsimp only; omega

theorem mulInt_word {m k x B : Nat} (h : x ≤ 2 * m * B) (hk : m * k ≤ 2047) (hB : B < 2 ^ 52) : w64 (x * k) = x * k ∧ x * k ≤ 2 * (m * k) * B := by
  have h1 : x * k ≤ 2 * (m * k) * B := (Nat.mul_le_mul_right k h).trans (le_of_eq (by ring))
  have h2 : 2 * (m * k) * B ≤ 2 * 2047 * 2 ^ 52 := Nat.mul_le_mul (by omega) hB.le
  exact ⟨Nat.mod_eq_of_lt (by omega), h1⟩

theorem mulInt_spec {m k : Nat} {a : Fe} (ha : Mag m a) (h : m * k ≤ 2047) : Mag (m * k) (mulInt a k) ∧ val (mulInt a k) = val a * k := by
  obtain ⟨a0, a1, a2, a3, a4⟩ := ha
  obtain ⟨e0, f0⟩ := mulInt_word a0 h (by norm_num)
  obtain ⟨e1, f1⟩ := mulInt_word a1 h (by norm_num)
  obtain ⟨e2, f2⟩ := mulInt_word a2 h (by norm_num)
  obtain ⟨e3, f3⟩ := mulInt_word a3 h (by norm_num)
  obtain ⟨e4, f4⟩ := mulInt_word a4 h (by norm_num)
  rw [mulInt, e0, e1, e2, e3, e4]
  refine ⟨⟨f0, f1, f2, f3, f4⟩, ?_⟩
  rw [val, val]; ring

theorem sub64_of {x y : Nat} (hx : x < 2 ^ 64) (h : y ≤ x) : sub64 x y = x - y := by
  rw [sub64, w64, w64, w64, Nat.mod_eq_of_lt hx, Nat.mod_eq_of_lt (by omega : y < 2 ^ 64)]
  omega

theorem negate_spec {m : Nat} {a : Fe} (ha : Mag m a) (h : m + 1 ≤ 2047) :
    Mag (m + 1) (negate a m) ∧ val (negate a m) + val a = p * (2 * (m + 1)) := by
  obtain ⟨a0, a1, a2, a3, a4⟩ := ha
  rw [negate, sub64_of (by omega) (by omega), sub64_of (by omega) (by omega), sub64_of (by omega) (by omega), sub64_of (by omega) (by omega),
    sub64_of (by omega) (by omega)]
  refine ⟨⟨by dsimp only; omega, by dsimp only; omega, by dsimp only; omega, by dsimp only; omega, by dsimp only; omega⟩, ?_⟩
  rw [val, val, p_eq]; dsimp only; omega

theorem sel_zero {r a : Nat} (hr : r < 2 ^ 64) : sel r a 0 = r := by
  rw [sel]
  show (r &&& (2 ^ 64 - 1)) ||| (a &&& 0) = r
  rw [Nat.and_two_pow_sub_one_eq_mod, Nat.mod_eq_of_lt hr, Nat.and_zero, Nat.or_zero]
theorem sel_one {r a : Nat} (ha : a < 2 ^ 64) : sel r a 1 = a := by
  rw [sel]
  show (r &&& 0) ||| (a &&& (2 ^ 64 - 1)) = a
  rw [Nat.and_two_pow_sub_one_eq_mod, Nat.mod_eq_of_lt ha, Nat.and_zero, Nat.zero_or]

theorem Mag.word {m : Nat} {a : Fe} (hm : m ≤ 2047) (ha : Mag m a) : a.n0 < 2 ^ 64 ∧ a.n1 < 2 ^ 64 ∧ a.n2 < 2 ^ 64 ∧ a.n3 < 2 ^ 64 ∧ a.n4 < 2 ^ 64 := by
  obtain ⟨a0, a1, a2, a3, a4⟩ := ha
  refine ⟨by omega, by omega, by omega, by omega, by omega⟩

theorem cmov_spec {m k : Nat} {r a : Fe} (hm : m ≤ 2047) (hk : k ≤ 2047) (hr : Mag m r) (ha : Mag k a) : cmov r a 0 = r ∧ cmov r a 1 = a := by
  obtain ⟨r0, r1, r2, r3, r4⟩ := hr.word hm
  obtain ⟨a0, a1, a2, a3, a4⟩ := ha.word hk
  rw [cmov, cmov, sel_zero r0, sel_zero r1, sel_zero r2, sel_zero r3, sel_zero r4, sel_one a0, sel_one a1, sel_one a2, sel_one a3, sel_one a4]
  exact ⟨rfl, rfl⟩

/-! ### Canonical words -/

theorem Canon.mag {a : Fe} (h : Canon a) : Mag 1 a := by
  obtain ⟨⟨h0, h1, h2, h3⟩, h4, -⟩ := h
  exact ⟨by omega, by omega, by omega, by omega, by omega⟩

theorem Canon.ext {a b : Fe} (ha : Canon a) (hb : Canon b) (h : val a = val b) : a = b := by
  obtain ⟨⟨h0, h1, h2, h3⟩, h4, -⟩ := ha
  obtain ⟨⟨k0, k1, k2, k3⟩, k4, -⟩ := hb
  obtain ⟨a0, a1, a2, a3, a4⟩ := a
  obtain ⟨b0, b1, b2, b3, b4⟩ := b
  rw [val, val] at h
  dsimp only at *
  rw [Fe.mk.injEq]
  have e0 : a0 = b0 := by omega
  have e1 : a1 = b1 := by omega
  have e2 : a2 = b2 := by omega
  have e3 : a3 = b3 := by omega
  exact ⟨e0, e1, e2, e3, by omega⟩

theorem isZero_spec (a : Fe) : isZero a = decide (val a = 0) := by
  rw [isZero]
  apply decide_eq_decide.2
  simp only [Nat.or_eq_zero_iff]
  rw [val]
  omega

theorem isOdd_spec (a : Fe) : isOdd a = val a % 2 := by
  rw [isOdd, Nat.and_one_is_mod, val]; omega

theorem cmp_spec {a b : Fe} (ha : Canon a) (hb : Canon b) : cmpVar a b = if val b < val a then 1 else if val a < val b then -1 else 0 := by
  obtain ⟨⟨h0, h1, h2, h3⟩, h4, -⟩ := ha
  obtain ⟨⟨k0, k1, k2, k3⟩, k4, -⟩ := hb
  rw [cmpVar, val, val]
  simp only [cmpLoop]
  split_ifs <;> first | rfl | omega

end Verif.Field52

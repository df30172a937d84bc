import Verif.Lemmas.EccMul
/-
vli_mmod_fast, vli_mod_add and vli_mod_sub reduce modulo curve_p.
-/
namespace Verif.Lemmas.EccMod
open Verif Verif.Model.Ecc Verif.Lemmas.EccVli Verif.Lemmas.EccMul

/-- The field's order. -/
def P : Nat := 2 ^ 256 - 2 ^ 224 + 2 ^ 192 + 2 ^ 96 - 1

theorem P_eq : P = 115792089210356248762697446949407573530086143415290314195533631308867097853951 := by decide +kernel

theorem curveP_length : curveP.length = 4 := rfl

theorem val_curveP : val curveP = P := by decide +kernel

theorem modAdd_spec {l r m : Vli} (hl : l.length = 4) (hr : r.length = 4) (hm : m.length = 4)
    (hr' : val r < val m) :
    (modAdd l r m).length = 4 ∧ (val (modAdd l r m) = val l + val r ∨
      val (modAdd l r m) + val m = val l + val r) ∧ (val l < val m → val (modAdd l r m) < val m) := by
  obtain ⟨s1, s2⟩ := add_spec hl hr
  have sl := add_length hl hr
  have h4 := val_lt4 sl
  have hl4 := val_lt4 hl
  have hm4 := val_lt4 hm
  unfold modAdd
  dsimp only
  split
  · rename_i hc
    obtain ⟨t1, t2⟩ := sub_spec sl hm
    have tl := sub_length sl hm
    have t4 := val_lt4 tl
    refine ⟨tl, .inr ?_, ?_⟩
    · rcases hc with hc | hc
      · have hc : (add l r).2.toNat ≠ 0 := fun h => hc (UInt64.toNat.inj h)
        omega
      · rw [cmp_ge sl hm] at hc; omega
    · intro hlm
      rcases hc with hc | hc
      · have hc : (add l r).2.toNat ≠ 0 := fun h => hc (UInt64.toNat.inj h)
        omega
      · rw [cmp_ge sl hm] at hc; omega
  · rename_i hc
    rw [not_or, cmp_ge sl hm] at hc
    have hc' : (add l r).2 = 0 := by simpa using hc.1
    rw [hc'] at s1
    have : (0 : UInt64).toNat = 0 := rfl
    refine ⟨sl, .inl (by omega), fun _ => by omega⟩

theorem modSub_spec {l r m : Vli} (hl : l.length = 4) (hr : r.length = 4) (hm : m.length = 4)
    (hl' : val l < val m) (hr' : val r < val m) :
    (modSub l r m).length = 4 ∧ (val (modSub l r m) + val r = val l ∨ val (modSub l r m) + val r = val l + val m) ∧
      val (modSub l r m) < val m := by
  obtain ⟨s1, s2⟩ := sub_spec hl hr
  have sl := sub_length hl hr
  have h4 := val_lt4 sl
  have hm4 := val_lt4 hm
  unfold modSub
  dsimp only
  split
  · rename_i hc
    have hc : (sub l r).2.toNat ≠ 0 := fun h => hc (UInt64.toNat.inj h)
    obtain ⟨t1, t2⟩ := add_spec sl hm
    have tl := add_length sl hm
    have t4 := val_lt4 tl
    exact ⟨tl, .inr (by omega), by omega⟩
  · rename_i hc
    have hc' : (sub l r).2 = 0 := by simpa using hc
    rw [hc'] at s1
    have : (0 : UInt64).toNat = 0 := rfl
    exact ⟨sl, .inl (by omega), by omega⟩

/-- The number in `result` and `carry`. -/
def ival (s : Vli × Int) : Int := val s.1 + 2 ^ 256 * s.2

theorem accPlus_spec {s : Vli × Int} {t : Vli} (hs : s.1.length = 4) (ht : t.length = 4) :
    ival (accPlus s t) = ival s + val t ∧ (accPlus s t).1.length = 4 := by
  obtain ⟨s1, s2⟩ := add_spec hs ht
  refine ⟨?_, add_length hs ht⟩
  simp only [accPlus, ival]; omega

theorem accMinus_spec {s : Vli × Int} {t : Vli} (hs : s.1.length = 4) (ht : t.length = 4) :
    ival (accMinus s t) = ival s - val t ∧ (accMinus s t).1.length = 4 := by
  obtain ⟨s1, s2⟩ := sub_spec hs ht
  refine ⟨?_, sub_length hs ht⟩
  simp only [accMinus, ival]; omega

theorem accPlusTwice_spec {s : Vli × Int} {t : Vli} (hs : s.1.length = 4) (ht : t.length = 4) :
    ival (accPlusTwice s t) = ival s + 2 * val t ∧ (accPlusTwice s t).1.length = 4 := by
  obtain ⟨l1, l2, l3⟩ := lshift_spec 1 (by decide) (by decide) t 0 (by decide)
  obtain ⟨p1, p2⟩ := accPlus_spec (s := (s.1, s.2 + (lshift 1 t 0).2.toNat)) (t := (lshift 1 t 0).1) hs (by omega)
  refine ⟨?_, p2⟩
  unfold accPlusTwice
  dsimp only
  rw [p1]
  rw [ht] at l1
  simp only [UInt64.toNat_one, UInt64.toNat_zero] at l1
  simp only [ival]; omega

theorem shr32 (x : UInt64) : (x >>> 32).toNat = x.toNat / 2 ^ 32 := by
  simp [UInt64.toNat_shiftRight, Nat.shiftRight_eq_div_pow]

theorem shl32 (x : UInt64) : (x <<< 32).toNat = x.toNat % 2 ^ 32 * 2 ^ 32 := by
  simp [UInt64.toNat_shiftLeft, Nat.shiftLeft_eq]; omega

theorem lo32 (x : UInt64) : (x &&& loMask).toNat = x.toNat % 2 ^ 32 := by
  rw [UInt64.toNat_and]
  exact Nat.and_two_pow_sub_one_eq_mod x.toNat 32

theorem hi32 (x : UInt64) : (x &&& hiMask).toNat = x.toNat / 2 ^ 32 * 2 ^ 32 := by
  have hx := x.toNat_lt
  rw [UInt64.toNat_and]
  have hm : hiMask.toNat = (2 ^ 32 - 1) <<< 32 := by decide +kernel
  have e : x.toNat / 2 ^ 32 * 2 ^ 32 = (x.toNat >>> 32) <<< 32 := by
    rw [Nat.shiftLeft_eq, Nat.shiftRight_eq_div_pow]
  rw [hm, e]
  apply Nat.eq_of_testBit_eq
  intro i
  rw [Nat.testBit_and, Nat.testBit_shiftLeft, Nat.testBit_shiftLeft, Nat.testBit_two_pow_sub_one,
    Nat.testBit_shiftRight]
  by_cases hi : i ≥ 32
  · have e2 : 32 + (i - 32) = i := by omega
    rw [e2]
    by_cases h2 : i - 32 < 32
    · simp [hi, h2]
    · have : x.toNat.testBit i = false := Nat.testBit_lt_two_pow (Nat.lt_of_lt_of_le hx (Nat.pow_le_pow_right (by omega) (by omega)))
      simp [this]
  · simp [hi]

theorem or32 {a b : UInt64} (ha : a.toNat < 2 ^ 32) (hb : b.toNat % 2 ^ 32 = 0) :
    (a ||| b).toNat = a.toNat + b.toNat := by
  rw [UInt64.toNat_or, Nat.or_comm, or_add (k := 32) hb ha, Nat.add_comm]

theorem or1 (a b : UInt64) : (a >>> 32 ||| b <<< 32).toNat = a.toNat / 2 ^ 32 + b.toNat % 2 ^ 32 * 2 ^ 32 := by
  have ha := a.toNat_lt
  rw [or32 (by rw [shr32]; omega) (by rw [shl32]; omega), shr32, shl32]

theorem or2 (a b : UInt64) : (a >>> 32 ||| (b &&& hiMask)).toNat = a.toNat / 2 ^ 32 + b.toNat / 2 ^ 32 * 2 ^ 32 := by
  have ha := a.toNat_lt
  rw [or32 (by rw [shr32]; omega) (by rw [hi32]; omega), shr32, hi32]

theorem or3 (a b : UInt64) : ((a &&& loMask) ||| b <<< 32).toNat = a.toNat % 2 ^ 32 + b.toNat % 2 ^ 32 * 2 ^ 32 := by
  rw [or32 (by rw [lo32]; omega) (by rw [shl32]; omega), lo32, shl32]

theorem ival_mmodSum {p : Vli} (hp : p.length = 8) :
    (mmodSum p).1.length = 4 ∧ (∃ K : Int, ival (mmodSum p) + P * K = val p) ∧
      ival (mmodSum p) < 7 * 2 ^ 256 ∧ -(4 * 2 ^ 256) < ival (mmodSum p) := by
  unfold mmodSum
  dsimp only
  have hlt : (p.take 4).length = 4 := by simp [hp]
  obtain ⟨a1, b1⟩ := accPlusTwice_spec (s := (p.take 4, (0 : Int)))
    (t := [0, dig p 5 &&& hiMask, dig p 6, dig p 7]) hlt rfl
  generalize accPlusTwice (p.take 4, (0 : Int)) [0, dig p 5 &&& hiMask, dig p 6, dig p 7] = s1 at *
  obtain ⟨a2, b2⟩ := accPlusTwice_spec (s := s1)
    (t := [0, dig p 6 <<< 32, dig p 6 >>> 32 ||| dig p 7 <<< 32, dig p 7 >>> 32]) b1 rfl
  generalize accPlusTwice s1 _ = s2 at *
  obtain ⟨a3, b3⟩ := accPlus_spec (s := s2) (t := [dig p 4, dig p 5 &&& loMask, 0, dig p 7]) b2 rfl
  generalize accPlus s2 _ = s3 at *
  obtain ⟨a4, b4⟩ := accPlus_spec (s := s3) (t := [dig p 4 >>> 32 ||| dig p 5 <<< 32,
    dig p 5 >>> 32 ||| (dig p 6 &&& hiMask), dig p 7, dig p 6 >>> 32 ||| dig p 4 <<< 32]) b3 rfl
  generalize accPlus s3 _ = s4 at *
  obtain ⟨a5, b5⟩ := accMinus_spec (s := s4) (t := [dig p 5 >>> 32 ||| dig p 6 <<< 32, dig p 6 >>> 32, 0,
    (dig p 4 &&& loMask) ||| dig p 5 <<< 32]) b4 rfl
  generalize accMinus s4 _ = s5 at *
  obtain ⟨a6, b6⟩ := accMinus_spec (s := s5) (t := [dig p 6, dig p 7, 0, dig p 4 >>> 32 ||| (dig p 5 &&& hiMask)]) b5 rfl
  generalize accMinus s5 _ = s6 at *
  obtain ⟨a7, b7⟩ := accMinus_spec (s := s6) (t := [dig p 6 >>> 32 ||| dig p 7 <<< 32,
    dig p 7 >>> 32 ||| dig p 4 <<< 32, dig p 4 >>> 32 ||| dig p 5 <<< 32, dig p 6 <<< 32]) b6 rfl
  generalize accMinus s6 _ = s7 at *
  obtain ⟨a8, b8⟩ := accMinus_spec (s := s7) (t := [dig p 7, dig p 4 &&& hiMask, dig p 5, dig p 6 &&& hiMask]) b7 rfl
  generalize accMinus s7 _ = s8 at *
  refine ⟨b8, ?_⟩
  obtain ⟨p0, p1, p2, p3, p4, p5, p6, p7, rfl⟩ := eight hp
  have h0 := p0.toNat_lt; have h1 := p1.toNat_lt; have h2 := p2.toNat_lt; have h3 := p3.toNat_lt
  have h4 := p4.toNat_lt; have h5 := p5.toNat_lt; have h6 := p6.toNat_lt; have h7 := p7.toNat_lt
  simp only [dig, List.getD_cons_zero, List.getD_cons_succ, val, or1, or2, or3, shr32, shl32, lo32, hi32,
    UInt64.toNat_zero, List.take_succ_cons, List.take_zero] at *
  have t1 : ival ([p0, p1, p2, p3], 0) = (p0.toNat + 2 ^ 64 * (p1.toNat + 2 ^ 64 * (p2.toNat + 2 ^ 64 * p3.toNat)) : Nat) := by
    simp [ival, val]
  rw [t1] at a1
  generalize p0.toNat = x0 at *
  generalize p1.toNat = x1 at *
  generalize p2.toNat = x2 at *
  generalize p3.toNat = x3 at *
  obtain ⟨c8, c9, e4, l8, l9⟩ : ∃ c d, p4.toNat = c + 2 ^ 32 * d ∧ c < 2 ^ 32 ∧ d < 2 ^ 32 :=
    ⟨p4.toNat % 2 ^ 32, p4.toNat / 2 ^ 32, by omega, by omega, by omega⟩
  obtain ⟨c10, c11, e5, l10, l11⟩ : ∃ c d, p5.toNat = c + 2 ^ 32 * d ∧ c < 2 ^ 32 ∧ d < 2 ^ 32 :=
    ⟨p5.toNat % 2 ^ 32, p5.toNat / 2 ^ 32, by omega, by omega, by omega⟩
  obtain ⟨c12, c13, e6, l12, l13⟩ : ∃ c d, p6.toNat = c + 2 ^ 32 * d ∧ c < 2 ^ 32 ∧ d < 2 ^ 32 :=
    ⟨p6.toNat % 2 ^ 32, p6.toNat / 2 ^ 32, by omega, by omega, by omega⟩
  obtain ⟨c14, c15, e7, l14, l15⟩ : ∃ c d, p7.toNat = c + 2 ^ 32 * d ∧ c < 2 ^ 32 ∧ d < 2 ^ 32 :=
    ⟨p7.toNat % 2 ^ 32, p7.toNat / 2 ^ 32, by omega, by omega, by omega⟩
  have m4 : (c8 + 2 ^ 32 * c9) % 2 ^ 32 = c8 ∧ (c8 + 2 ^ 32 * c9) / 2 ^ 32 = c9 := by omega
  have m5 : (c10 + 2 ^ 32 * c11) % 2 ^ 32 = c10 ∧ (c10 + 2 ^ 32 * c11) / 2 ^ 32 = c11 := by omega
  have m6 : (c12 + 2 ^ 32 * c13) % 2 ^ 32 = c12 ∧ (c12 + 2 ^ 32 * c13) / 2 ^ 32 = c13 := by omega
  have m7 : (c14 + 2 ^ 32 * c15) % 2 ^ 32 = c14 ∧ (c14 + 2 ^ 32 * c15) / 2 ^ 32 = c15 := by omega
  simp only [e4, e5, e6, e7, m4.1, m4.2, m5.1, m5.2, m6.1, m6.2, m7.1, m7.2] at a1 a2 a3 a4 a5 a6 a7 a8 ⊢
  clear h4 h5 h6 h7 e4 e5 e6 e7 m4 m5 m6 m7 t1 hp hlt b1 b2 b3 b4 b5 b6 b7 b8
  push_cast at *
  refine ⟨⟨c8 * 1 + c9 * 4294967297 + c10 * 18446744078004518912 + c11 * 79228162532711081667253501951 +
    c12 * 340282367000166625977638945021017194495 + c13 * 1461501637671185285124623296161210883009696235519 +
    c14 * 6277101736848182401166692341332123086285927382448418586623 +
    c15 * 26959946673427741530053695850515137729844644212646842236464328081408, ?_⟩, ?_⟩
  · rw [a8, a7, a6, a5, a4, a3, a2, a1, P_eq]
    push_cast
    ring
  · generalize ival s1 = i1 at *
    generalize ival s2 = i2 at *
    generalize ival s3 = i3 at *
    generalize ival s4 = i4 at *
    generalize ival s5 = i5 at *
    generalize ival s6 = i6 at *
    generalize ival s7 = i7 at *
    generalize ival s8 = i8 at *
    omega

theorem mmodUp_spec (f : Nat) : ∀ (s : Vli × Int), s.1.length = 4 → ival s < 0 → -(f * P : Int) ≤ ival s →
    (mmodUp f s).1.length = 4 ∧ val (mmodUp f s).1 < P ∧ ∃ K : Int, (val (mmodUp f s).1 : Int) = ival s + P * K := by
  induction f with
  | zero => intro s _ h1 h2; omega
  | succ f ih =>
    intro s hl h1 h2
    obtain ⟨a, b⟩ := accPlus_spec hl curveP_length
    rw [val_curveP] at a
    have h4 := val_lt4 b
    have hP := P_eq
    simp only [mmodUp]
    split
    · rename_i hc
      have hneg : ival (accPlus s curveP) < 0 := by simp only [ival]; omega
      obtain ⟨r1, r2, K, r3⟩ := ih _ b hneg (by push_cast at h2; rw [a]; linarith)
      exact ⟨r1, r2, K + 1, by rw [r3, a]; ring⟩
    · rename_i hc
      have e : ival (accPlus s curveP) = val (accPlus s curveP).1 + 2 ^ 256 * (accPlus s curveP).2 := rfl
      exact ⟨b, by omega, 1, by omega⟩

theorem mmodDown_spec (f : Nat) : ∀ (s : Vli × Int), s.1.length = 4 → 0 ≤ ival s → ival s < (f + 1) * P →
    (mmodDown f s).1.length = 4 ∧ val (mmodDown f s).1 < P ∧ ∃ K : Int, (val (mmodDown f s).1 : Int) = ival s + P * K := by
  induction f with
  | zero =>
    intro s hl h1 h2
    have h4 := val_lt4 hl
    have hP := P_eq
    simp only [ival] at h1 h2
    simp only [mmodDown, ival]
    exact ⟨hl, by omega, 0, by omega⟩
  | succ f ih =>
    intro s hl h1 h2
    obtain ⟨a, b⟩ := accMinus_spec hl curveP_length
    rw [val_curveP] at a
    have h4 := val_lt4 hl
    have hP := P_eq
    have e : ival s = val s.1 + 2 ^ 256 * s.2 := rfl
    have hcmp := cmp_one curveP_length hl
    rw [val_curveP] at hcmp
    simp only [mmodDown]
    split
    · rename_i hc
      have hge : ival s ≥ P := by
        rcases hc with hc | hc
        · omega
        · rw [Ne, hcmp] at hc; omega
      obtain ⟨r1, r2, K, r3⟩ := ih _ b (by omega) (by push_cast at h2; rw [a]; linarith)
      exact ⟨r1, r2, K - 1, by rw [r3, a]; ring⟩
    · rename_i hc
      rw [not_or, not_not, not_not, hcmp] at hc
      exact ⟨hl, hc.2, 0, by omega⟩

/-- vli_mmod_fast reduces modulo curve_p. -/
theorem mmodFast_spec {p : Vli} (hp : p.length = 8) : val (mmodFast p) = val p % P ∧ (mmodFast p).length = 4 := by
  obtain ⟨h1, ⟨K, h2⟩, h3, h4⟩ := ival_mmodSum hp
  have hP := P_eq
  have key : ∀ r : Vli, val r < P → (∃ K : Int, (val r : Int) = ival (mmodSum p) + P * K) → val r = val p % P := by
    rintro r hr ⟨J, hJ⟩
    have : (val p : Int) = val r + P * (K - J) := by rw [hJ, ← h2]; ring
    have h : (val p : Int) % P = val r := by
      rw [this, Int.add_mul_emod_self_left]
      exact Int.emod_eq_of_lt (by omega) (by omega)
    omega
  unfold mmodFast
  dsimp only
  split
  · rename_i hc
    have h5 := val_lt4 h1
    obtain ⟨r1, r2, r3⟩ := mmodUp_spec 16 _ h1 (by simp only [ival]; omega) (by rw [hP]; omega)
    exact ⟨key _ r2 r3, r1⟩
  · rename_i hc
    obtain ⟨r1, r2, r3⟩ := mmodDown_spec 16 _ h1 (by simp only [ival]; omega) (by rw [hP]; omega)
    exact ⟨key _ r2 r3, r1⟩

/-- A reduced number. -/
def Red (v : Vli) : Prop := v.length = 4 ∧ val v < P

theorem mulP_spec {l r : Vli} (hl : Red l) (hr : Red r) : Red (mulP l r) ∧ val (mulP l r) = val l * val r % P := by
  obtain ⟨m1, m2⟩ := mult_spec hl.1 hr.1
  obtain ⟨q1, q2⟩ := mmodFast_spec m2
  have hP := P_eq
  exact ⟨⟨q2, by rw [mulP, q1]; exact Nat.mod_lt _ (by omega)⟩, by rw [mulP, q1, m1]⟩

theorem sqrP_spec {l : Vli} (hl : Red l) : Red (sqrP l) ∧ val (sqrP l) = val l * val l % P := by
  obtain ⟨m1, m2⟩ := sqr_spec hl.1
  obtain ⟨q1, q2⟩ := mmodFast_spec m2
  have hP := P_eq
  exact ⟨⟨q2, by rw [sqrP, q1]; exact Nat.mod_lt _ (by omega)⟩, by rw [sqrP, q1, m1]⟩

theorem addP_spec {l r : Vli} (hl : Red l) (hr : Red r) :
    Red (addP l r) ∧ (val (addP l r) = val l + val r ∨ val (addP l r) + P = val l + val r) := by
  obtain ⟨a, b, c⟩ := modAdd_spec hl.1 hr.1 curveP_length (by rw [val_curveP]; exact hr.2)
  rw [val_curveP] at b c
  exact ⟨⟨a, c hl.2⟩, b⟩

theorem subP_spec {l r : Vli} (hl : Red l) (hr : Red r) :
    Red (subP l r) ∧ (val (subP l r) + val r = val l ∨ val (subP l r) + val r = val l + P) := by
  obtain ⟨a, b, c⟩ := modSub_spec hl.1 hr.1 curveP_length (by rw [val_curveP]; exact hl.2) (by rw [val_curveP]; exact hr.2)
  rw [val_curveP] at b c
  exact ⟨⟨a, c⟩, b⟩

end Verif.Lemmas.EccMod

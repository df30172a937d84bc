import Verif.Lemmas.EccInv
/-
vli_num_bits and vli_test_bit, and vli_mod_mult modulo a number of 256 bits.
-/
namespace Verif.Lemmas.EccMulN
open Verif Verif.Model.Ecc Verif.Lemmas.EccVli Verif.Lemmas.EccMod

theorem bitsOf_spec (f : Nat) : ∀ d : UInt64, d.toNat < 2 ^ f →
    d.toNat < 2 ^ bitsOf f d ∧ (d ≠ 0 → 0 < bitsOf f d ∧ 2 ^ (bitsOf f d - 1) ≤ d.toNat) := by
  induction f with
  | zero =>
    intro d hd
    have : d.toNat = 0 := by omega
    have : d = 0 := UInt64.toNat.inj this
    subst this; simp [bitsOf]
  | succ f ih =>
    intro d hd
    have e : (d >>> 1).toNat = d.toNat / 2 := by
      simp [UInt64.toNat_shiftRight, Nat.shiftRight_eq_div_pow]
    simp only [bitsOf]
    split
    · rename_i h; subst h; simp
    · rename_i h
      have h0 : d.toNat ≠ 0 := fun h' => h (UInt64.toNat.inj h')
      obtain ⟨i1, i2⟩ := ih (d >>> 1) (by rw [e]; rw [Nat.pow_succ] at hd; omega)
      refine ⟨?_, fun _ => ⟨by omega, ?_⟩⟩
      · rw [Nat.pow_succ]; omega
      · rw [Nat.add_sub_cancel]
        by_cases hz : d >>> 1 = 0
        · have : bitsOf f (d >>> 1) = 0 := by
            rw [hz]; cases f <;> simp [bitsOf]
          rw [this]; omega
        · obtain ⟨j1, j2⟩ := i2 hz
          have : 2 ^ bitsOf f (d >>> 1) = 2 * 2 ^ (bitsOf f (d >>> 1) - 1) := by
            rw [← Nat.pow_succ']; congr 1; omega
          omega

theorem numBits_spec {v : Vli} (hv : 4 ≤ v.length) : val (v.take 4) < 2 ^ numBits v ∧ numBits v ≤ 256 ∧
    (numBits v ≠ 0 → 2 ^ (numBits v - 1) ≤ val (v.take 4)) := by
  obtain ⟨a0, a1, a2, a3, v', rfl⟩ : ∃ a b c d m, v = a :: b :: c :: d :: m := by
    match v, hv with
    | a :: b :: c :: d :: m, _ => exact ⟨a, b, c, d, m, rfl⟩
  have h0 := a0.toNat_lt; have h1 := a1.toNat_lt; have h2 := a2.toNat_lt; have h3 := a3.toNat_lt
  have z : ∀ {a : UInt64}, a = 0 → a.toNat = 0 := fun h => by rw [h]; rfl
  have key : ∀ (d : UInt64) (k lo : Nat), d ≠ 0 → lo < 2 ^ (k * 64) →
      lo + 2 ^ (k * 64) * d.toNat < 2 ^ (k * 64 + bitsOf 64 d) ∧ bitsOf 64 d ≤ 64 ∧
        2 ^ (k * 64 + bitsOf 64 d - 1) ≤ lo + 2 ^ (k * 64) * d.toNat := by
    intro d k lo hd hlo
    obtain ⟨b1, b2⟩ := bitsOf_spec 64 d d.toNat_lt
    obtain ⟨b2, b3⟩ := b2 hd
    have hd64 := d.toNat_lt
    refine ⟨?_, ?_, ?_⟩
    · rw [Nat.pow_add]
      calc lo + 2 ^ (k * 64) * d.toNat < 2 ^ (k * 64) + 2 ^ (k * 64) * d.toNat := by omega
        _ = 2 ^ (k * 64) * (d.toNat + 1) := by ring
        _ ≤ _ := Nat.mul_le_mul_left _ b1
    · by_contra hcon
      have : 2 ^ 64 ≤ 2 ^ (bitsOf 64 d - 1) := Nat.pow_le_pow_right (by omega) (by omega)
      omega
    · have e : k * 64 + bitsOf 64 d - 1 = k * 64 + (bitsOf 64 d - 1) := by omega
      rw [e, Nat.pow_add]
      exact Nat.le_trans (Nat.mul_le_mul_left _ b3) (by omega)
  unfold numBits
  simp only [numDigits, dig, List.getD_cons_zero, List.getD_cons_succ, List.take_succ_cons, List.take_zero, val]
  by_cases c3 : a3 = 0
  · by_cases c2 : a2 = 0
    · by_cases c1 : a1 = 0
      · by_cases c0 : a0 = 0
        · simp [c0, c1, c2, c3]
        · have := key a0 0 0 c0 (by omega)
          simp only [c0, c1, c2, c3, if_true, if_false, UInt64.toNat_zero]
          simp at this ⊢
          omega
      · have := key a1 1 a0.toNat c1 (by omega)
        simp only [c1, c2, c3, if_true, if_false, UInt64.toNat_zero]
        simp at this ⊢
        omega
    · have := key a2 2 (a0.toNat + 2 ^ 64 * a1.toNat) c2 (by omega)
      simp only [c2, c3, if_true, if_false, UInt64.toNat_zero]
      simp at this ⊢
      omega
  · have := key a3 3 (a0.toNat + 2 ^ 64 * (a1.toNat + 2 ^ 64 * a2.toNat)) c3 (by omega)
    simp only [c3, if_false]
    simp at this ⊢
    omega

/-- vli_num_bits gives the bits. -/
theorem numBits_eq {v : Vli} (hv : v.length = 4) (h : 2 ^ 255 ≤ val v) : numBits v = 256 := by
  obtain ⟨h1, h2, h3⟩ := numBits_spec (v := v) (by omega)
  rw [List.take_of_length_le (by omega)] at h1
  by_contra hc
  have : 2 ^ numBits v ≤ 2 ^ 255 := Nat.pow_le_pow_right (by omega) (by omega)
  omega

theorem val_split8 {v : Vli} (hv : v.length = 8) : val v = val (v.take 4) + 2 ^ 256 * val (v.drop 4) := by
  conv => lhs; rw [← List.take_append_drop 4 v]
  rw [val_append, List.length_take, hv, show 64 * min 4 8 = 256 from rfl]

theorem productBits_spec {v : Vli} (hv : v.length = 8) : val v < 2 ^ productBits v ∧ productBits v ≤ 512 := by
  have e := val_split8 hv
  have hd : (v.drop 4).length = 4 := by rw [List.length_drop, hv]
  have ht : (v.take 4).length = 4 := by rw [List.length_take, hv]; rfl
  obtain ⟨h1, h2, h3⟩ := numBits_spec (v := v.drop 4) (by omega)
  obtain ⟨l1, l2, l3⟩ := numBits_spec (v := v) (by omega)
  rw [List.take_of_length_le (by omega)] at h1 h3
  have t4 := val_lt4 ht
  unfold productBits
  dsimp only
  split
  · refine ⟨?_, by omega⟩
    rw [Nat.pow_add, Nat.mul_comm, e]
    have : 2 ^ 256 * (val (v.drop 4) + 1) ≤ 2 ^ 256 * 2 ^ numBits (v.drop 4) := Nat.mul_le_mul_left _ h1
    omega
  · rename_i hc
    have hc : numBits (v.drop 4) = 0 := by simpa using hc
    rw [hc] at h1
    refine ⟨?_, by omega⟩
    rw [e]; omega

theorem val_zeros (k : Nat) (v : Vli) : val (List.replicate k 0 ++ v) = 2 ^ (64 * k) * val v := by
  rw [val_append, List.length_replicate]
  have : val (List.replicate k 0) = 0 := by
    induction k with
    | zero => rfl
    | succ k ih => simp [List.replicate_succ, val, ih]
  omega

theorem val_pad {v : Vli} (h : v.length ≤ 8) : val ((v ++ List.replicate 8 0).take 8) = val v ∧
    ((v ++ List.replicate 8 0).take 8).length = 8 := by
  have e : (v ++ List.replicate 8 0).take 8 = v ++ List.replicate (8 - v.length) 0 := by
    rw [List.take_append, List.take_of_length_le h, List.take_replicate]
    congr 2; omega
  have z := val_zeros (8 - v.length) []
  rw [List.append_nil] at z
  rw [e, val_append, z]
  refine ⟨by simp [val], ?_⟩
  simp; omega

theorem modMultiple_spec {m : Vli} {s : Nat} (hm : m.length = 4) (hs : s ≤ 256) :
    val (modMultiple m s) = val m * 2 ^ s ∧ (modMultiple m s).length = 8 := by
  unfold modMultiple
  dsimp only
  have es : 64 * (s / 64) + s % 64 = s := Nat.div_add_mod s 64
  split
  · rename_i h
    have e : (UInt64.ofNat (s % 64)).toNat = s % 64 := by
      rw [UInt64.toNat_ofNat']; omega
    obtain ⟨l1, l2, l3⟩ := lshift_spec (UInt64.ofNat (s % 64)) (by omega) (by omega) m 0 (by simp)
    have hlen : (List.replicate (s / 64) 0 ++ ((lshift (UInt64.ofNat (s % 64)) m 0).1 ++
        [(lshift (UInt64.ofNat (s % 64)) m 0).2])).length ≤ 8 := by
      simp [l3, hm]; omega
    obtain ⟨p1, p2⟩ := val_pad hlen
    refine ⟨?_, p2⟩
    rw [p1, val_zeros, val_append]
    rw [l3] at *
    simp only [val]
    have : val (lshift (UInt64.ofNat (s % 64)) m 0).1 + 2 ^ (64 * m.length) *
        ((lshift (UInt64.ofNat (s % 64)) m 0).2.toNat + 2 ^ 64 * 0) = 2 ^ (s % 64) * val m := by
      rw [Nat.mul_zero, Nat.add_zero, l1, e]; simp
    rw [this, ← Nat.mul_assoc, ← Nat.pow_add, es, Nat.mul_comm]
  · rename_i h
    have h0 : s % 64 = 0 := by simpa using h
    have hlen : (List.replicate (s / 64) 0 ++ m).length ≤ 8 := by simp [hm]; omega
    obtain ⟨p1, p2⟩ := val_pad hlen
    refine ⟨?_, p2⟩
    rw [p1, val_zeros]
    have : 64 * (s / 64) = s := by omega
    rw [this, Nat.mul_comm]

theorem subWide_spec {p q : Vli} (hp : p.length = 8) (hq : q.length = 8) (h : val q ≤ val p) :
    val (subWide p q) = val p - val q ∧ (subWide p q).length = 8 := by
  have ep := val_split8 hp; have eq := val_split8 hq
  have lp : (p.take 4).length = 4 := by rw [List.length_take, hp]; rfl
  have lq : (q.take 4).length = 4 := by rw [List.length_take, hq]; rfl
  have lp' : (p.drop 4).length = 4 := by rw [List.length_drop, hp]
  have lq' : (q.drop 4).length = 4 := by rw [List.length_drop, hq]
  have := val_lt4 lp; have := val_lt4 lq
  obtain ⟨s1, s2⟩ := sub_spec lp lq
  have sl := sub_length lp lq
  have := val_lt4 sl
  unfold subWide
  dsimp only
  split
  · rename_i hc
    have hc : (sub (p.take 4) (q.take 4)).2.toNat ≠ 0 := fun h => hc (UInt64.toNat.inj h)
    have e1 : val [1, 0, 0, 0] = 1 := by decide
    have hb := sub_le lp' (r := [1, 0, 0, 0]) rfl (by omega)
    have hbl := sub_length lp' (r := [1, 0, 0, 0]) rfl
    have hb2 := sub_le hbl lq' (by omega)
    have hbl2 := sub_length hbl lq'
    rw [val_append, sl, hb2, hb, e1]
    refine ⟨by omega, ?_⟩
    rw [List.length_append, sl, hbl2]
  · rename_i hc
    have hc : (sub (p.take 4) (q.take 4)).2 = 0 := by simpa using hc
    rw [hc, UInt64.toNat_zero] at s1
    have hb2 := sub_le lp' lq' (by omega)
    have hbl2 := sub_length lp' lq'
    rw [val_append, sl, hb2]
    refine ⟨by omega, ?_⟩
    rw [List.length_append, sl, hbl2]

theorem shiftWide_spec {q : Vli} (hq : q.length = 8) : val (shiftWide q) = val q / 2 ∧ (shiftWide q).length = 8 := by
  have eq := val_split8 hq
  have lq : (q.take 4).length = 4 := by rw [List.length_take, hq]; rfl
  have lq' : (q.drop 4).length = 4 := by rw [List.length_drop, hq]
  have := val_lt4 lq
  obtain ⟨r1, r2⟩ := rshift1_spec (q.take 4)
  obtain ⟨t1, t2⟩ := rshift1_spec (q.drop 4)
  have hbit : ((dig q 4 &&& 1) <<< 63).toNat = 2 ^ 63 * (val (q.drop 4) % 2) := by
    rw [dig_lt_val]
    have : dig (q.drop 4) 0 = dig q 4 := by simp [dig]
    rw [this]
    have h1 := (dig q 4).toNat_lt
    rw [UInt64.toNat_shiftLeft, UInt64.toNat_and]
    simp only [UInt64.toNat_one, Nat.and_one_is_mod]
    rw [show (63 : UInt64).toNat % 64 = 63 from rfl, Nat.shiftLeft_eq]; omega
  obtain ⟨o1, o2⟩ := orTop_spec (v := rshift1 (q.take 4)) (by rw [r2, lq]) (by omega) ((dig q 4 &&& 1) <<< 63) (by
    rw [hbit]; omega)
  unfold shiftWide
  rw [val_append, o1, o2, r1, t1, hbit]
  refine ⟨by omega, ?_⟩
  rw [List.length_append, o2, t2, lq']

theorem wide_le {p q : Vli} (hp : p.length = 8) (hq : q.length = 8) :
    (vcmp (q.drop 4) (p.drop 4) < 0 ∨ (vcmp (q.drop 4) (p.drop 4) = 0 ∧ vcmp q p ≤ 0)) ↔ val q ≤ val p := by
  have ep := val_split8 hp; have eq := val_split8 hq
  have lp : (p.take 4).length = 4 := by rw [List.length_take, hp]; rfl
  have lq : (q.take 4).length = 4 := by rw [List.length_take, hq]; rfl
  have lp' : (p.drop 4).length = 4 := by rw [List.length_drop, hp]
  have lq' : (q.drop 4).length = 4 := by rw [List.length_drop, hq]
  have := val_lt4 lp; have := val_lt4 lq
  have e : vcmp q p ≤ 0 ↔ val (q.take 4) ≤ val (p.take 4) := by
    rw [cmp_spec (by omega) (by omega)]
    split
    · simp; omega
    · split
      · simp; omega
      · simp; omega
  rw [cmp_lt lq' lp', cmp_zero lq' lp', e]
  omega

theorem modMultLoop_spec {m : Vli} (hm : m.length = 4) (hm' : 2 ^ 255 ≤ val m) (j : Nat) :
    ∀ (f : Nat) (mm p : Vli), mm.length = 8 → p.length = 8 → j + 1 ≤ f → val mm = val m * 2 ^ j → val p < 2 * val mm →
      val ((modMultLoop m f (256 + j) mm p).take 4) = val p % val m := by
  have hm4 := val_lt4 hm
  induction j with
  | zero =>
    intro f mm p h1 h2 hf h3 h4
    obtain ⟨f, rfl⟩ : ∃ g, f = g + 1 := ⟨f - 1, by omega⟩
    rw [Nat.pow_zero, Nat.mul_one] at h3
    have e1 := val_split8 h1
    have l1 : (mm.take 4).length = 4 := by rw [List.length_take, h1]; rfl
    have := val_lt4 l1
    have hge : vcmp mm m ≥ 0 := by
      rw [cmp_spec (by omega) (by omega), List.take_of_length_le (l := m) (by omega)]
      have : val (mm.take 4) = val m := by omega
      rw [this]; simp
    simp only [modMultLoop, wide_le h2 h1]
    rw [if_pos (.inr hge)]
    obtain ⟨w1, w2⟩ := shiftWide_spec h1
    -- the second round ends it
    have hend : ∀ q : Vli, modMultLoop m f 255 (shiftWide mm) q = q := by
      intro q
      cases f with
      | zero => rfl
      | succ f =>
        simp only [modMultLoop]
        rw [if_neg]
        rintro (h | h)
        · omega
        · rw [cmp_spec (by omega) (by omega), List.take_of_length_le (l := m) (by omega)] at h
          have e2 := val_split8 w2
          have : val ((shiftWide mm).take 4) < val m := by omega
          rw [if_neg (by omega), if_pos this] at h
          omega
    rw [show 256 + 0 - 1 = 255 from rfl, hend]
    have fin : ∀ q : Vli, q.length = 8 → val q < val m → val (q.take 4) = val q := by
      intro q hq hlt
      have := val_split8 hq; omega
    split
    · rename_i hc
      obtain ⟨s1, s2⟩ := subWide_spec h2 h1 hc
      rw [fin _ s2 (by omega), s1, h3, Nat.mod_eq_sub_mod (by omega), Nat.mod_eq_of_lt (by omega)]
    · rename_i hc
      rw [fin _ h2 (by omega), Nat.mod_eq_of_lt (by omega)]
  | succ j ih =>
    intro f mm p h1 h2 hf h3 h4
    obtain ⟨f, rfl⟩ : ∃ g, f = g + 1 := ⟨f - 1, by omega⟩
    obtain ⟨w1, w2⟩ := shiftWide_spec h1
    have e2 : val mm = 2 * (val m * 2 ^ j) := by rw [h3, Nat.pow_succ]; ring
    have hw : val (shiftWide mm) = val m * 2 ^ j := by omega
    simp only [modMultLoop, wide_le h2 h1]
    rw [if_pos (.inl (by omega)), show 256 + (j + 1) - 1 = 256 + j by omega]
    split
    · rename_i hc
      obtain ⟨s1, s2⟩ := subWide_spec h2 h1 hc
      rw [ih f _ _ w2 s2 (by omega) hw (by omega), s1, h3]
      have : val p = val p - val m * 2 ^ (j + 1) + val m * 2 ^ (j + 1) := by omega
      conv => rhs; rw [this]
      rw [Nat.add_mul_mod_self_left]
    · rename_i hc
      exact ih f _ _ w2 h2 (by omega) hw (by omega)

theorem modMultLoop_length {m : Vli} (f : Nat) : ∀ (b : Nat) (mm p : Vli), mm.length = 8 → p.length = 8 →
    (modMultLoop m f b mm p).length = 8 := by
  induction f with
  | zero => intro b mm p _ h; exact h
  | succ f ih =>
    intro b mm p h1 h2
    simp only [modMultLoop, wide_le h2 h1]
    split
    · split
      · rename_i hc; exact ih _ _ _ (shiftWide_spec h1).2 (subWide_spec h2 h1 hc).2
      · exact ih _ _ _ (shiftWide_spec h1).2 h2
    · exact h2

/-- vli_mod_mult multiplies modulo a number of 256 bits. -/
theorem modMult_spec {l r m : Vli} (hl : l.length = 4) (hr : r.length = 4) (hm : m.length = 4) (hm' : 2 ^ 255 ≤ val m) :
    (modMult l r m).length = 4 ∧ val (modMult l r m) = val l * val r % val m := by
  obtain ⟨p1, p2⟩ := EccMul.mult_spec hl hr
  obtain ⟨b1, b2⟩ := productBits_spec p2
  have hm4 := val_lt4 hm
  unfold modMult
  dsimp only
  rw [numBits_eq hm hm', ← p1]
  generalize mult l r = p at *
  split
  · rename_i hc
    refine ⟨by rw [List.length_take, p2]; rfl, ?_⟩
    have : val p < 2 ^ 255 := Nat.lt_of_lt_of_le b1 (Nat.pow_le_pow_right (by omega) (by omega))
    have e := val_split8 p2
    rw [Nat.mod_eq_of_lt (by omega)]; omega
  · rename_i hc
    obtain ⟨s1, s2⟩ := modMultiple_spec (s := productBits p - 256) hm (by omega)
    have e : productBits p = 256 + (productBits p - 256) := by omega
    refine ⟨by rw [List.length_take, modMultLoop_length _ _ _ _ s2 p2]; rfl, ?_⟩
    conv => lhs; rw [e]
    rw [Nat.add_sub_cancel_left]
    refine modMultLoop_spec hm hm' _ _ _ _ s2 p2 (by omega) s1 ?_
    rw [s1]
    have : 2 * (2 ^ 255 * 2 ^ (productBits p - 256)) ≤ 2 * (val m * 2 ^ (productBits p - 256)) :=
      Nat.mul_le_mul_left _ (Nat.mul_le_mul_right _ hm')
    have e3 : 2 * (2 ^ 255 * 2 ^ (productBits p - 256)) = 2 ^ productBits p := by
      rw [← Nat.pow_add, ← Nat.pow_succ']; congr 1; omega
    omega

theorem dig_val (q : Nat) : ∀ v : Vli, val v / 2 ^ (64 * q) % 2 ^ 64 = (dig v q).toNat := by
  induction q with
  | zero =>
    intro v
    cases v with
    | nil => rfl
    | cons d r =>
      have := d.toNat_lt
      simp only [val, dig, List.getD_cons_zero]; omega
  | succ q ih =>
    intro v
    cases v with
    | nil => simp [val, dig]
    | cons d r =>
      have := d.toNat_lt
      have e : 2 ^ (64 * (q + 1)) = 2 ^ 64 * 2 ^ (64 * q) := by rw [← Nat.pow_add]; ring_nf
      have e2 : (d.toNat + 2 ^ 64 * val r) / 2 ^ 64 = val r := by omega
      simp only [val, dig, List.getD_cons_succ]
      rw [e, ← Nat.div_div_eq_div_mul, e2]
      exact ih r

/-- vli_test_bit tests the bit. -/
theorem testBit_spec (v : Vli) (i : Nat) : testBit v i ≠ 0 ↔ val v / 2 ^ i % 2 = 1 := by
  have e : i = 64 * (i / 64) + i % 64 := (Nat.div_add_mod i 64).symm
  have hd := dig_val (i / 64) v
  have h1 : val v / 2 ^ i % 2 = (dig v (i / 64)).toNat / 2 ^ (i % 64) % 2 := by
    conv => lhs; rw [e]
    rw [Nat.pow_add, ← Nat.div_div_eq_div_mul, ← hd]
    generalize val v / 2 ^ (64 * (i / 64)) = x
    have hr : i % 64 < 64 := Nat.mod_lt _ (by omega)
    generalize i % 64 = r at *
    have e64 : 2 ^ 64 = 2 ^ r * (2 ^ (63 - r) * 2) := by
      rw [← Nat.pow_succ, ← Nat.pow_add]; congr 1; omega
    rw [e64, Nat.mod_mul_right_div_self, Nat.mod_mod_of_dvd _ ⟨2 ^ (63 - r), by ring⟩]
  rw [h1]
  have h2 : testBit v i ≠ 0 ↔ (dig v (i / 64)).toNat.testBit (i % 64) = true := by
    unfold testBit
    have hr : i % 64 < 64 := Nat.mod_lt _ (by omega)
    have es : (1 <<< UInt64.ofNat (i % 64) : UInt64).toNat = 2 ^ (i % 64) := by
      rw [UInt64.toNat_shiftLeft, UInt64.toNat_ofNat', Nat.mod_eq_of_lt (by omega : i % 64 < 2 ^ 64),
        Nat.mod_eq_of_lt hr, Nat.shiftLeft_eq, UInt64.toNat_one, Nat.one_mul,
        Nat.mod_eq_of_lt (Nat.pow_lt_pow_right (by omega) hr)]
    rw [Ne, ← UInt64.toNat_inj, UInt64.toNat_and, es, UInt64.toNat_zero]
    generalize (dig v (i / 64)).toNat = x
    generalize i % 64 = k
    constructor
    · intro h
      by_contra hc
      refine h (Nat.eq_of_testBit_eq fun j => ?_)
      rw [Nat.testBit_and, Nat.testBit_two_pow, Nat.zero_testBit]
      by_cases hj : k = j
      · subst hj; simpa using hc
      · simp [hj]
    · intro h hc
      have := congrArg (Nat.testBit · k) hc
      simp [Nat.testBit_and, Nat.testBit_two_pow, h] at this
  rw [h2, Nat.testBit_eq_decide_div_mod_eq]
  simp

end Verif.Lemmas.EccMulN

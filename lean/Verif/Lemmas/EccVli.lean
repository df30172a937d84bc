import Verif.Model.Ecc
import Mathlib.Tactic.Ring
import Mathlib.Tactic.Linarith
/-
The arithmetic of src/ecc.c on digits is arithmetic on numbers.
-/
namespace Verif.Lemmas.EccVli
open Verif Verif.Model.Ecc

/-- The number a list of digits stands for. -/
def val : Vli → Nat
  | [] => 0
  | d :: r => d.toNat + 2 ^ 64 * val r

theorem val_lt (v : Vli) : val v < 2 ^ (64 * v.length) := by
  induction v with
  | nil => simp [val]
  | cons d r ih =>
    have hd := d.toNat_lt
    have e : 2 ^ (64 * (r.length + 1)) = 2 ^ 64 * 2 ^ (64 * r.length) := by rw [← Nat.pow_add]; ring_nf
    simp only [val, List.length_cons, e]
    generalize 2 ^ (64 * r.length) = X at *
    omega

theorem val_inj : ∀ {a b : Vli}, a.length = b.length → val a = val b → a = b
  | [], [], _, _ => rfl
  | x :: a, y :: b, hl, h => by
    simp only [val] at h
    have hx := x.toNat_lt; have hy := y.toNat_lt
    have h1 : x.toNat = y.toNat := by omega
    have h2 : val a = val b := by omega
    rw [UInt64.toNat.inj h1, val_inj (by simpa using hl) h2]

theorem val_append (a b : Vli) : val (a ++ b) = val a + 2 ^ (64 * a.length) * val b := by
  induction a with
  | nil => simp [val]
  | cons d r ih =>
    have e : 2 ^ (64 * (r.length + 1)) = 2 ^ 64 * 2 ^ (64 * r.length) := by rw [← Nat.pow_add]; ring_nf
    simp only [List.cons_append, val, ih, List.length_cons, e]
    ring

theorem four {v : Vli} (h : v.length = 4) : ∃ a b c d, v = [a, b, c, d] := by
  match v, h with
  | [a, b, c, d], _ => exact ⟨a, b, c, d, rfl⟩

theorem eight {v : Vli} (h : v.length = 8) : ∃ a b c d e f g k, v = [a, b, c, d, e, f, g, k] := by
  match v, h with
  | [a, b, c, d, e, f, g, k], _ => exact ⟨a, b, c, d, e, f, g, k, rfl⟩

theorem val_lt4 {v : Vli} (h : v.length = 4) : val v < 2 ^ 256 := by
  have := val_lt v; rw [h] at this; exact this

theorem val_lt8 {v : Vli} (h : v.length = 8) : val v < 2 ^ 512 := by
  have := val_lt v; rw [h] at this; exact this

theorem isZero_iff (v : Vli) : isZero v = true ↔ val v = 0 := by
  induction v with
  | nil => simp [isZero, val]
  | cons d r ih =>
    simp only [isZero, List.all_cons, Bool.and_eq_true, beq_iff_eq] at *
    simp only [val]
    constructor
    · rintro ⟨rfl, h⟩; have := ih.1 h; simp [this]
    · intro h
      have h1 : d.toNat = 0 := by omega
      exact ⟨UInt64.toNat.inj h1, ih.2 (by omega)⟩

theorem addGo_length : ∀ (l r : Vli) (c : UInt64), l.length = r.length → (addGo l r c).1.length = l.length
  | [], [], _, _ => rfl
  | _ :: l, _ :: r, _, h => by
    simp only [addGo, List.length_cons]
    rw [addGo_length l r _ (by simpa using h)]

theorem addGo_spec : ∀ (l r : Vli) (c : UInt64), l.length = r.length → c.toNat ≤ 1 →
    val (addGo l r c).1 + 2 ^ (64 * l.length) * (addGo l r c).2.toNat = val l + val r + c.toNat ∧
      (addGo l r c).2.toNat ≤ 1
  | [], [], c, _, hc => by simp [addGo, val, hc]
  | x :: l, y :: r, c, h, hc => by
    have hx := x.toNat_lt; have hy := y.toNat_lt
    simp only [addGo]
    generalize hc' : (if x + y + c ≠ x then (if x + y + c < x then (1 : UInt64) else 0) else c) = c'
    have key : (x + y + c).toNat + 2 ^ 64 * c'.toNat = x.toNat + y.toNat + c.toNat ∧ c'.toNat ≤ 1 := by
      have e : (x + y + c).toNat = (x.toNat + y.toNat + c.toNat) % 2 ^ 64 := by
        simp [UInt64.toNat_add]
      subst hc'
      split
      · rename_i hne
        have hne : (x + y + c).toNat ≠ x.toNat := fun h => hne (UInt64.toNat.inj h)
        split
        · rename_i hlt
          rw [UInt64.lt_iff_toNat_lt] at hlt
          simp only [UInt64.toNat_one]; omega
        · rename_i hlt
          rw [UInt64.lt_iff_toNat_lt] at hlt
          simp only [UInt64.toNat_zero]; omega
      · rename_i hne
        have hne : (x + y + c).toNat = x.toNat := by
          by_cases hh : x + y + c = x
          · rw [hh]
          · exact absurd hh hne
        omega
    obtain ⟨k1, k2⟩ := key
    obtain ⟨i1, i2⟩ := addGo_spec l r c' (by simpa using h) k2
    refine ⟨?_, i2⟩
    have e : 2 ^ (64 * (l.length + 1)) = 2 ^ 64 * 2 ^ (64 * l.length) := by rw [← Nat.pow_add]; ring_nf
    simp only [val, List.length_cons, e]
    rw [Nat.mul_assoc]
    generalize hZ : 2 ^ (64 * l.length) * (addGo l r c').2.toNat = Z at *
    omega

theorem subGo_length : ∀ (l r : Vli) (c : UInt64), l.length = r.length → (subGo l r c).1.length = l.length
  | [], [], _, _ => rfl
  | _ :: l, _ :: r, _, h => by
    simp only [subGo, List.length_cons]
    rw [subGo_length l r _ (by simpa using h)]

theorem subGo_spec : ∀ (l r : Vli) (c : UInt64), l.length = r.length → c.toNat ≤ 1 →
    val (subGo l r c).1 + val r + c.toNat = val l + 2 ^ (64 * l.length) * (subGo l r c).2.toNat ∧
      (subGo l r c).2.toNat ≤ 1
  | [], [], c, _, hc => by simp [subGo, val, hc]
  | x :: l, y :: r, c, h, hc => by
    have hx := x.toNat_lt; have hy := y.toNat_lt
    simp only [subGo]
    generalize hc' : (if x - y - c ≠ x then (if x - y - c > x then (1 : UInt64) else 0) else c) = c'
    have key : (x - y - c).toNat + y.toNat + c.toNat = x.toNat + 2 ^ 64 * c'.toNat ∧ c'.toNat ≤ 1 := by
      have e : (x - y - c).toNat = (2 ^ 64 + 2 ^ 64 + x.toNat - y.toNat - c.toNat) % 2 ^ 64 := by
        simp only [UInt64.toNat_sub]; omega
      subst hc'
      split
      · rename_i hne
        have hne : (x - y - c).toNat ≠ x.toNat := fun h => hne (UInt64.toNat.inj h)
        split
        · rename_i hlt
          rw [gt_iff_lt, UInt64.lt_iff_toNat_lt] at hlt
          simp only [UInt64.toNat_one]; omega
        · rename_i hlt
          rw [gt_iff_lt, UInt64.lt_iff_toNat_lt] at hlt
          simp only [UInt64.toNat_zero]; omega
      · rename_i hne
        have hne : (x - y - c).toNat = x.toNat := by
          by_cases hh : x - y - c = x
          · rw [hh]
          · exact absurd hh hne
        omega
    obtain ⟨k1, k2⟩ := key
    obtain ⟨i1, i2⟩ := subGo_spec l r c' (by simpa using h) k2
    refine ⟨?_, i2⟩
    have e : 2 ^ (64 * (l.length + 1)) = 2 ^ 64 * 2 ^ (64 * l.length) := by rw [← Nat.pow_add]; ring_nf
    simp only [val, List.length_cons, e]
    rw [Nat.mul_assoc]
    generalize hZ : 2 ^ (64 * l.length) * (subGo l r c').2.toNat = Z at *
    omega

theorem add_length {l r : Vli} (hl : l.length = 4) (hr : r.length = 4) : (add l r).1.length = 4 := by
  rw [add, addGo_length _ _ _ (by omega), hl]

theorem add_spec {l r : Vli} (hl : l.length = 4) (hr : r.length = 4) :
    val (add l r).1 + 2 ^ 256 * (add l r).2.toNat = val l + val r ∧ (add l r).2.toNat ≤ 1 := by
  have := addGo_spec l r 0 (by omega) (by simp)
  simpa [hl, add] using this

theorem sub_length {l r : Vli} (hl : l.length = 4) (hr : r.length = 4) : (sub l r).1.length = 4 := by
  rw [sub, subGo_length _ _ _ (by omega), hl]

theorem sub_spec {l r : Vli} (hl : l.length = 4) (hr : r.length = 4) :
    val (sub l r).1 + val r = val l + 2 ^ 256 * (sub l r).2.toNat ∧ (sub l r).2.toNat ≤ 1 := by
  have := subGo_spec l r 0 (by omega) (by simp)
  simpa [hl, sub] using this

theorem sub_le {l r : Vli} (hl : l.length = 4) (hr : r.length = 4) (h : val r ≤ val l) :
    val (sub l r).1 = val l - val r := by
  have := sub_spec hl hr
  have h1 := val_lt4 (sub_length hl hr)
  omega

/-- vli_cmp compares the numbers. -/
theorem cmp_spec {l r : Vli} (hl : 4 ≤ l.length) (hr : 4 ≤ r.length) :
    vcmp l r = if val (l.take 4) > val (r.take 4) then 1 else if val (l.take 4) < val (r.take 4) then -1 else 0 := by
  obtain ⟨a0, a1, a2, a3, l', rfl⟩ : ∃ a b c d m, l = a :: b :: c :: d :: m := by
    match l, hl with
    | a :: b :: c :: d :: m, _ => exact ⟨a, b, c, d, m, rfl⟩
  obtain ⟨b0, b1, b2, b3, r', rfl⟩ : ∃ a b c d m, r = a :: b :: c :: d :: m := by
    match r, hr with
    | a :: b :: c :: d :: m, _ => exact ⟨a, b, c, d, m, rfl⟩
  have h1 := a0.toNat_lt; have h2 := a1.toNat_lt; have h3 := a2.toNat_lt; have h4 := a3.toNat_lt
  have k1 := b0.toNat_lt; have k2 := b1.toNat_lt; have k3 := b2.toNat_lt; have k4 := b3.toNat_lt
  simp only [vcmp, vcmpFrom, dig, List.getD_cons_zero, List.getD_cons_succ, List.take_succ_cons, List.take_zero, val,
    gt_iff_lt, UInt64.lt_iff_toNat_lt]
  repeat' split
  all_goals first | rfl | omega

theorem cmp_lt {l r : Vli} (hl : l.length = 4) (hr : r.length = 4) : vcmp l r < 0 ↔ val l < val r := by
  have := cmp_spec (l := l) (r := r) (by omega) (by omega)
  rw [List.take_of_length_le (by omega), List.take_of_length_le (by omega)] at this
  rw [this]; split
  · simp; omega
  · split
    · simp; omega
    · simp; omega

theorem cmp_gt {l r : Vli} (hl : l.length = 4) (hr : r.length = 4) : vcmp l r > 0 ↔ val l > val r := by
  have := cmp_spec (l := l) (r := r) (by omega) (by omega)
  rw [List.take_of_length_le (by omega), List.take_of_length_le (by omega)] at this
  rw [this]; split
  · simp; omega
  · split
    · simp; omega
    · simp; omega

theorem cmp_one {l r : Vli} (hl : l.length = 4) (hr : r.length = 4) : vcmp l r = 1 ↔ val l > val r := by
  have := cmp_spec (l := l) (r := r) (by omega) (by omega)
  rw [List.take_of_length_le (by omega), List.take_of_length_le (by omega)] at this
  rw [this]; split
  · simp; omega
  · split
    · simp; omega
    · simp; omega

theorem cmp_zero {l r : Vli} (hl : l.length = 4) (hr : r.length = 4) : vcmp l r = 0 ↔ val l = val r := by
  have := cmp_spec (l := l) (r := r) (by omega) (by omega)
  rw [List.take_of_length_le (by omega), List.take_of_length_le (by omega)] at this
  rw [this]; split
  · simp; omega
  · split
    · simp; omega
    · simp; omega

theorem cmp_ge {l r : Vli} (hl : l.length = 4) (hr : r.length = 4) : vcmp l r ≥ 0 ↔ val l ≥ val r := by
  have := cmp_lt hl hr; omega

theorem or_add {a b k : Nat} (ha : a % 2 ^ k = 0) (hb : b < 2 ^ k) : a ||| b = a + b := by
  have : a = 2 ^ k * (a / 2 ^ k) := (Nat.mul_div_cancel' (Nat.dvd_of_mod_eq_zero ha)).symm
  rw [this, ← Nat.two_pow_add_eq_or_of_lt hb]

/-- vli_lshift. -/
theorem lshift_spec (s : UInt64) (h0 : 0 < s.toNat) (h64 : s.toNat < 64) : ∀ (v : Vli) (c : UInt64),
    c.toNat < 2 ^ s.toNat →
    val (lshift s v c).1 + 2 ^ (64 * v.length) * (lshift s v c).2.toNat = 2 ^ s.toNat * val v + c.toNat ∧
      (lshift s v c).2.toNat < 2 ^ s.toNat ∧ (lshift s v c).1.length = v.length
  | [], c, hc => by simp [lshift, val, hc]
  | t :: v, c, hc => by
    have ht := t.toNat_lt
    have hs : (64 - s).toNat = 64 - s.toNat := by
      rw [UInt64.toNat_sub_of_le]
      · rfl
      · rw [UInt64.le_iff_toNat_le]; simp; omega
    have e1 : (t >>> (64 - s)).toNat = t.toNat / 2 ^ (64 - s.toNat) := by
      rw [UInt64.toNat_shiftRight, hs, Nat.mod_eq_of_lt (by omega), Nat.shiftRight_eq_div_pow]
    have e2 : (t <<< s).toNat = t.toNat * 2 ^ s.toNat % 2 ^ 64 := by
      rw [UInt64.toNat_shiftLeft, Nat.mod_eq_of_lt h64, Nat.shiftLeft_eq]
    have hpp : 2 ^ (64 - s.toNat) * 2 ^ s.toNat = 2 ^ 64 := by rw [← Nat.pow_add]; congr 1; omega
    have hlt : (t >>> (64 - s)).toNat < 2 ^ s.toNat := by
      rw [e1, Nat.div_lt_iff_lt_mul (Nat.two_pow_pos _), Nat.mul_comm, hpp]; exact ht
    have e3 : (t <<< s ||| c).toNat = (t <<< s).toNat + c.toNat := by
      rw [UInt64.toNat_or]
      refine or_add (k := s.toNat) ?_ hc
      rw [e2, Nat.mod_mod_of_dvd _ (Nat.pow_dvd_pow 2 (by omega)), Nat.mul_mod_left]
    have e4 : (t <<< s).toNat + 2 ^ 64 * (t >>> (64 - s)).toNat = t.toNat * 2 ^ s.toNat := by
      rw [e1, e2, ← hpp, Nat.mul_mod_mul_right]
      have := Nat.mod_add_div t.toNat (2 ^ (64 - s.toNat))
      calc _ = (t.toNat % 2 ^ (64 - s.toNat) + 2 ^ (64 - s.toNat) * (t.toNat / 2 ^ (64 - s.toNat))) *
              2 ^ s.toNat := by ring
        _ = _ := by rw [this]
    obtain ⟨i1, i2, i3⟩ := lshift_spec s h0 h64 v (t >>> (64 - s)) hlt
    simp only [lshift, List.length_cons, i3, and_true]
    refine ⟨?_, i2⟩
    have e : 2 ^ (64 * (v.length + 1)) = 2 ^ 64 * 2 ^ (64 * v.length) := by rw [← Nat.pow_add]; ring_nf
    simp only [val, e, e3]
    linarith [e4, i1]

theorem rshift1_spec : ∀ v : Vli, val (rshift1 v) = val v / 2 ∧ (rshift1 v).length = v.length
  | [] => by simp [rshift1, val]
  | [t] => by
    simp [rshift1, val, UInt64.toNat_shiftRight, Nat.shiftRight_eq_div_pow]
  | t :: u :: r => by
    obtain ⟨i1, i2⟩ := rshift1_spec (u :: r)
    have ht := t.toNat_lt; have hu := u.toNat_lt
    have e : (t >>> 1 ||| u <<< 63).toNat = t.toNat / 2 + 2 ^ 63 * (u.toNat % 2) := by
      rw [UInt64.toNat_or, Nat.or_comm]
      have e1 : (u <<< 63).toNat = 2 ^ 63 * (u.toNat % 2) := by
        simp [UInt64.toNat_shiftLeft, Nat.shiftLeft_eq]; omega
      have e2 : (t >>> 1).toNat = t.toNat / 2 := by
        simp [UInt64.toNat_shiftRight, Nat.shiftRight_eq_div_pow]
      rw [e1, e2, or_add (k := 63) (by omega) (by omega)]; omega
    simp only [rshift1, List.length_cons, i2, and_true]
    simp only [val] at *
    rw [e, i1]
    omega

theorem dig_lt_val {v : Vli} : val v % 2 = (dig v 0).toNat % 2 := by
  cases v with
  | nil => rfl
  | cons d r => simp only [val, dig, List.getD_cons_zero]; omega

theorem even_iff (v : Vli) : even v = true ↔ val v % 2 = 0 := by
  rw [dig_lt_val, even, beq_iff_eq, ← UInt64.toNat_inj, UInt64.toNat_and]
  simp [Nat.and_one_is_mod]

/-- Setting the top bit of a number that does not have it. -/
theorem orTop_spec {v : Vli} (hl : v.length = 4) (h : val v < 2 ^ 255) (b : UInt64) (hb : b.toNat = 2 ^ 63 ∨ b.toNat = 0) :
    val (orTop v b) = val v + 2 ^ 192 * b.toNat ∧ (orTop v b).length = 4 := by
  obtain ⟨a0, a1, a2, a3, rfl⟩ := four hl
  have h3 : a3.toNat < 2 ^ 63 := by simp only [val] at h; omega
  have e : (a3 ||| b).toNat = a3.toNat + b.toNat := by
    rw [UInt64.toNat_or, Nat.or_comm, or_add (k := 63) (by omega) h3]; omega
  simp only [orTop, dig, List.getD_cons_zero, List.getD_cons_succ, List.set_cons_succ, List.set_cons_zero, val,
    List.length_cons, List.length_nil, and_true, e]
  omega

/-- Half of a number modulo an odd number. -/
theorem halve_spec {u m : Vli} (hu : u.length = 4) (hm : m.length = 4) (hodd : val m % 2 = 1) (h : val u < val m) :
    val (halve u m) = (if val u % 2 = 0 then val u / 2 else (val u + val m) / 2) ∧ (halve u m).length = 4 := by
  unfold halve
  dsimp only
  by_cases he : val u % 2 = 0
  · rw [if_pos ((even_iff u).2 he), if_neg (by simp), if_pos he]
    have := rshift1_spec u
    exact ⟨this.1, by rw [this.2, hu]⟩
  · rw [if_neg (fun h => he ((even_iff u).1 h)), if_neg he]
    obtain ⟨s1, s2⟩ := add_spec hu hm
    have hl := add_length hu hm
    obtain ⟨r1, r2⟩ := rshift1_spec (add u m).1
    have hlt := val_lt4 hl
    split
    · rename_i hc
      have hc : (add u m).2.toNat = 1 := by
        have : (add u m).2.toNat ≠ 0 := fun h => hc (UInt64.toNat.inj h)
        omega
      obtain ⟨o1, o2⟩ := orTop_spec (v := rshift1 (add u m).1) (by rw [r2, hl]) (by rw [r1]; omega) 0x8000000000000000 (.inl rfl)
      refine ⟨?_, o2⟩
      rw [o1, r1]
      have : (0x8000000000000000 : UInt64).toNat = 2 ^ 63 := rfl
      omega
    · rename_i hc
      have hc : (add u m).2 = 0 := by simpa using hc
      rw [hc] at s1
      refine ⟨?_, by rw [r2, hl]⟩
      rw [r1]
      have : (0 : UInt64).toNat = 0 := rfl
      omega

end Verif.Lemmas.EccVli

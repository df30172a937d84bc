import Verif.Model.Mem
namespace Verif

theorem beNat_cons (b : UInt8) (r : Bytes) : beNat (b :: r) = b.toNat * 256 ^ r.length + beNat r := by
  have key : ∀ (s : Bytes), leNat (s ++ [b]) = leNat s + 256 ^ s.length * b.toNat := by
    intro s
    induction s with
    | nil => simp [leNat]
    | cons x xs ih =>
      simp only [List.cons_append, leNat, ih, List.length_cons, Nat.pow_succ, Nat.mul_add]
      rw [Nat.mul_comm (256 ^ xs.length) 256, Nat.mul_assoc]
      omega
  simp only [beNat, List.reverse_cons, key, List.length_reverse]
  rw [Nat.mul_comm (256 ^ r.length)]
  omega

theorem memcmp_spec {a b : Bytes} (hl : a.length = b.length) :
    memcmp a b = if beNat a < beNat b then -1 else if beNat b < beNat a then 1 else 0 := by
  induction a generalizing b with
  | nil => cases b with
    | nil => simp [memcmp]
    | cons _ _ => simp at hl
  | cons x xs ih => cases b with
    | nil => simp at hl
    | cons y ys =>
      have hl' : xs.length = ys.length := by simpa using hl
      have h1 := beNat_lt xs
      have h2 := beNat_lt ys
      have e := ih hl'
      rw [beNat_cons, beNat_cons, memcmp, e, ← hl']
      rw [← hl'] at h2
      generalize 256 ^ xs.length = P at *
      generalize x.toNat = u
      generalize y.toNat = v
      generalize beNat xs = X at *
      generalize beNat ys = Y at *
      have step : ∀ {u v X Y : Nat}, u < v → X < P → u * P + X < v * P + Y := by
        intro u v X Y h hX
        have := Nat.mul_le_mul_right P (show u + 1 ≤ v from h)
        rw [Nat.add_mul] at this
        omega
      rcases Nat.lt_trichotomy u v with h | h | h
      · have := step (Y := Y) h h1
        simp [h, this]
      · subst h
        simp
      · have := step (Y := X) h h2
        have h' : ¬ (u < v) := by omega
        have h'' : ¬ (u * P + X < v * P + Y) := by omega
        simp [h', h'', h, this]

theorem memcmp_le_zero {a b : Bytes} (hl : a.length = b.length) :
    memcmp a b ≤ 0 ↔ beNat a ≤ beNat b := by
  rw [memcmp_spec hl]
  split
  · simp; omega
  · split <;> simp <;> omega

theorem memcmp_pos {a b : Bytes} (hl : a.length = b.length) :
    memcmp a b > 0 ↔ beNat b < beNat a := by
  rw [memcmp_spec hl]
  split
  · simp; omega
  · split <;> simp <;> omega

theorem memcmp_eq_zero {a b : Bytes} (hl : a.length = b.length) : memcmp a b = 0 ↔ a = b := by
  rw [memcmp_spec hl]
  constructor
  · intro h
    apply beNat_inj hl
    split at h
    · simp at h
    · split at h
      · simp at h
      · omega
  · rintro rfl; simp

end Verif

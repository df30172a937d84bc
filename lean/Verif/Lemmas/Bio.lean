import Verif.Model.Bio
namespace Verif.Bio

theorem readBytes_eq_ok {n : Nat} {s b r : Bytes} :
    readBytes n s = .ok (b, r) ↔ s = b ++ r ∧ b.length = n := by
  unfold readBytes memSlice
  by_cases h : s.length < n
  · simp only [h, if_true, reduceCtorEq, false_iff]
    rintro ⟨rfl, rfl⟩
    simp at h
    omega
  · have h' : 0 + n ≤ s.length := by omega
    simp only [h, if_false, h', if_true, Out.bind_ok, Out.pure_eq, Out.ok.injEq, Prod.mk.injEq,
      List.drop_zero]
    constructor
    · rintro ⟨rfl, rfl⟩
      simp; omega
    · rintro ⟨rfl, rfl⟩
      simp

@[simp] theorem readBytes_append (b r : Bytes) : readBytes b.length (b ++ r) = .ok (b, r) := by
  simp [readBytes_eq_ok]

theorem readBytes_append' {n : Nat} {b r : Bytes} (h : b.length = n) :
    readBytes n (b ++ r) = .ok (b, r) := by
  simp [readBytes_eq_ok, h]

@[simp] theorem readBytes_ne_ub (n : Nat) (s : Bytes) : readBytes n s ≠ .ub := by
  unfold readBytes memSlice
  by_cases h : s.length < n
  · simp [h]
  · have h' : 0 + n ≤ s.length := by omega
    simp only [h, h', if_true, if_false, Out.bind_ok, Out.pure_eq, ne_eq, reduceCtorEq, not_false_eq_true]

theorem readU8_eq_ok {s r : Bytes} {v : Nat} :
    readU8 s = .ok (v, r) ↔ s = leBytes 1 v ++ r ∧ v < 256 := by
  unfold readU8 memGet
  cases s with
  | nil => simp [leBytes]
  | cons b t =>
    simp only [List.length_cons, leBytes]
    have : ¬ (t.length + 1 < 1) := by omega
    simp only [this, if_false, List.getElem?_cons_zero, Out.bind_ok, Out.pure_eq, Out.ok.injEq,
      Prod.mk.injEq, List.drop_succ_cons, List.drop_zero, List.cons_append, List.nil_append,
      List.cons.injEq]
    have hb := b.toNat_lt
    constructor
    · rintro ⟨rfl, rfl⟩
      simp
      omega
    · rintro ⟨⟨rfl, rfl⟩, hv⟩
      simp; omega

@[simp] theorem readU8_ne_ub (s : Bytes) : readU8 s ≠ .ub := by
  unfold readU8 memGet
  cases s <;> simp

/-- All fixed-width little-endian readers have this shape. -/
theorem readLE_aux {k : Nat} {s r : Bytes} {v : Nat} :
    (if s.length < k then (.err () : Out Unit (Nat × Bytes))
      else do let b ← memSlice s 0 k; pure (leNat b, s.drop k)) = .ok (v, r)
    ↔ s = leBytes k v ++ r ∧ v < 256 ^ k := by
  unfold memSlice
  by_cases h : s.length < k
  · simp only [h, if_true, reduceCtorEq, false_iff]
    rintro ⟨rfl, _⟩
    simp at h
    omega
  · have h' : 0 + k ≤ s.length := by omega
    simp only [h, if_false, h', if_true, Out.bind_ok, Out.pure_eq, Out.ok.injEq, Prod.mk.injEq,
      List.drop_zero]
    have hl : (s.take k).length = k := by simp; omega
    constructor
    · rintro ⟨rfl, rfl⟩
      have h1 := leBytes_leNat (s.take k)
      rw [hl] at h1
      have h2 := leNat_lt (s.take k)
      rw [hl] at h2
      exact ⟨by rw [h1, List.take_append_drop], h2⟩
    · rintro ⟨rfl, hv⟩
      have h1 : (leBytes k v ++ r).take k = leBytes k v := by
        simp
      have h2 : (leBytes k v ++ r).drop k = r := by
        simp
      rw [h1, h2]
      exact ⟨leNat_leBytes_of_lt hv, rfl⟩

theorem readBE_aux {k : Nat} {s r : Bytes} {v : Nat} :
    (if s.length < k then (.err () : Out Unit (Nat × Bytes))
      else do let b ← memSlice s 0 k; pure (beNat b, s.drop k)) = .ok (v, r)
    ↔ s = beBytes k v ++ r ∧ v < 256 ^ k := by
  unfold memSlice
  by_cases h : s.length < k
  · simp only [h, if_true, reduceCtorEq, false_iff]
    rintro ⟨rfl, _⟩
    simp at h
    omega
  · have h' : 0 + k ≤ s.length := by omega
    simp only [h, if_false, h', if_true, Out.bind_ok, Out.pure_eq, Out.ok.injEq, Prod.mk.injEq,
      List.drop_zero]
    have hl : (s.take k).length = k := by simp; omega
    constructor
    · rintro ⟨rfl, rfl⟩
      have h1 := beBytes_beNat (s.take k)
      rw [hl] at h1
      have h2 := beNat_lt (s.take k)
      rw [hl] at h2
      exact ⟨by rw [h1, List.take_append_drop], h2⟩
    · rintro ⟨rfl, hv⟩
      have h1 : (beBytes k v ++ r).take k = beBytes k v := by
        simp
      have h2 : (beBytes k v ++ r).drop k = r := by
        simp
      rw [h1, h2]
      exact ⟨beNat_beBytes_of_lt hv, rfl⟩

theorem readLE_aux_ne_ub {k : Nat} {s : Bytes} {f : Bytes → Nat} :
    (if s.length < k then (.err () : Out Unit (Nat × Bytes))
      else do let b ← memSlice s 0 k; pure (f b, s.drop k)) ≠ .ub := by
  unfold memSlice
  by_cases h : s.length < k
  · simp [h]
  · have h' : 0 + k ≤ s.length := by omega
    simp only [h, h', if_true, if_false, Out.bind_ok, Out.pure_eq, ne_eq, reduceCtorEq, not_false_eq_true]

theorem readU16_eq_ok {s r : Bytes} {v : Nat} :
    readU16 s = .ok (v, r) ↔ s = leBytes 2 v ++ r ∧ v < 65536 := readLE_aux
theorem readU32_eq_ok {s r : Bytes} {v : Nat} :
    readU32 s = .ok (v, r) ↔ s = leBytes 4 v ++ r ∧ v < 4294967296 := readLE_aux
theorem readU64_eq_ok {s r : Bytes} {v : Nat} :
    readU64 s = .ok (v, r) ↔ s = leBytes 8 v ++ r ∧ v < 18446744073709551616 := readLE_aux
theorem readU16be_eq_ok {s r : Bytes} {v : Nat} :
    readU16be s = .ok (v, r) ↔ s = beBytes 2 v ++ r ∧ v < 65536 := readBE_aux
theorem readU32be_eq_ok {s r : Bytes} {v : Nat} :
    readU32be s = .ok (v, r) ↔ s = beBytes 4 v ++ r ∧ v < 4294967296 := readBE_aux

@[simp] theorem readU16_ne_ub (s : Bytes) : readU16 s ≠ .ub := readLE_aux_ne_ub
@[simp] theorem readU32_ne_ub (s : Bytes) : readU32 s ≠ .ub := readLE_aux_ne_ub
@[simp] theorem readU64_ne_ub (s : Bytes) : readU64 s ≠ .ub := readLE_aux_ne_ub
@[simp] theorem readU16be_ne_ub (s : Bytes) : readU16be s ≠ .ub := readLE_aux_ne_ub
@[simp] theorem readU32be_ne_ub (s : Bytes) : readU32be s ≠ .ub := readLE_aux_ne_ub

theorem readU8_append {v : Nat} {r : Bytes} (h : v < 256) :
    readU8 (leBytes 1 v ++ r) = .ok (v, r) := readU8_eq_ok.2 ⟨rfl, h⟩
theorem readU16_append {v : Nat} {r : Bytes} (h : v < 65536) :
    readU16 (leBytes 2 v ++ r) = .ok (v, r) := readU16_eq_ok.2 ⟨rfl, h⟩
theorem readU32_append {v : Nat} {r : Bytes} (h : v < 4294967296) :
    readU32 (leBytes 4 v ++ r) = .ok (v, r) := readU32_eq_ok.2 ⟨rfl, h⟩
theorem readU64_append {v : Nat} {r : Bytes} (h : v < 18446744073709551616) :
    readU64 (leBytes 8 v ++ r) = .ok (v, r) := readU64_eq_ok.2 ⟨rfl, h⟩
theorem readU16be_append {v : Nat} {r : Bytes} (h : v < 65536) :
    readU16be (beBytes 2 v ++ r) = .ok (v, r) := readU16be_eq_ok.2 ⟨rfl, h⟩
theorem readU32be_append {v : Nat} {r : Bytes} (h : v < 4294967296) :
    readU32be (beBytes 4 v ++ r) = .ok (v, r) := readU32be_eq_ok.2 ⟨rfl, h⟩

end Verif.Bio

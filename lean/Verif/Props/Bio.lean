import Verif.Lemmas.Bio
/-
C48: compact (variable-length) integers, `src/bio.h`.
-/
namespace Verif.Props.Bio
open Verif.Bio

/-- C48. Writing any 64-bit value and reading it back gives the value and consumes
exactly what was written. -/
theorem C48_varint_roundtrip (n : Nat) (h : n < 2 ^ 64) (rest : Bytes) :
    readVarint (writeVarint n ++ rest) = .ok (n, rest) := by
  unfold writeVarint
  by_cases h1 : n < 0xfd
  · simp only [h1, if_true, writeU8, leBytes, readVarint, memGet, List.cons_append, List.nil_append,
      List.getElem?_cons_zero, Out.bind_ok, List.drop_succ_cons, List.drop_zero]
    have e : (UInt8.ofNat n).toNat = n := by rw [UInt8.toNat_ofNat']; omega
    have a1 : UInt8.ofNat n ≠ 0xff := by intro hh; rw [hh] at e; have : n = 255 := e.symm; omega
    have a2 : UInt8.ofNat n ≠ 0xfe := by intro hh; rw [hh] at e; have : n = 254 := e.symm; omega
    have a3 : UInt8.ofNat n ≠ 0xfd := by intro hh; rw [hh] at e; have : n = 253 := e.symm; omega
    simp only [a1, a2, a3, if_false, Out.pure_eq, e]
  · by_cases h2 : n ≤ 0xffff
    · simp only [h1, h2, if_true, if_false, writeU8, writeU16]
      have e : (leBytes 1 0xfd ++ leBytes 2 n ++ rest) = 0xfd :: (leBytes 2 n ++ rest) := by
        simp [leBytes]
      rw [e]
      simp only [readVarint, memGet, List.getElem?_cons_zero, Out.bind_ok, List.drop_succ_cons, List.drop_zero,
        show ¬ ((0xfd : UInt8) = 0xff) by decide, show ¬ ((0xfd : UInt8) = 0xfe) by decide, if_false, if_true]
      rw [readU16_append (by omega)]
      simp [h1]
    · by_cases h3 : n ≤ 0xffffffff
      · simp only [h1, h2, h3, if_true, if_false, writeU8, writeU32]
        have e : (leBytes 1 0xfe ++ leBytes 4 n ++ rest) = 0xfe :: (leBytes 4 n ++ rest) := by
          simp [leBytes]
        rw [e]
        simp only [readVarint, memGet, List.getElem?_cons_zero, Out.bind_ok, List.drop_succ_cons, List.drop_zero,
          show ¬ ((0xfe : UInt8) = 0xff) by decide, if_false, if_true]
        rw [readU32_append (by omega)]
        simp [h2]
      · simp only [h1, h2, h3, if_false, writeU8, writeU64]
        have e : (leBytes 1 0xff ++ leBytes 8 n ++ rest) = 0xff :: (leBytes 8 n ++ rest) := by
          simp [leBytes]
        rw [e]
        simp only [readVarint, memGet, List.getElem?_cons_zero, Out.bind_ok, List.drop_succ_cons, List.drop_zero,
          if_true]
        rw [readU64_append (by omega)]
        simp [h3]

/-- C48. Reading is canonical: a value is read only from the bytes that writing it
produces, so no value has two encodings. -/
theorem C48_varint_canonical (s rest : Bytes) (n : Nat) (h : readVarint s = .ok (n, rest)) :
    n < 2 ^ 64 ∧ s = writeVarint n ++ rest := by
  cases s with
  | nil => simp [readVarint, memGet] at h
  | cons b t =>
    simp only [readVarint, memGet, List.getElem?_cons_zero, Out.bind_ok, List.drop_succ_cons,
      List.drop_zero] at h
    have hb := b.toNat_lt
    split at h
    · rename_i hb
      simp only [Out.bind_eq_ok, Prod.exists, readU64_eq_ok] at h
      obtain ⟨v, s, ⟨rfl, hv⟩, h⟩ := h
      split at h
      · cases h
      · rename_i hn
        simp only [Out.pure_eq, Out.ok.injEq, Prod.mk.injEq] at h
        obtain ⟨rfl, rfl⟩ := h
        refine ⟨by omega, ?_⟩
        unfold writeVarint
        have h1 : ¬ v < 0xfd := by omega
        have h2 : ¬ v ≤ 0xffff := by omega
        simp only [h1, h2, hn, if_false, writeU8, writeU64, hb, leBytes]; rfl
    · split at h
      · rename_i hb
        simp only [Out.bind_eq_ok, Prod.exists, readU32_eq_ok] at h
        obtain ⟨v, s, ⟨rfl, hv⟩, h⟩ := h
        split at h
        · cases h
        · rename_i hn
          simp only [Out.pure_eq, Out.ok.injEq, Prod.mk.injEq] at h
          obtain ⟨rfl, rfl⟩ := h
          refine ⟨by omega, ?_⟩
          unfold writeVarint
          have h1 : ¬ v < 0xfd := by omega
          have h2 : v ≤ 0xffffffff := by omega
          simp only [h1, hn, h2, if_false, if_true, writeU8, writeU32, hb, leBytes]; rfl
      · split at h
        · rename_i hb
          simp only [Out.bind_eq_ok, Prod.exists, readU16_eq_ok] at h
          obtain ⟨v, s, ⟨rfl, hv⟩, h⟩ := h
          split at h
          · cases h
          · rename_i hn
            simp only [Out.pure_eq, Out.ok.injEq, Prod.mk.injEq] at h
            obtain ⟨rfl, rfl⟩ := h
            refine ⟨by omega, ?_⟩
            unfold writeVarint
            have h2 : v ≤ 0xffff := by omega
            simp only [hn, h2, if_false, if_true, writeU8, writeU16, hb, leBytes]; rfl
        · rename_i n1 n2 n3
          simp only [Out.pure_eq, Out.ok.injEq, Prod.mk.injEq] at h
          obtain ⟨rfl, rfl⟩ := h
          refine ⟨by omega, ?_⟩
          have h1 : b.toNat < 0xfd := by
            have m1 : b.toNat ≠ 255 := fun e => n1 (UInt8.toNat.inj e)
            have m2 : b.toNat ≠ 254 := fun e => n2 (UInt8.toNat.inj e)
            have m3 : b.toNat ≠ 253 := fun e => n3 (UInt8.toNat.inj e)
            omega
          unfold writeVarint
          simp [h1, writeU8, leBytes]

/-- C48, the full claim "reading any input is memory safe" is false of the code: on an
empty input the first byte is read out of bounds (the guard tests the pointer). -/
theorem C48_read_empty_out_of_bounds : ¬ ∀ s, readVarint s ≠ .ub := by
  intro h; exact h [] (by decide)

/-- C48 (what holds of "reading is memory safe"): every non-empty input. Missing: the
empty input, which the code does not guard. -/
theorem C48_read_safe_partial (s : Bytes) (h : s ≠ []) :
    readVarint s ≠ .ub ∧ readVarsize s ≠ .ub := by
  have key : readVarint s ≠ .ub := by
    cases s with
    | nil => exact absurd rfl h
    | cons b t =>
      simp only [readVarint, memGet, List.getElem?_cons_zero, Out.bind_ok, List.drop_succ_cons,
        List.drop_zero]
      split
      · refine Out.bind_ne_ub (by simp) ?_
        rintro ⟨v, s⟩ -; dsimp only; split <;> simp
      · split
        · refine Out.bind_ne_ub (by simp) ?_
          rintro ⟨v, s⟩ -; dsimp only; split <;> simp
        · split
          · refine Out.bind_ne_ub (by simp) ?_
            rintro ⟨v, s⟩ -; dsimp only; split <;> simp
          · simp
  refine ⟨key, ?_⟩
  unfold readVarsize
  refine Out.bind_ne_ub key ?_
  rintro ⟨v, s⟩ -; dsimp only; split <;> simp

/-- C48, the full claim "the reported size is the number of bytes written" is false of
the code: 253 takes three bytes but is reported as one (the size function returns a
truth value). -/
theorem C48_size_wrong : ¬ ∀ n < 2 ^ 64, sizeVarint n = (writeVarint n).length := by
  intro h; have := h 253 (by decide); revert this; decide

/-- C48 (what holds of the size claim): the size is right exactly for values below 253.
Missing: all larger values, where the code is wrong. -/
theorem C48_size_partial (n : Nat) (_ : n < 2 ^ 64) :
    sizeVarint n = (writeVarint n).length ↔ n < 253 := by
  unfold sizeVarint writeVarint
  by_cases h1 : n < 0xfd
  · simp [h1, writeU8]
  · by_cases h2 : n ≤ 0xffff
    · simp [h1, h2, writeU8, writeU16]
    · by_cases h3 : n ≤ 0xffffffff
      · simp [h1, h2, h3, writeU8, writeU32]
      · simp [h1, h2, h3, writeU8, writeU64]

example : readVarint (writeVarint 70000 ++ [9]) = .ok (70000, [9]) := by decide
example : readVarint [0xfd, 0xfc, 0x00] = .err () := by decide

end Verif.Props.Bio

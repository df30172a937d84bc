import Verif.Model.Words
import Mathlib.Tactic.IntervalCases
/-
Words as bit vectors put together from bytes.
-/
namespace Verif.Words

/-- The bit vector of four bytes, the first being the lowest. -/
def bv32 (a b c d : UInt8) : BitVec 32 := d.toBitVec ++ c.toBitVec ++ b.toBitVec ++ a.toBitVec

theorem bv32_toNat (a b c d : UInt8) : (bv32 a b c d).toNat = leNat [a, b, c, d] := by
  have h1 := a.toNat_lt
  have h2 := b.toNat_lt
  have h3 := c.toNat_lt
  have h4 := d.toNat_lt
  have key : ∀ {w : Nat} (x : BitVec w) (y : BitVec 8), (x ++ y).toNat = 256 * x.toNat + y.toNat := by
    intro w x y
    rw [BitVec.toNat_append, ← Nat.shiftLeft_add_eq_or_of_lt (by simpa using y.isLt), Nat.shiftLeft_eq]
    omega
  unfold bv32
  rw [key, key, key]
  simp only [leNat, UInt8.toNat_toBitVec]
  omega

theorem ld32_four (a b c d : UInt8) (r : Bytes) : ld32 (a :: b :: c :: d :: r) = ⟨bv32 a b c d⟩ := by
  apply UInt32.toNat_inj.1
  have := bv32_toNat a b c d
  have h : leNat [a, b, c, d] < 256 ^ 4 := leNat_lt _
  show (UInt32.ofNat (leNat [a, b, c, d])).toNat = (bv32 a b c d).toNat
  rw [UInt32.toNat_ofNat', this, Nat.mod_eq_of_lt (by simpa using h)]

theorem st32_bv32 (a b c d : UInt8) : st32 ⟨bv32 a b c d⟩ = [a, b, c, d] := by
  show leBytes 4 (bv32 a b c d).toNat = _
  rw [bv32_toNat]
  exact leBytes_leNat [a, b, c, d]

theorem exists_bv32 (w : UInt32) : ∃ a b c d, w = ⟨bv32 a b c d⟩ := by
  have hl : (st32 w).length = 4 := by simp [st32]
  match h : st32 w, hl with
  | [a, b, c, d], _ =>
    refine ⟨a, b, c, d, ?_⟩
    apply UInt32.toNat_inj.1
    show w.toNat = (bv32 a b c d).toNat
    rw [bv32_toNat, ← h, st32, leNat_leBytes, Nat.mod_eq_of_lt]
    exact w.toNat_lt

@[simp] theorem st32_length (w : UInt32) : (st32 w).length = 4 := by simp [st32]

theorem ld32_st32 (w : UInt32) (r : Bytes) : ld32 (st32 w ++ r) = w := by
  obtain ⟨a, b, c, d, rfl⟩ := exists_bv32 w
  rw [st32_bv32]
  exact ld32_four a b c d r

theorem memcpy_ok {mem b : Bytes} {i : Nat} (h : i + b.length ≤ mem.length) :
    memcpy mem i b = .ok (mem.take i ++ b ++ mem.drop (i + b.length)) := by rw [memcpy, if_pos h]

/-- Bytes of four, for reasoning by cases. -/
theorem four {m : Bytes} (h : 4 ≤ m.length) : ∃ a b c d r, m = a :: b :: c :: d :: r := by
  match m, h with
  | a :: b :: c :: d :: r, _ => exact ⟨a, b, c, d, r, rfl⟩

theorem bv32_getElem (a b c d : UInt8) (i : Nat) (h : i < 32) :
    (bv32 a b c d)[i] = if i < 8 then a.toBitVec.getLsbD i else if i < 16 then b.toBitVec.getLsbD (i - 8)
      else if i < 24 then c.toBitVec.getLsbD (i - 16) else d.toBitVec.getLsbD (i - 24) := by
  unfold bv32
  rw [← BitVec.getLsbD_eq_getElem]
  simp only [BitVec.getLsbD_append]
  simp only [Nat.sub_sub]
  by_cases h1 : i < 8
  · simp [h1]
  by_cases h2 : i < 16
  · simp [h1, h2, show i - 8 < 8 by omega]
  by_cases h3 : i < 24
  · simp [h1, h2, h3, show ¬ i - 8 < 8 by omega, show i - 16 < 8 by omega]
  · simp [h1, h2, h3, show ¬ i - 8 < 8 by omega, show ¬ i - 16 < 8 by omega]

end Verif.Words

import Verif.Base
/-
Memory as bytes, and words in it, as the hash functions and ciphers use them. The machine is
little-endian (HSK_BIG_ENDIAN is not defined).
-/
namespace Verif.Words

/-- The 32-bit word at four bytes of memory. -/
def ld32 (b : Bytes) : UInt32 := UInt32.ofNat (leNat (b.take 4))

/-- The bytes of a 32-bit word in memory. -/
def st32 (w : UInt32) : Bytes := leBytes 4 w.toNat

/-- The 64-bit word at eight bytes of memory. -/
def ld64 (b : Bytes) : UInt64 := UInt64.ofNat (leNat (b.take 8))

/-- The bytes of a 64-bit word in memory. -/
def st64 (w : UInt64) : Bytes := leBytes 8 w.toNat

/-- `memcpy` of `b` to the place `i` of `mem`; what does not fit is undefined. -/
def memcpy (mem : Bytes) (i : Nat) (b : Bytes) : Out Unit Bytes :=
  if i + b.length ≤ mem.length then .ok (mem.take i ++ b ++ mem.drop (i + b.length)) else .ub

end Verif.Words

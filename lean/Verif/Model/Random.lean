import Verif.Base
/-
Model of the random numbers of src/utils.c. What the system's `random`, `arc4random` or `rand` yields is an argument for each call.
-/
namespace Verif.Random

/-- hsk_random (src/utils.c:89-96); `n` and `m` are what the first and the second call of `_HSK_RANDOM` (src/utils.c:15-27) yield. -/
def random (n m : UInt32) : UInt32 := (n <<< 16) ^^^ m

/-- hsk_nonce (src/utils.c:98-101). C leaves open which of the two operands is computed first: `swap` if it is the second. The
arguments are what the four calls of `_HSK_RANDOM` yield, in this order. -/
def nonce (swap : Bool) (a b c d : UInt32) : UInt64 :=
  let x := random a b
  let y := random c d
  if swap then (y.toUInt64 <<< 32) + x.toUInt64 else (x.toUInt64 <<< 32) + y.toUInt64

/-- A choice among `n`, as `hsk_random() % am->size` (src/addrmgr.c:106, src/addrmgr.c:399) and `hsk_random() % total` (src/pool.c:479). -/
def choice (r : UInt32) (n : Nat) : Nat := r.toNat % n

end Verif.Random

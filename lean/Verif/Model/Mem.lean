import Verif.Base
/-
C library byte comparison.
-/
namespace Verif

/-- `memcmp` over two buffers of equal length: the sign of the first difference,
bytes compared as unsigned (ISO C 7.24.4.1). Library function, part of the
trusted base. -/
def memcmp : Bytes → Bytes → Int
  | a :: as, b :: bs => if a.toNat < b.toNat then -1 else if b.toNat < a.toNat then 1 else memcmp as bs
  | _, _ => 0

end Verif

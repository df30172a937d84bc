import Verif.Base
/-
Poly1305 as RFC 8439, 2.5 defines it.
-/
namespace Verif.Spec.Poly1305

/-- The prime. -/
def p : Nat := 2 ^ 130 - 5

/-- `clamp(r)`. -/
def clamp (r : Nat) : Nat := r &&& 0x0ffffffc0ffffffc0ffffffc0fffffff

/-- The message in blocks of 16 bytes, the last of which may be shorter (`n` is how many). -/
def split : Nat → Bytes → List Bytes
  | 0, _ => []
  | n + 1, m => m.take 16 :: split n (m.drop 16)
def blocks (m : Bytes) : List Bytes := split ((m.length + 15) / 16) m

/-- One block: with a byte of value 1 after it, a number in little-endian order. -/
def add (r acc : Nat) (b : Bytes) : Nat := (acc + leNat (b ++ [1])) * r % p

/-- The tag of a message under a one-time key of 32 bytes. -/
def mac (key msg : Bytes) : Bytes :=
  let r := clamp (leNat (key.take 16))
  let s := leNat ((key.drop 16).take 16)
  leBytes 16 (((blocks msg).foldl (add r) 0 + s) % 2 ^ 128)

end Verif.Spec.Poly1305

import Verif.Base
/-
Base32 as in RFC 4648: the bits of the data, most significant first, in groups of
five, the last one filled with zeros; optionally '=' up to a multiple of 8 characters.
-/
namespace Verif.Spec.Base32

/-- The eight bits of a byte. -/
def bits8 (n : Nat) : List Nat := [n / 128 % 2, n / 64 % 2, n / 32 % 2, n / 16 % 2, n / 8 % 2, n / 4 % 2, n / 2 % 2, n % 2]

def bits (data : Bytes) : List Nat := data.flatMap fun c => bits8 c.toNat

/-- Groups of five bits as numbers. -/
def groups : List Nat → List Nat
  | a :: b :: c :: d :: e :: r => (16 * a + 8 * b + 4 * c + 2 * d + e) :: groups r
  | [a, b, c, d] => [16 * a + 8 * b + 4 * c + 2 * d]
  | [a, b, c] => [16 * a + 8 * b + 4 * c]
  | [a, b] => [16 * a + 8 * b]
  | [a] => [16 * a]
  | [] => []

/-- Number of '=' that complete `n` characters to a multiple of eight. -/
def padLen (n : Nat) : Nat := (8 - n % 8) % 8

/-- The text of `data` in the given alphabet of 32 characters. -/
def text (alphabet : Bytes) (data : Bytes) (pad : Bool) : Bytes :=
  let syms := groups (bits data)
  syms.map (fun i => alphabet.getD i 0) ++ if pad then List.replicate (padLen syms.length) 0x3d else []

/-- Lower case of an ASCII letter. -/
def lower (c : UInt8) : UInt8 := if 0x41 ≤ c ∧ c ≤ 0x5a then c + 0x20 else c

end Verif.Spec.Base32

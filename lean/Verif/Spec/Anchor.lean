import Verif.Base
/-
The text of a DS record of the root (RFC 4034, 5.3).
-/
namespace Verif.Spec.Anchor

/-- A number in decimal. -/
def decimal (n : Nat) : Bytes := (Nat.toDigits 10 n).map fun c => UInt8.ofNat c.toNat

/-- Bytes in hexadecimal, upper case. -/
def hexadecimal (b : Bytes) : Bytes :=
  (b.map fun x => [x.toNat / 16, x.toNat % 16].map fun d => if d < 10 then UInt8.ofNat (0x30 + d) else UInt8.ofNat (0x41 + d - 10)).flatten

/-- `. DS tag algorithm type digest` -/
def dsText (tag alg type : Nat) (digest : Bytes) : Bytes :=
  [0x2e, 0x20, 0x44, 0x53, 0x20] ++ decimal tag ++ [0x20] ++ decimal alg ++ [0x20] ++ decimal type ++ [0x20] ++ hexadecimal digest

end Verif.Spec.Anchor

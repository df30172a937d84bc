import Verif.Base
/-
Hexadecimal numbers.
-/
namespace Verif.Spec.BnText

/-- What a character is worth. -/
def worth (c : UInt8) : Option Nat :=
  if 0x30 ≤ c ∧ c ≤ 0x39 then some (c.toNat - 0x30)
  else if 0x61 ≤ c ∧ c ≤ 0x66 then some (c.toNat - 0x61 + 10)
  else if 0x41 ≤ c ∧ c ≤ 0x46 then some (c.toNat - 0x41 + 10)
  else none

def Hex (t : Bytes) : Prop := ∀ c ∈ t, (worth c).isSome

instance (t : Bytes) : Decidable (Hex t) := by unfold Hex; infer_instance

/-- The number a text of digits is. -/
def number (t : Bytes) : Nat := t.foldl (fun a c => 16 * a + (worth c).getD 0) 0

/-- `sscanf` with `%8x` takes eight digits for their number. -/
def Scans (scan : Bytes → Nat) : Prop := ∀ d r : Bytes, d.length = 8 → Hex d → scan (d ++ r) = number d

end Verif.Spec.BnText

import Verif.Base
/-
File names, as the C library takes them from an array.
-/
namespace Verif.Spec.StorePath

/-- The text in an array: what is in front of the first NUL. -/
def Holds (mem text : Bytes) : Prop := (∃ r, mem = text ++ 0 :: r) ∧ 0 ∉ text

/-- The number that decimal digits are. -/
def amount (t : Bytes) : Nat := t.foldl (fun a c => 10 * a + (c.toNat - 0x30)) 0

def Digits (t : Bytes) : Prop := t ≠ [] ∧ ∀ c ∈ t, 0x30 ≤ c ∧ c ≤ 0x39

/-- A C library that happens to copy the argument before it writes: the text with `tail` behind is then in the array,
if it fits. (The standard does not say so.) -/
def Kind (overlap : Bytes → Bytes → Out Unit Bytes) : Prop := ∀ text r tail : Bytes, 0 ∉ text →
  overlap (text ++ 0 :: r) tail =
    if (text ++ tail).length + 1 ≤ (text ++ 0 :: r).length then .ok (text ++ tail ++ 0 :: (text ++ 0 :: r).drop ((text ++ tail).length + 1)) else .ub

/-- What the standard says: a copy between objects that overlap is undefined (C11 7.21.6.6). -/
def standard : Bytes → Bytes → Out Unit Bytes := fun _ _ => .ub

end Verif.Spec.StorePath

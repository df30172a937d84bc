import Verif.Base
/-
Equality of names up to the case of ASCII letters.
-/
namespace Verif.Spec.Tld

/-- The lower-case form of an ASCII letter, anything else unchanged. -/
def fold (c : UInt8) : Nat := if 65 ≤ c.toNat ∧ c.toNat ≤ 90 then c.toNat + 32 else c.toNat

def SameName (a b : Bytes) : Prop := a.map fold = b.map fold

end Verif.Spec.Tld

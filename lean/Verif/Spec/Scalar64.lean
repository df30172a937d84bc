import Verif.Model.Scalar64
import Verif.Spec.Secp
/-
What four words stand for: the number they write in base 2^64, and the residue modulo the order of the base point.
-/
namespace Verif.Spec.Scalar64
open Verif Verif.Scalar64 Verif.Spec.Secp

/-- The number the words write. -/
def val (a : Sc) : Nat := a.d0 + a.d1 * 2 ^ 64 + a.d2 * 2 ^ 128 + a.d3 * 2 ^ 192

/-- The words are words. -/
def Words (a : Sc) : Prop := a.d0 < 2 ^ 64 ∧ a.d1 < 2 ^ 64 ∧ a.d2 < 2 ^ 64 ∧ a.d3 < 2 ^ 64

/-- The words are the residue `x`, in the only way that is allowed: as a number below the order. -/
def Holds (a : Sc) (x : ZMod n) : Prop := Words a ∧ val a = x.val

end Verif.Spec.Scalar64

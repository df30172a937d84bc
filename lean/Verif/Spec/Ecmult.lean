import Verif.Model.Ecmult
import Verif.Spec.Group52
/-
The value of digits in base 2, what a digit may be, and what the table of the base point should hold.
-/
namespace Verif.Spec.Ecmult
open Verif Verif.Spec.Secp Verif.Ec52 Verif.EcmultGen

/-- The number with these digits, the lowest first. -/
def value : List Int → Int
  | [] => 0
  | d :: l => d + 2 * value l

/-- A digit for windows of `w` bits: 0, or odd and below `2^(w-1)`. -/
def Digit (w : Nat) (d : Int) : Prop := d = 0 ∨ (d % 2 = 1 ∧ -(2 ^ (w - 1)) < d ∧ d < 2 ^ (w - 1))

/-- The table holds the odd multiples of the base point up to `2^15 - 1`, in affine coordinates. -/
def Odds (pg : List Pubkey) : Prop :=
  pg.length = 2 ^ 14 ∧ ∀ (j : Nat) (e : Pubkey), pg[j]? = some e → IsAff 1 (geFromStorage e) ((2 * j + 1) • G)

end Verif.Spec.Ecmult

import Verif.Model.EcmultConst
/-
The number signed digits in base 16 write, the least first, and the digits for which the table of odd multiples has an entry.
-/
namespace Verif.Spec.EcmultConst

/-- The number. -/
def value : List Int → Int
  | [] => 0
  | d :: l => d + 16 * value l

/-- Odd, and at most 15 either way. -/
def Digit (d : Int) : Prop := d % 2 = 1 ∧ -15 ≤ d ∧ d ≤ 15

end Verif.Spec.EcmultConst

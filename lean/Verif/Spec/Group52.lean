import Verif.Model.Ec52
import Verif.Spec.Field52
/-
When words stand for a point of the curve in Jacobian coordinates: `x = X / Z²`, `y = Y / Z³`.
-/
namespace Verif.Ec52
open Verif Verif.Spec.Secp Verif.Field52

/-- The words of the three coordinates, of magnitude at most 8, stand for the point: the flag says whether it is the
point at infinity, and otherwise `X = x (Z g)²` and `Y = y (Z g)³` with `Z` not 0. The factor `g` is 1 but for points
whose coordinates have been multiplied beforehand. -/
def IsJac (g : F) (a : Gej) : Point → Prop
  | .zero => a.infinity = true ∧ Mag 8 a.x ∧ Mag 8 a.y ∧ Mag 8 a.z
  | .some x y _ => a.infinity = false ∧
      ∃ z, z ≠ 0 ∧ Stands 8 a.x (x * (z * g) ^ 2) ∧ Stands 8 a.y (y * (z * g) ^ 3) ∧ Stands 8 a.z z

/-- The words of the two coordinates stand for a point that is not the point at infinity, up to the factor. -/
def IsAff (g : F) (b : Ge) : Point → Prop
  | .zero => False
  | .some x y _ => b.infinity = false ∧ Stands 8 b.x (x * g ^ 2) ∧ Stands 8 b.y (y * g ^ 3)

end Verif.Ec52

import Verif.Model.Ec52
import Verif.Spec.Field52
/-
When words stand for a point of the curve, and the states a generator goes through.
-/
namespace Verif.Ec52
open Verif Verif.Spec.Secp Verif.Field52 Verif.Ecdsa

/-- The words of the affine coordinates, of magnitude at most `m`, stand for the point; the flag alone says that it is
the point at infinity. -/
def IsPoint (m : Nat) (g : Ge) : Point → Prop
  | .zero => g.infinity = true
  | .some x y _ => g.infinity = false ∧ Stands m g.x x ∧ Stands m g.y y

/-- The states a generator goes through when 32 bytes or one are drawn each time. -/
inductive Reached (g : Rng) : Rng → Prop
  | start : Reached g g
  | word {h : Rng} : Reached g h → Reached g (rngGenerate h 32).1
  | byte {h : Rng} : Reached g h → Reached g (rngGenerate h 1).1

end Verif.Ec52

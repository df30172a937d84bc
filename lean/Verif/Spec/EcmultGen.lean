import Verif.Model.EcmultGen
import Verif.Spec.Group52
import Verif.Spec.Scalar64
/-
When a context for products of the base point is right: the point it starts with is the opposite of the multiple it blinds with.
-/
namespace Verif.Spec.EcmultGen
open Verif Verif.Spec.Secp Verif.Field52 Verif.Ec52 Verif.EcmultGen Verif.Spec.Scalar64

/-- The blinding is `b`: the number kept, and the opposite of its multiple of the base point. -/
def Blinded (c : Ctx) (b : ZMod n) : Prop := Holds c.blind b ∧ IsJac 1 c.initial (-(b.val • G))

/-- The contexts the program can have: a new one, in memory with any contents, randomized any number of times. -/
inductive Made : Ctx → Prop
  | build {fuel : Nat} {mem c : Ctx} : build fuel mem = some c → Made c
  | randomize {fuel : Nat} {c c' : Ctx} {seed : Bytes} : Made c → randomize fuel c seed = some c' → Made c'

end Verif.Spec.EcmultGen

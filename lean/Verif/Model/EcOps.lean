import Verif.Model.Ec
import Verif.Spec.Transport
/-
The program's curve operations in the place of the parameters of Verif/Spec/Transport.lean.
-/
namespace Verif.EcOps
open Verif Verif.Spec.Secp

/-- The value of a routine that succeeded. -/
def toOption {α : Type} : Out Unit α → Option α
  | .ok a => some a
  | _ => none

/-- What src/brontide.c calls of src/ec.c: ec.c:72-90, 199-218, 220-241, 243-265 and 44-49. `draw` is the generator that
`hsk_ec_pubkey_to_hash` seeds with the entropy it is given, `fuel` the number of rounds its loop is allowed. An `abort` in
`hsk_ec_pubkey_from_hash` counts as a failure, which the model of src/brontide.c turns into `ub`. -/
noncomputable def ops (draw : Bytes → Nat → F × Nat) (fuel : Nat) : Spec.Transport.Curve where
  pubOf key := toOption (Ec.createPubkey key)
  ecdh pub key := toOption (Ec.ecdh pub key)
  toHash pub entropy := toOption (Elligator.toHash (draw entropy) fuel pub)
  fromHash b := toOption (Elligator.fromHash b)
  okKey := Ec.verifyPubkey

end Verif.EcOps

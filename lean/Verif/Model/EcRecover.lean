import Verif.Model.Ecmult
/-
Model of the recovery of the public key from a signature in `src/ec.c`, with `src/secp256k1/recovery_impl.h`, on words.

* The signature that is kept between parsing and recovery is its two scalars and the number from 0 to 3 (`src/secp256k1/recovery_impl.h:12-38`).
* A failed ARG_CHECK calls the default callback, which ends the process (`src/secp256k1/secp256k1.c:29-33`): `ub`.
* `hsk_hash_blake2b` is the parameter `hash`.
-/
namespace Verif.EcRecover
open Verif Verif.Field52 Verif.Ec52 Verif.EcmultConst Verif.Ecmult
open Verif.Scalar64 (Sc)

/-- The abscissa of the point (src/secp256k1/recovery_impl.h:100-109). -/
def recoverX (sigr : Sc) (recid : Nat) : Option Fe :=
  let brx := Scalar64.getB32 sigr
  let fx := (Field52.setB32 brx).1
  if recid &&& 2 ≠ 0 then
    if cmpVar fx pMinusOrder ≥ 0 then none
    else some (add fx orderAsFe)
  else some fx

/-- The public key from the point (src/secp256k1/recovery_impl.h:113-120). -/
def recoverKey (J : Junk) (pg : List Pubkey) (sigr sigs : Sc) (x : Ge) (message : Sc) : Option Ge :=
  let xj := gejSetGe x
  let rn := Scalar64.inverse sigr
  let u1 := Scalar64.mul rn message
  let u1 := Scalar64.negate u1
  let u2 := Scalar64.mul rn sigs
  let qj := ecmult J pg xj u2 u1
  let pubkey := geSetGej qj
  if !qj.infinity then some pubkey else none

/-- ecdsa_sig_recover (src/secp256k1/recovery_impl.h:87-121). -/
def sigRecover (J : Junk) (pg : List Pubkey) (sigr sigs message : Sc) (recid : Nat) : Option Ge :=
  if Scalar64.isZero sigr || Scalar64.isZero sigs then none
  else (recoverX sigr recid).bind fun fx => (setXo fx (decide (recid &&& 1 ≠ 0))).bind fun x => recoverKey J pg sigr sigs x message

/-- ecdsa_recover (src/secp256k1/recovery_impl.h:170-191). -/
def ecdsaRecover (J : Junk) (pg : List Pubkey) (sig : Sc × Sc) (recid : Nat) (msg : Bytes) : Option Pubkey :=
  let m := (Scalar64.setB32 msg).1
  (sigRecover J pg sig.1 sig.2 m recid).map pubkeySave

/-- hsk_ec_recover (src/ec.c:148-176), with ecdsa_recoverable_signature_parse_compact (src/secp256k1/recovery_impl.h:40-58). The number for recovery
is any `int`. -/
def recover (J : Junk) (pg : List Pubkey) (msg sig : Bytes) (rec : Int) : Out Unit Bytes :=
  if 0 ≤ rec ∧ rec ≤ 3 then
    match parseCompact sig with
    | none => .err ()
    | some s =>
      match ecdsaRecover J pg s rec.toNat msg with
      | none => .err ()
      | some pub => serialize pub
  else .ub

/-- hsk_ec_verify_hash (src/ec.c:179-197). -/
def verifyHash (J : Junk) (pg : List Pubkey) (hash : Bytes → Bytes) (msg sig : Bytes) (rec : Int) (keyhash : Bytes) : Out Unit Bool :=
  match recover J pg msg sig rec with
  | .ok key => .ok (hash key == keyhash)
  | .err _ => .ok false
  | .ub => .ub

end Verif.EcRecover

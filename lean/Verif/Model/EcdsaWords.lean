import Verif.Model.EcmultGen
import Verif.Model.SecpHash
/-
Model of signing in `src/ec.c` on words: `src/secp256k1/ecdsa_impl.h` and `src/secp256k1/recovery_impl.h` over the scalars of
Model/Scalar64, the products of the base point of Model/EcmultGen and the hashes of Model/SecpHash.
-/
namespace Verif.EcdsaWords
open Verif Verif.Field52 Verif.Ec52 Verif.EcmultGen
open Verif.Scalar64 (Sc)

/-- ecdsa_sig_sign (src/secp256k1/ecdsa_impl.h:271-312) after the product of the base point, which is `rp`. -/
def sigFrom (rp : Gej) (seckey message nonce : Sc) : Option (Sc × Sc × Nat) :=
  let r := geSetGej rp
  let x := normalize r.x
  let y := normalize r.y
  let b := Field52.getB32 x
  let sr := Scalar64.setB32 b
  let sigr := sr.1
  let recid := (if sr.2 ≠ 0 then 2 else 0) ||| (if isOdd y ≠ 0 then 1 else 0)
  let n := Scalar64.mul sigr seckey
  let n := (Scalar64.add n message).1
  let sigs := Scalar64.inverse nonce
  let sigs := Scalar64.mul sigs n
  if Scalar64.isZero sigs then none
  else if Scalar64.isHigh sigs then some (sigr, Scalar64.negate sigs, recid ^^^ 1)
  else some (sigr, sigs, recid)

/-- ecdsa_sig_sign (src/secp256k1/ecdsa_impl.h:271-312). -/
def sigSign (c : Ctx) (seckey message nonce : Sc) : Option (Sc × Sc × Nat) := sigFrom (ecmultGen c nonce) seckey message nonce

/-- The loop of ecdsa_sign_recoverable (src/secp256k1/recovery_impl.h:144-156). `fuel` bounds the number of turns, which the code
does not. -/
def signLoop (c : Ctx) (noncefp : Nat → Out Unit Bytes) (sec msg : Sc) : Nat → Nat → Out Unit (Option (Sc × Sc × Nat))
  | 0, _ => .ok none
  | fuel + 1, count =>
    (noncefp count).bind fun nonce32 =>
    let non := Scalar64.setB32 nonce32
    if !Scalar64.isZero non.1 && !decide (non.2 ≠ 0) then
      match sigSign c sec msg non.1 with
      | some r => .ok (some r)
      | none => signLoop c noncefp sec msg fuel (count + 1)
    else signLoop c noncefp sec msg fuel (count + 1)

/-- ecdsa_sign_recoverable (src/secp256k1/recovery_impl.h:123-168). -/
def signRecoverable (c : Ctx) (noncefp : Nat → Out Unit Bytes) (fuel : Nat) (msg32 seckey : Bytes) : Out Unit (Option (Sc × Sc × Nat)) :=
  let sec := Scalar64.setB32 seckey
  if !decide (sec.2 ≠ 0) && !Scalar64.isZero sec.1 then
    let msg := (Scalar64.setB32 msg32).1
    signLoop c noncefp sec.1 msg fuel 0
  else .ok none

/-- ecdsa_recoverable_signature_serialize_compact (src/secp256k1/recovery_impl.h:60-72). The signature is kept as the memory of the
two scalars (src/secp256k1/recovery_impl.h:12-38), so what is loaded is what was saved. -/
def serializeCompact (s : Sc × Sc × Nat) : Bytes × Nat := (Scalar64.getB32 s.1 ++ Scalar64.getB32 s.2.1, s.2.2)

/-- hsk_ec_sign_msg (src/ec.c:92-121). `mem`: what the memory of the hashes holds beforehand. -/
def signMsg (c : Ctx) (mem : Nat → Bytes) (fuel : Nat) (key msg : Bytes) : Out Unit (Option (Bytes × Nat)) :=
  (signRecoverable c (SecpHash.nonce mem msg key) fuel msg key).bind fun s => .ok (s.map serializeCompact)

end Verif.EcdsaWords

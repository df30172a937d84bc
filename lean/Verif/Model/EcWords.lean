import Verif.Model.EcmultConst
import Verif.Model.SecpHash
/-
Model of hsk_ec_ecdh with the words of the library: `src/ec.c` and `src/secp256k1/ecdh_impl.h` over Model/Ec52,
Model/Scalar64, Model/EcmultConst and Model/SecpHash. Model/Ec has the same routine on the points of the curve.
-/
namespace Verif.EcWords
open Verif Verif.Field52 Verif.Ec52 Verif.EcmultConst

/-- The bytes that are hashed (src/secp256k1/ecdh_impl.h:33-41). `r` is the product. -/
def secretBytes (r : Gej) : List Bytes :=
  let pt := geSetGej r
  let x := normalize pt.x
  let y := normalize pt.y
  [[UInt8.ofNat (2 ||| Field52.isOdd y)], Field52.getB32 x]

/-- hsk_secp256k1_ecdh (src/secp256k1/ecdh_impl.h:13-52). `J` and `mem` are what the memory holds that the product and
the digest use. -/
def secpEcdh (J : Junk) (mem : Bytes) (pub : Pubkey) (key : Bytes) : Out Unit Bytes :=
  match pubkeyLoad pub with
  | .ok pt =>
    let s := Scalar64.setB32 key
    if s.2 ≠ 0 ∨ Scalar64.isZero s.1 then .err ()
    else SecpHash.sha256 mem (secretBytes (ecmultConst J pt s.1))
  | .err e => .err e
  | .ub => .ub

/-- hsk_ec_ecdh (src/ec.c:199-218). -/
def ecdh (J : Junk) (mem : Bytes) (pubkey key : Bytes) : Out Unit Bytes :=
  match parse pubkey with
  | none => .err ()
  | some pub => secpEcdh J mem pub key

end Verif.EcWords

import Verif.Model.Elligator
import Verif.Spec.Sha256
/-
Model of the rest of `src/ec.c` that the program uses: private and public keys and the common secret, with the
parts of `src/secp256k1/secp256k1.c` and `src/secp256k1/ecdh_impl.h` behind them. hsk_ec_randomize blinds the
computation and has no effect on its results; hsk_ec_sign_msg, hsk_ec_verify_msg, hsk_ec_recover and
hsk_ec_verify_hash, of which the `SIG(0)` records use two, are not modelled here.

The library's own SHA-256 (`hash_impl.h`) is that of the standard (C79).
-/
namespace Verif.Ec
open Verif Verif.Spec.Secp Verif.Elligator

/-- hsk_ec_verify_privkey (ec.c:38-42) and hsk_secp256k1_ec_seckey_verify (secp256k1.c:406-417): the overflow flag of
`scalar_set_b32` says whether the number is at least the order. -/
def verifyPrivkey (key : Bytes) : Bool := !decide (n ≤ beNat key) && !decide (beNat key = 0)

/-- hsk_ec_verify_pubkey (ec.c:44-49). -/
def verifyPubkey (key : Bytes) : Bool := (parse key).isSome

/-- hsk_ec_create_privkey (ec.c:51-70): `rand i` is what the `i`-th call of `hsk_randombytes` yields. -/
def createPrivkeyLoop (rand : Nat → Option Bytes) : Nat → Nat → Bytes → Option Bytes
  | 0, _, _ => none
  | f + 1, i, key =>
    if verifyPrivkey key then some key
    else if i > 1000 then none
    else match rand i with
      | none => none
      | some key => createPrivkeyLoop rand f (i + 1) key

def createPrivkey (rand : Nat → Option Bytes) : Option Bytes :=
  createPrivkeyLoop rand 1003 0 (List.replicate 32 0)

/-- `ecmult_gen` or `ecmult_const`, and `ge_set_gej` (group_impl.h:100-111). The coordinates of the point at infinity
are taken to be 0, the inverse of `z = 0` being 0. -/
def affine : Point → Ge
  | .zero => ⟨0, 0, true⟩
  | .some x y _ => ⟨x, y, false⟩

/-- hsk_ec_create_pubkey (ec.c:72-90) and hsk_secp256k1_ec_pubkey_create (secp256k1.c:419-440). -/
noncomputable def createPubkey (key : Bytes) : Out Unit Bytes :=
  if verifyPrivkey key then
    let p := affine (beNat key • G)
    serialize (p.x, p.y)
  else .err ()

/-- hsk_secp256k1_ecdh (ecdh_impl.h:13-52) of the coordinates of the point. The point is loaded before the key is
looked at; a point off the curve has no multiples. -/
noncomputable def secpEcdh (pub : F × F) (key : Bytes) : Out Unit Bytes :=
  match pubkeyLoad pub with
  | .ok pt =>
    if n ≤ beNat key ∨ beNat key = 0 then .err ()
    else if h : pt.y ^ 2 = pt.x ^ 3 + 7 then
      let r := affine (beNat key • (WeierstrassCurve.Affine.Point.some pt.x pt.y ((on_iff _ _).2 h) : Point))
      .ok (Spec.Sha256.sha256 ((2 ||| (if isOdd r.y then 1 else 0)) :: getB32 r.x))
    else .ub
  | .err e => .err e
  | .ub => .ub

/-- hsk_ec_ecdh (ec.c:199-218). -/
noncomputable def ecdh (pubkey key : Bytes) : Out Unit Bytes :=
  match parse pubkey with
  | none => .err ()
  | some pub => secpEcdh pub key

end Verif.Ec

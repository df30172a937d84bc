import Verif.Spec.Aead
import Verif.Spec.Hmac
import Verif.Spec.Brontide
/-
The primitives of the transport: SHA-256, HKDF and the AEAD as their standards define them; the curve
is left open.
-/
namespace Verif.Spec.Transport
open Verif.Brontide

/-- The operations on the curve. -/
structure Curve where
  pubOf : Bytes → Option Bytes
  ecdh : Bytes → Bytes → Option Bytes
  toHash : Bytes → Bytes → Option Bytes
  fromHash : Bytes → Option Bytes
  okKey : Bytes → Bool

/-- The primitives, given a curve. Without additional data the AEAD is used with an empty string; its
output when decrypting is the text and the tag the ciphertext should have. -/
def prims (C : Curve) : Prim where
  sha := Spec.Sha256.sha256
  hkdf secret salt := ((Spec.Hmac.hkdf salt secret [] 64).take 32, (Spec.Hmac.hkdf salt secret [] 64).drop 32)
  enc key iv ad x := Spec.Aead.encrypt key iv (ad.getD []) x
  dec key iv ad c := (Spec.Aead.crypt key iv c, Spec.Aead.tag key iv (ad.getD []) c)
  pubOf := C.pubOf
  ecdh := C.ecdh
  toHash := C.toHash
  fromHash := C.fromHash
  okKey := C.okKey

/-- What is asked of the curve. -/
structure CurveLaws (C : Curve) : Prop where
  pub_len : ∀ k p, C.pubOf k = some p → p.length = 33
  pub_ok : ∀ k p, C.pubOf k = some p → C.okKey p = true
  hash_len : ∀ p r u, C.toHash p r = some u → u.length = 64
  hash_inv : ∀ p r u, C.toHash p r = some u → C.fromHash u = some p
  ecdh_symm : ∀ a b pa pb, C.pubOf a = some pa → C.pubOf b = some pb → C.ecdh pa b = C.ecdh pb a
  ecdh_def : ∀ p k q, C.okKey p = true → C.pubOf k = some q → C.ecdh p k ≠ none

end Verif.Spec.Transport

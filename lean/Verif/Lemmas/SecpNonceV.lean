import Verif.Lemmas.EcdsaSign
/-
The random number of a signature with the private key 1, one HMAC at a time.
-/
namespace Verif.Lemmas.SecpNonce
open Verif Verif.Spec.Hmac Verif.Spec.Secdsa Verif.Ecdsa

theorem v1 : hmac (List.replicate 32 0) (List.replicate 32 1 ++ [0] ++ beBytes 32 1 ++ (beBytes 32 0xa0dc65ffca799873cbea0ac274015b9526505daaaed385155425f7337704883e)) = (beBytes 32 0x0b663006e369d6851668b59760c0cfbaa5d09e23e6f916443b3de4d558bf91b7) := by decide +kernel
theorem v2 : hmac (beBytes 32 0x0b663006e369d6851668b59760c0cfbaa5d09e23e6f916443b3de4d558bf91b7) (List.replicate 32 1) = (beBytes 32 0x616cad1051aebe08197d002dbdb90bdc2bb6b65b3d768c518863056a840c03f0) := by decide +kernel
theorem v3 : hmac (beBytes 32 0x0b663006e369d6851668b59760c0cfbaa5d09e23e6f916443b3de4d558bf91b7) ((beBytes 32 0x616cad1051aebe08197d002dbdb90bdc2bb6b65b3d768c518863056a840c03f0) ++ [1] ++ beBytes 32 1 ++ (beBytes 32 0xa0dc65ffca799873cbea0ac274015b9526505daaaed385155425f7337704883e)) = (beBytes 32 0xf457c01688026ee0b9236e5c7ff1478007ad0b697855f592efa9468ecf0c1f86) := by decide +kernel
theorem v4 : hmac (beBytes 32 0xf457c01688026ee0b9236e5c7ff1478007ad0b697855f592efa9468ecf0c1f86) (beBytes 32 0x616cad1051aebe08197d002dbdb90bdc2bb6b65b3d768c518863056a840c03f0) = (beBytes 32 0xa196437a8f26fbc9e519e4fd4b5d10d62e6a5306c98ca431b96131f403bff4ae) := by decide +kernel
theorem v5 : hmac (beBytes 32 0xf457c01688026ee0b9236e5c7ff1478007ad0b697855f592efa9468ecf0c1f86) (beBytes 32 0xa196437a8f26fbc9e519e4fd4b5d10d62e6a5306c98ca431b96131f403bff4ae) = (beBytes 32 0x8f8a276c19f4149656b280621e358cce24f5f52542772691ee69063b74f15d15) := by decide +kernel
theorem v : (state (beBytes 32 1) (beBytes 32 0xa0dc65ffca799873cbea0ac274015b9526505daaaed385155425f7337704883e) 0).2 = (beBytes 32 0x8f8a276c19f4149656b280621e358cce24f5f52542772691ee69063b74f15d15) := by
  rw [state, start]
  dsimp only
  rw [v1, v2, v3, v4, v5]

end Verif.Lemmas.SecpNonce

import Verif.Lemmas.SecpNonceV
/-
The random number of a signature with the private key 1, one HMAC at a time.
-/
namespace Verif.Lemmas.SecpNonce
open Verif Verif.Spec.Hmac Verif.Spec.Secdsa Verif.Ecdsa

theorem f1 : hmac (List.replicate 32 0) (List.replicate 32 1 ++ [0] ++ beBytes 32 1 ++ (beBytes 32 0xffffffffffffffffffffffffffffffffffffffffffffffffffffffffffffffff)) = (beBytes 32 0x2d795663d47dccce2fe606fc37d7e1ce537d21ee4c9c90f4278552650cf6af8f) := by decide +kernel
theorem f2 : hmac (beBytes 32 0x2d795663d47dccce2fe606fc37d7e1ce537d21ee4c9c90f4278552650cf6af8f) (List.replicate 32 1) = (beBytes 32 0xf5d52bba758e28010aa1b49bb365726507eb60c22d4e089bea840d3c7ee4a4ea) := by decide +kernel
theorem f3 : hmac (beBytes 32 0x2d795663d47dccce2fe606fc37d7e1ce537d21ee4c9c90f4278552650cf6af8f) ((beBytes 32 0xf5d52bba758e28010aa1b49bb365726507eb60c22d4e089bea840d3c7ee4a4ea) ++ [1] ++ beBytes 32 1 ++ (beBytes 32 0xffffffffffffffffffffffffffffffffffffffffffffffffffffffffffffffff)) = (beBytes 32 0x1f0b200ef671cc37fdd16ab492e31d47a32fa681be57c4d455f563ff3b3f27ee) := by decide +kernel
theorem f4 : hmac (beBytes 32 0x1f0b200ef671cc37fdd16ab492e31d47a32fa681be57c4d455f563ff3b3f27ee) (beBytes 32 0xf5d52bba758e28010aa1b49bb365726507eb60c22d4e089bea840d3c7ee4a4ea) = (beBytes 32 0x2244bfe4b6ab56d8b179a3e4e2e1db0741f723b09cf8c2d4e5889198f5b14798) := by decide +kernel
theorem f5 : hmac (beBytes 32 0x1f0b200ef671cc37fdd16ab492e31d47a32fa681be57c4d455f563ff3b3f27ee) (beBytes 32 0x2244bfe4b6ab56d8b179a3e4e2e1db0741f723b09cf8c2d4e5889198f5b14798) = (beBytes 32 0x1a3bf84f9a0fd1fff4655ba0ec976b542621fd87b88c3ca6770d4183cbc0e741) := by decide +kernel
theorem f : (state (beBytes 32 1) (beBytes 32 0xffffffffffffffffffffffffffffffffffffffffffffffffffffffffffffffff) 0).2 = (beBytes 32 0x1a3bf84f9a0fd1fff4655ba0ec976b542621fd87b88c3ca6770d4183cbc0e741) := by
  rw [state, start]
  dsimp only
  rw [f1, f2, f3, f4, f5]

end Verif.Lemmas.SecpNonce

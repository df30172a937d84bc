import Verif.Lemmas.SecpNonceF
/-
The random number of a signature with the private key 1, one HMAC at a time.
-/
namespace Verif.Lemmas.SecpNonce
open Verif Verif.Spec.Hmac Verif.Spec.Secdsa Verif.Ecdsa

theorem g1 : hmac (List.replicate 32 0) (List.replicate 32 1 ++ [0] ++ beBytes 32 1 ++ (beBytes 32 0x000000000000000000000000000000014551231950b75fc4402da1732fc9bebe)) = (beBytes 32 0xa6b57c77b674df2a3c2f36042e2ff950db7b47004a1e00357954dc1efde8377e) := by decide +kernel
theorem g2 : hmac (beBytes 32 0xa6b57c77b674df2a3c2f36042e2ff950db7b47004a1e00357954dc1efde8377e) (List.replicate 32 1) = (beBytes 32 0x4fbbf944e821ff5115949d87b5d25cc2029defde27f857abdbf2db58803600ed) := by decide +kernel
theorem g3 : hmac (beBytes 32 0xa6b57c77b674df2a3c2f36042e2ff950db7b47004a1e00357954dc1efde8377e) ((beBytes 32 0x4fbbf944e821ff5115949d87b5d25cc2029defde27f857abdbf2db58803600ed) ++ [1] ++ beBytes 32 1 ++ (beBytes 32 0x000000000000000000000000000000014551231950b75fc4402da1732fc9bebe)) = (beBytes 32 0xb09dfd34dc9971afc876691946a7853b206081823052c67b766abb22cd527ab1) := by decide +kernel
theorem g4 : hmac (beBytes 32 0xb09dfd34dc9971afc876691946a7853b206081823052c67b766abb22cd527ab1) (beBytes 32 0x4fbbf944e821ff5115949d87b5d25cc2029defde27f857abdbf2db58803600ed) = (beBytes 32 0x2f5b5685ab55a2e1a9dc9dc91917ae4238feb6d4da95fc8f408fbe7804595478) := by decide +kernel
theorem g5 : hmac (beBytes 32 0xb09dfd34dc9971afc876691946a7853b206081823052c67b766abb22cd527ab1) (beBytes 32 0x2f5b5685ab55a2e1a9dc9dc91917ae4238feb6d4da95fc8f408fbe7804595478) = (beBytes 32 0x71139aac71b52f7d5961915af1b30f94baf35e39b0043c33d41a57d476a8905c) := by decide +kernel
theorem g : (state (beBytes 32 1) (beBytes 32 0x000000000000000000000000000000014551231950b75fc4402da1732fc9bebe) 0).2 = (beBytes 32 0x71139aac71b52f7d5961915af1b30f94baf35e39b0043c33d41a57d476a8905c) := by
  rw [state, start]
  dsimp only
  rw [g1, g2, g3, g4, g5]

end Verif.Lemmas.SecpNonce

import Verif.Lemmas.SecpHash
import Verif.Lemmas.EcdsaSign
/-
C79: the hash functions of the library for secp256k1. The contents of the memory its routines find are arbitrary.
-/
namespace Verif.Props.SecpHash
open Verif.SecpHash Verif.Spec.Secdsa

/-- C79. However a message is cut into writes, the result is the SHA-256 digest of the whole, and no access is out of bounds. -/
theorem C79_sha256 {mem : Bytes} (h : mem.length = 64) (l : List Bytes) : sha256 mem l = .ok (Spec.Sha256.sha256 l.flatten) :=
  sha256_eq h l

/-- C79. It is the digest the program's other implementation makes of the same message, however that is cut. -/
theorem C79_same {mem mem' : Bytes} (h : mem.length = 64) (h' : mem'.length = 64) (l : List Bytes) (l' : List (Bool × Bytes)) (al : Bool)
    (he : l.flatten = (l'.map (·.2)).flatten) : ∃ d, sha256 mem l = .ok d ∧ Verif.Sha256.hashOf mem' l' al = .ok d :=
  ⟨_, sha256_eq h l, by rw [Hash.hashOf_eq h', he]⟩

/-- C79. The keyed hash is HMAC, for keys and messages of any length. -/
theorem C79_hmac {mem : Nat → Bytes} (h : ∀ i, (mem i).length = 64) (key : Bytes) (l : List Bytes) :
    hmac mem key l = .ok (Spec.Hmac.hmac key l.flatten) := hmac_eq h key l

/-- C79. The candidates for the random number of a signature are those of RFC 6979 for key and digest, each of 32 bytes. -/
theorem C79_nonce {mem : Nat → Bytes} (h : ∀ i, (mem i).length = 64) (msg key : Bytes) (i : Nat) :
    ∃ b, nonce mem msg key i = .ok b ∧ b.length = 32 ∧ beNat b = candidate key msg i ∧ b = Verif.Ecdsa.nonce msg key i :=
  ⟨_, nonce_eq h msg key i, by rw [Verif.Lemmas.EcdsaSign.nonce_eq]; exact state_length _ _ _, Verif.Lemmas.EcdsaSign.nonce_candidate msg key i, rfl⟩

/-- Memory as the theorems ask for it, and the first example of FIPS 180-4 in two writes. -/
example : (∀ i : Nat, ((fun _ => List.replicate 64 7) i : Bytes).length = 64) := fun _ => rfl
example : sha256 (List.replicate 64 7) ["a".toUTF8.toList, "bc".toUTF8.toList] =
    .ok (beBytes 32 0xba7816bf8f01cfea414140de5dae2223b00361a396177a9cb410ff61f20015ad) := by decide +kernel
example : (["a".toUTF8.toList, "bc".toUTF8.toList] : List Bytes).flatten = ([(true, "abc".toUTF8.toList)].map (·.2)).flatten := by decide +kernel

end Verif.Props.SecpHash

import Verif.Lemmas.Sha3
/-
C69: SHA-3.
-/
namespace Verif.Props.Sha3
open Verif.Sha3

/-- C69. However a message is cut into updates, and at whatever alignment, the result is the digest SHA-3
defines for the whole, for each of its four sizes; no assertion fails and no access is out of bounds. -/
theorem C69_sha3 (d : Nat) (hd : d = 224 ∨ d = 256 ∨ d = 384 ∨ d = 512) (l : List (Bool × Bytes)) :
    hashOf d l = .ok (Spec.Sha3.sha3 d (l.map (·.2)).flatten) := hashOf_spec d hd l

/-- C69. The hash of a name, under which its state is found in the tree, is its SHA3-256 digest, of 32 bytes. -/
theorem C69_name (al : Bool) (name : Bytes) :
    hashName al name = .ok (Spec.Sha3.sha3 256 name) ∧ (Spec.Sha3.sha3 256 name).length = 32 := by
  refine ⟨?_, sha3_length name⟩
  rw [hashName, hashOf_spec 256 (.inr (.inl rfl))]
  simp

/-- The specification on the empty text and on the example of the standard, and the routine on the same text in two updates. -/
example : Spec.Sha3.sha3 256 [] = beBytes 32 0xa7ffc6f8bf1ed76651c14756a061d662f580ff4de43b49fa82d80a4b80f8434a := by decide +kernel
example : Spec.Sha3.sha3 256 "abc".toUTF8.toList = beBytes 32 0x3a985da74fe225b2045c172d6bd390bd855f086e3e9d525b46bfe24511431532 := by
  decide +kernel
set_option maxRecDepth 100000 in
example : hashOf 256 [(true, "a".toUTF8.toList), (false, "bc".toUTF8.toList)] =
    .ok (beBytes 32 0x3a985da74fe225b2045c172d6bd390bd855f086e3e9d525b46bfe24511431532) := by decide +kernel
end Verif.Props.Sha3

import Verif.Lemmas.Hash
/-
C63 and C64: SHA-256, HMAC and HKDF. The contents of the memory the routines find, and the
alignment of the pointers handed to them, are arbitrary.
-/
namespace Verif.Props.Sha256
open Verif.Hash

/-- C63. However a message is cut into updates, the result is the SHA-256 digest of the whole, and
no access is out of bounds. -/
theorem C63_sha256 {mem : Bytes} (h : mem.length = 64) (l : List (Bool × Bytes)) (al : Bool) :
    Sha256.hashOf mem l al = .ok (Spec.Sha256.sha256 (l.map (·.2)).flatten) := hashOf_eq h l al

/-- C63. The hash of one buffer, and the double hash. -/
theorem C63_oneshot {mem : Bytes} (h : mem.length = 64) (al : Nat → Bool) (data : Bytes) :
    Hash.sha256 al mem data = .ok (Spec.Sha256.sha256 data) ∧
    Hash.hash256 al mem data = .ok (Spec.Sha256.sha256 (Spec.Sha256.sha256 data)) := by
  refine ⟨?_, hash256_eq h al data⟩
  rw [Hash.sha256, hashOf_eq h]
  simp

/-- The specification on the examples of FIPS 180-4 (the second is of two blocks), and the routine
on the first, in two updates, with odd pointers and memory that is not zero. -/
example : Spec.Sha256.sha256 "abc".toUTF8.toList = beBytes 32 0xba7816bf8f01cfea414140de5dae2223b00361a396177a9cb410ff61f20015ad := by
  decide +kernel
example : Spec.Sha256.sha256 "abcdbcdecdefdefgefghfghighijhijkijkljklmklmnlmnomnopnopq".toUTF8.toList =
    beBytes 32 0x248d6a61d20638b8e5c026930c3e6039a33ce45964ff2167f6ecedd419db06c1 := by decide +kernel
example : Sha256.hashOf (List.replicate 64 7) [(true, "a".toUTF8.toList), (false, "bc".toUTF8.toList)] false =
    .ok (beBytes 32 0xba7816bf8f01cfea414140de5dae2223b00361a396177a9cb410ff61f20015ad) := by decide +kernel

/-- C64. The keyed hash is HMAC, for keys and messages of any length. -/
theorem C64_hmac {mem : Nat → Bytes} (h : ∀ i, (mem i).length = 64) (al : Nat → Bool) (data key : Bytes) :
    Hash.hmac al mem data key = .ok (Spec.Hmac.hmac key data) := hmac_eq h al data key

/-- C64. The two keys derived are the two halves of the 64 bytes HKDF yields. -/
theorem C64_hkdf {mem : Nat → Bytes} (h : ∀ i, (mem i).length = 64) (al : Nat → Bool) (buf secret salt info : Bytes)
    (hi : info.length ≤ 512) (hb : buf.length = 32 + info.length + 1) :
    ∃ h1 h2, Hash.hkdf al mem buf secret salt info = .ok (h1, h2) ∧ h1 ++ h2 = Spec.Hmac.hkdf salt secret info 64 ∧
      h1.length = 32 ∧ h2.length = 32 := by
  refine ⟨_, _, hkdf_eq h al buf secret salt info hi hb, List.take_append_drop _ _, ?_⟩
  have := expand_64 (Spec.Hmac.hmac (Spec.Hmac.extract salt secret)) info (hmac_length _)
  unfold Spec.Hmac.hkdf
  rw [this, List.take_left' (hmac_length _ _), List.drop_left' (hmac_length _ _)]
  exact ⟨hmac_length _ _, hmac_length _ _⟩

/-- The specifications on the examples of RFC 4231, 4.3 and RFC 5869, A.1; the conditions on buffers. -/
example : Spec.Hmac.hmac "Jefe".toUTF8.toList "what do ya want for nothing?".toUTF8.toList =
    beBytes 32 0x5bdcc146bf60754e6a042426089575c75a003f089d2739839dec58b964ec3843 := by decide +kernel
example : Spec.Hmac.hkdf (beBytes 13 0x000102030405060708090a0b0c) (List.replicate 22 0x0b) (beBytes 10 0xf0f1f2f3f4f5f6f7f8f9) 42 =
    beBytes 42 0x3cb25f25faacd57a90434f64d0362f2a2d2d0a90cf1a5a4c5db02d56ecc4c5bf34007208d5b887185865 := by decide +kernel
example : (∀ i : Nat, ((fun _ => List.replicate 64 7) i : Bytes).length = 64) ∧ (List.replicate 33 7 : Bytes).length = 32 + ([] : Bytes).length + 1 :=
  ⟨fun _ => rfl, rfl⟩

end Verif.Props.Sha256

import Verif.Lemmas.Blake2b
/-
C68: BLAKE2b.
-/
namespace Verif.Props.Blake2b
open Verif.Blake2b

/-- C68. However a message is cut into updates, the result is the unkeyed BLAKE2b digest of the whole,
of the size asked for; no assertion around it fails and no access is out of bounds. -/
theorem C68_blake2b (nn : Nat) (h0 : 0 < nn) (h : nn ≤ 64) (l : List Bytes) :
    hashOf nn l = .ok (Spec.Blake2b.blake2b nn l.flatten) ∧ (Spec.Blake2b.blake2b nn l.flatten).length = nn :=
  ⟨hashOf_spec nn h0 h l, blake2b_length nn h _⟩

/-- C68. Of any other size there is no digest. -/
theorem C68_sizes (nn : Nat) (h : nn = 0 ∨ 64 < nn) (l : List Bytes) : hashOf nn l = .ub := by
  unfold hashOf init
  rw [if_pos h]
  rfl

/-- The specification on the example of RFC 7693, appendix A, and the routine on the same text in three
updates, and on a text of 130 bytes. -/
example : Spec.Blake2b.blake2b 64 "abc".toUTF8.toList = beBytes 64
    0xba80a53f981c4d0d6a2797b69f12f6e94c212f14685ac4b74b12bb6fdbffa2d17d87c5392aab792dc252d5de4533cc9518d38aa8dbf1925ab92386edd4009923 := by
  decide +kernel
example : hashOf 64 ["a".toUTF8.toList, [], "bc".toUTF8.toList] = .ok (beBytes 64
    0xba80a53f981c4d0d6a2797b69f12f6e94c212f14685ac4b74b12bb6fdbffa2d17d87c5392aab792dc252d5de4533cc9518d38aa8dbf1925ab92386edd4009923) := by
  decide +kernel
end Verif.Props.Blake2b

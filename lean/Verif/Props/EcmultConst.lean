import Verif.Lemmas.EcWords
import Verif.Props.Group52
/-
C87: the product of a point and a secret number, and the common secret of two keys, in the program's words. `IsAff`,
`IsJac`: Spec/Group52; `Holds`: Spec/Scalar64; `value`, `Digit`: Spec/EcmultConst; `compress`: Spec/Secp.
-/
namespace Verif.Props.EcmultConst
open Verif Verif.Spec.Secp Verif.Field52 Verif.Ec52 Verif.EcmultConst Verif.EcWords Verif.Spec.Scalar64 Verif.Spec.EcmultConst Verif.Lemmas

/-- C87. A number is written with 65 signed digits, each of which the table has an entry for; what they write is the
number and 1 or 2 more, modulo the order. -/
theorem C87_digits {s : Scalar64.Sc} {x : ZMod n} (hs : Holds s x) :
    (wnafConst s 4).1.length = 65 ∧ (∀ d ∈ (wnafConst s 4).1, Digit d) ∧
    (∃ c : Int, value (wnafConst s 4).1 = x.val + (wnafConst s 4).2 + c * n) ∧ ((wnafConst s 4).2 = 1 ∨ (wnafConst s 4).2 = 2) :=
  Wnaf.wnaf_spec hs

/-- C87. The product of a point and a number, for every point, every number (0 and -1 included), and whatever the memory
held before. -/
theorem C87_product (J : Junk) {a : Ge} {P : Point} (ha : IsAff 1 a P) {s : Scalar64.Sc} {x : ZMod n} (hs : Holds s x) :
    IsJac 1 (ecmultConst J a s) (x.val • P) :=
  EcmultConst.ecmultConst_spec ha hs

/-- C87. The common secret on words is that on points of C77. -/
theorem C87_same (J : Junk) {mem pub key : Bytes} (hm : mem.length = 64) (hk : key.length = 32) :
    ecdh J mem pub key = Ec.ecdh pub key :=
  EcWords.ecdh_words hm hk

/-- C87. So it is the SHA-256 of the compressed product, and it is refused for what is no key. -/
theorem C87_secret (J : Junk) {mem pub key : Bytes} (hm : mem.length = 64) (hk : key.length = 32) :
    (∀ P, compress P = some pub → 0 < beNat key → beNat key < n →
      ∃ s, compress (beNat key • P) = some s ∧ ecdh J mem pub key = .ok (Spec.Sha256.sha256 s)) ∧
    ((∀ P, compress P ≠ some pub) ∨ ¬ (0 < beNat key ∧ beNat key < n) → ecdh J mem pub key = .err ()) := by
  rw [EcWords.ecdh_words hm hk]
  refine ⟨fun P hP h1 h2 => ?_, fun h => ?_⟩
  · have h0 : P ≠ 0 := by rintro rfl; cases hP
    have hne := SecpCard.nsmul_ne (k := beNat key) (by rw [Nat.mod_eq_of_lt h2]; omega) h0
    obtain ⟨s, hs⟩ := EcKeys.compress_ne hne
    exact ⟨s, hs, EcKeys.ecdh_point hP ⟨h1, h2⟩ hs⟩
  · by_cases hp : ∃ P, compress P = some pub
    · obtain ⟨P, hP⟩ := hp
      refine EcKeys.ecdh_bad hP fun hv => ?_
      rcases h with h | h
      · exact h P hP
      · exact h hv
    · refine EcKeys.ecdh_none ?_
      cases e : Elligator.parse pub with
      | none => rfl
      | some k =>
        obtain ⟨hn, hc⟩ := EllHash.parse_some e
        exact absurd ⟨_, hc⟩ hp

/-! ### Cases -/

/-- Memory with other contents than 0. -/
def junk : Junk := ⟨⟨setInt 5, setInt 6, setInt 7, true⟩, setInt 9, ⟨setInt 10, setInt 11, true⟩⟩

/-- The number 3, and n - 1. -/
def three : Scalar64.Sc := ⟨3, 0, 0, 0⟩
def last : Scalar64.Sc := ⟨0xBFD25E8CD0364140, 0xBAAEDCE6AF48A03B, 0xFFFFFFFFFFFFFFFE, 0xFFFFFFFFFFFFFFFF⟩

example : Holds three 3 ∧ IsAff 1 Group52.gWords G := ⟨Lemmas.Scalar64.holds_of (m := 3) (by unfold Spec.Scalar64.Words; decide) (by decide +kernel), Group52.g_aff⟩
example : Holds last ((n - 1 : Nat) : ZMod n) := Lemmas.Scalar64.holds_of (by unfold Spec.Scalar64.Words; decide) (by decide +kernel)
example : (wnafConst three 4).2 = 2 ∧ value (wnafConst three 4).1 = 5 ∧ (wnafConst ⟨4, 0, 0, 0⟩ 4).2 = 1 := by decide +kernel
example : Field52.getB32 (normalize (geSetGej (ecmultConst junk Group52.gWords three)).x) =
    beBytes 32 0xf9308a019258c31049344f85f89d5229b531c845836f99b08601f113bce036f9 := by decide +kernel
example : (ecmultConst junk Group52.gWords ⟨0, 0, 0, 0⟩).infinity = true := by decide +kernel
example : Field52.getB32 (normalize (geSetGej (ecmultConst junk Group52.gWords last)).x) = beBytes 32 gx ∧
    Field52.getB32 (normalize (geSetGej (ecmultConst junk Group52.gWords last)).y) = beBytes 32 (p - gy) := by decide +kernel
example : compress G = some (2 :: beBytes 32 gx) ∧ (beBytes 32 3).length = 32 ∧ beNat (beBytes 32 3) = 3 := by decide +kernel

end Verif.Props.EcmultConst

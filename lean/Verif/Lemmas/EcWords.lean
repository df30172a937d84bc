import Verif.Model.EcWords
import Verif.Lemmas.EcmultConst
import Verif.Lemmas.EcKeys
import Verif.Lemmas.Ec52Points
import Verif.Lemmas.Scalar64Bits
import Verif.Lemmas.SecpHash
/-
The common secret on words (Model/EcWords) is that on points (Model/Ec).
-/
namespace Verif.Lemmas.EcWords
open Verif Verif.Spec.Secp Verif.Field52 Verif.Ec52 Verif.EcmultConst Verif.EcWords Verif.Lemmas.Group52 Verif.Lemmas.EcmultConst
open WeierstrassCurve.Affine

/-- What is hashed is the compressed form of the product. -/
theorem secret_spec {r : Gej} {Q : Point} (h : IsJac 1 r Q) {s : Bytes} (hs : compress Q = some s) : (secretBytes r).flatten = s := by
  have hg := jac_ge h
  cases Q with
  | zero => cases hs
  | some x y hn =>
    rw [EllHash.compress_some] at hs
    cases hs
    obtain ⟨-, hx, hy⟩ := hg
    rw [secretBytes, (hx.normalize (by decide)).getB32, (hy.normalize (by decide)).isOdd, Elligator.isOdd]
    rcases Nat.mod_two_eq_zero_or_one y.val with e | e <;> rw [e] <;> rfl

/-- The point that is loaded. -/
theorem load_aff {k : Pubkey} {x y : F} {hn : curve.Nonsingular x y} (h : KeyS k (x, y)) :
    ∃ pt, pubkeyLoad k = .ok pt ∧ IsAff 1 pt (.some x y hn) := by
  rcases load_spec h with ⟨-, h2⟩ | ⟨h1, -⟩
  · rw [Elligator.pubkeyLoad, if_neg (EllField.x_ne ((on_iff _ _).1 hn))] at h2
    cases h2
  · exact ⟨_, h1, aff_point.2 ⟨rfl, h.1.stands.mono (by decide), h.2.stands.mono (by decide)⟩⟩

theorem ecdh_words {J : Junk} {mem pub key : Bytes} (hm : mem.length = 64) (hk : key.length = 32) :
    ecdh J mem pub key = Ec.ecdh pub key := by
  by_cases hp : ∃ P, compress P = some pub
  swap
  · have hp' : ∀ P, compress P ≠ some pub := fun P h => hp ⟨P, h⟩
    rw [ecdh, Ec52Points.parse_none hp', EcKeys.ecdh_none]
    rcases parse_spec pub with ⟨-, h⟩ | ⟨k, e, h, -, -⟩
    · exact h
    · rw [Ec52Points.parse_none hp'] at h; cases h
  obtain ⟨P, hP⟩ := hp
  obtain ⟨x, y, hn, rfl, hq⟩ := EllHash.parse_of hP
  rcases parse_spec pub with ⟨-, h2⟩ | ⟨k, e, h1, h2, hks⟩
  · rw [hq] at h2; cases h2
  rw [hq] at h2
  cases h2
  obtain ⟨pt, l1, l2⟩ := load_aff (hn := hn) hks
  obtain ⟨w, v, o⟩ := Scalar64.setB32_val hk
  rw [ecdh, h1]
  dsimp only
  rw [secpEcdh, l1]
  dsimp only
  rw [o, Scalar64.isZero_val, v]
  by_cases hv : EcKeys.Valid key
  · have h0 : (Point.some x y hn : Point) ≠ 0 := by intro h; cases h
    have hne := SecpCard.nsmul_ne (k := beNat key) (by rw [Nat.mod_eq_of_lt hv.2]; have := hv.1; omega) h0
    obtain ⟨s, hs⟩ := EcKeys.compress_ne hne
    rw [EcKeys.ecdh_point hP hv hs, if_neg (by rw [if_neg (Nat.not_le.2 hv.2), Nat.mod_eq_of_lt hv.2]; have := hv.1; simp; omega)]
    rw [SecpHash.sha256_eq hm]
    have hh := Scalar64.holds_of w v
    have hj := ecmultConst_spec (J := J) l2 hh
    rw [ZMod.val_natCast, Nat.mod_eq_of_lt hv.2] at hj
    rw [secret_spec hj hs]
  · rw [EcKeys.ecdh_bad hP hv, if_pos]
    by_cases hle : n ≤ beNat key
    · left; rw [if_pos hle]; decide
    · right
      have : beNat key = 0 := by unfold EcKeys.Valid at hv; omega
      rw [this]; simp

end Verif.Lemmas.EcWords

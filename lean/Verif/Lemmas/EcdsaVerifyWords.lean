import Verif.Lemmas.Ecmult
import Verif.Lemmas.EcdsaWords
import Verif.Lemmas.EcWords
/-
Verifying on words (Model/Ecmult) is verifying on residues and points (Model/Ecdsa).
-/
namespace Verif.Lemmas.EcdsaVerifyWords
open Verif Verif.Spec.Secp Verif.Field52 Verif.Ec52 Verif.EcmultConst Verif.Ecmult Verif.Spec.Ecmult Verif.Lemmas.Group52
open Verif.Scalar64 (Sc)
open Verif.Spec.Scalar64 (Holds)
open Verif.Lemmas.EcdsaWords (isZero_holds isHigh_holds setB32_holds getB32_holds)
open WeierstrassCurve.Affine

theorem order_normal : Normal orderAsFe ((n : Nat) : F) := by
  refine normal_iff.2 ⟨⟨⟨?_, ?_, ?_, ?_⟩, ?_, ?_⟩, congrArg _ ?_⟩ <;> decide +kernel

theorem minus_normal : Normal pMinusOrder ((p - n : Nat) : F) := by
  refine normal_iff.2 ⟨⟨⟨?_, ?_, ?_, ?_⟩, ?_, ?_⟩, congrArg _ ?_⟩ <;> decide +kernel

theorem minus_val : val pMinusOrder = p - n := by decide +kernel

theorem match_eq {sigr : Sc} {pr : Gej} {xr : Fe} (e : xr = (Field52.setB32 (Scalar64.getB32 sigr)).1) :
    matchX sigr pr = if gejEqX xr pr then true else if cmpVar xr pMinusOrder ≥ 0 then false else gejEqX (add xr orderAsFe) pr := by
  subst e; rfl

theorem matchX_spec {sigr : Sc} {r : ZMod n} (hr : Holds sigr r) {pr : Gej} {x y : F} {hn : curve.Nonsingular x y} (hp : IsJac 1 pr (.some x y hn)) :
    matchX sigr pr = if (Elligator.setB32 (Ecdsa.getS r)).1 = x then true else if p - n ≤ (Elligator.setB32 (Ecdsa.getS r)).1.val then false
      else decide ((Elligator.setB32 (Ecdsa.getS r)).1 + ((n : Nat) : F) = x) := by
  obtain ⟨xr, e⟩ : ∃ xr, xr = (Field52.setB32 (Scalar64.getB32 sigr)).1 := ⟨_, rfl⟩
  rw [match_eq e]
  rw [getB32_holds hr] at e
  have hv : r.val < p := lt_trans (ZMod.val_lt r) Ecdsa.n_lt_p
  have hb : beNat (Ecdsa.getS r) = r.val := by
    rw [Ecdsa.getS, beNat_beBytes_of_lt (lt_trans hv (by decide +kernel))]
  have hl : (Ecdsa.getS r).length = 32 := beBytes_length _ _
  obtain ⟨s1, s2, s3, s4⟩ := setB32_spec hl
  rw [← e, hb] at s3
  rw [← e] at s1 s2
  have hN : Normal xr ((r.val : Nat) : F) := normal_iff.2 ⟨⟨s1, s2, by rw [s3]; exact hv⟩, by rw [s3]⟩
  have he : (Elligator.setB32 (Ecdsa.getS r)).1 = ((r.val : Nat) : F) := by rw [Elligator.setB32, hb]
  rw [he, jac_eqX hp (hN.stands.mono (by decide)), ZMod.val_cast_of_lt hv]
  rw [jac_eqX hp ((hN.stands.add order_normal.stands (by decide)).mono (by decide)),
    cmp_spec (normal_iff.1 hN).1 (normal_iff.1 minus_normal).1, minus_val, s3]
  by_cases h1 : ((r.val : Nat) : F) = x
  · rw [if_pos h1, if_pos (decide_eq_true h1)]
  · rw [if_neg h1, if_neg (by simpa using h1)]
    by_cases h2 : p - n ≤ r.val
    · rw [if_pos h2, if_pos]
      split
      · decide
      · rw [if_neg (by omega)]
    · rw [if_neg h2, if_neg]
      rw [if_neg (by omega), if_pos (by omega)]; decide

theorem verify_eq {J : Junk} {pg : List Pubkey} {sigr sigs message : Sc} {pubkey : Ge} {pr : Gej}
    (e : pr = ecmult J pg (gejSetGe pubkey) (Scalar64.mul (Scalar64.inverse sigs) sigr) (Scalar64.mul (Scalar64.inverse sigs) message)) :
    sigVerify J pg sigr sigs pubkey message =
      if Scalar64.isZero sigr || Scalar64.isZero sigs then false else if pr.infinity then false else matchX sigr pr := by
  subst e; rfl

theorem sigVerify_spec {J : Junk} {pg : List Pubkey} (hg : Odds pg) {sigr sigs message : Sc} {r s m : ZMod n} (hr : Holds sigr r) (hs : Holds sigs s)
    (hm : Holds message m) {g : Ge} {Q : Point} (hq : IsAff 1 g Q) : sigVerify J pg sigr sigs g message = Ecdsa.sigVerify r s Q m := by
  obtain ⟨pr, e⟩ : ∃ pr, pr = ecmult J pg (gejSetGe g) (Scalar64.mul (Scalar64.inverse sigs) sigr) (Scalar64.mul (Scalar64.inverse sigs) message) := ⟨_, rfl⟩
  rw [verify_eq e, Ecdsa.sigVerify, isZero_holds hr, isZero_holds hs]
  by_cases h0 : r = 0 ∨ s = 0
  · rw [if_pos h0, if_pos (by simpa using h0)]
  rw [if_neg h0, if_neg (by simpa using h0)]
  have hi := Scalar64.holds_inverse hs
  have hp := Ecmult.ecmult_spec (J := J) hg (aff_ge hq) (Scalar64.holds_mul hi hr) (Scalar64.holds_mul hi hm)
  rw [← e] at hp
  dsimp only
  generalize (s⁻¹ * r).val • Q + (s⁻¹ * m).val • G = R at hp
  cases R with
  | zero => rw [if_pos hp.1]
  | some x y hn => rw [if_neg (by rw [hp.1]; decide)]; exact matchX_spec hr hp

theorem parse_holds {sig : Bytes} (hl : sig.length = 64) : (parseCompact sig = none ∧ Ecdsa.parseCompact sig = none) ∨
    ∃ a b r s, parseCompact sig = some (a, b) ∧ Ecdsa.parseCompact sig = some (r, s) ∧ Holds a r ∧ Holds b s := by
  obtain ⟨h1, h2⟩ := setB32_holds (b := sig.take 32) (by rw [List.length_take]; omega)
  obtain ⟨h3, h4⟩ := setB32_holds (b := (sig.drop 32).take 32) (by rw [List.length_take, List.length_drop]; omega)
  rw [parseCompact, Ecdsa.parseCompact]
  dsimp only
  rw [h2, h4]
  generalize Ecdsa.setS (sig.take 32) = q1 at *
  generalize Ecdsa.setS ((sig.drop 32).take 32) = q2 at *
  obtain ⟨r, o1⟩ := q1
  obtain ⟨s, o2⟩ := q2
  dsimp only at *
  cases o1 <;> cases o2
  · exact .inr ⟨_, _, _, _, rfl, rfl, h1, h3⟩
  all_goals exact .inl ⟨rfl, rfl⟩

theorem verifyMsg_spec (J : Junk) {pg : List Pubkey} (hg : Odds pg) (pub : Bytes) {msg sig : Bytes} (hm : msg.length = 32) (hl : sig.length = 64) :
    verifyMsg J pg pub msg sig = Ecdsa.verifyMsg pub msg sig := by
  rw [verifyMsg, Ecdsa.verifyMsg]
  rcases parse_holds hl with ⟨e1, e2⟩ | ⟨a, b, r, s, e1, e2, ha, hb⟩
  · rw [e1, e2]
  rw [e1, e2]
  dsimp only
  rcases parse_spec pub with ⟨k1, k2⟩ | ⟨k, e, k1, k2, hk⟩
  · rw [k1, k2]
  rw [k1, k2]
  dsimp only
  rw [ecdsaVerify, Ecdsa.ecdsaVerify]
  dsimp only
  rw [isHigh_holds hb]
  split
  · rfl
  obtain ⟨hn, -⟩ := EllHash.parse_some k2
  obtain ⟨x, y⟩ := e
  obtain ⟨pt, l1, l2⟩ := EcWords.load_aff (hn := hn) hk
  have hon := (on_iff _ _).1 hn
  rw [l1, Elligator.pubkeyLoad, if_neg (EllField.x_ne hon)]
  dsimp only at hon ⊢
  rw [dif_pos hon, sigVerify_spec hg ha hb (setB32_holds hm).1 l2]

end Verif.Lemmas.EcdsaVerifyWords

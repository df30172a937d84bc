import Verif.Model.EcRecover
import Verif.Spec.EcRecover
import Verif.Lemmas.EcdsaVerifyWords
/-
Recovery of the public key on words (Model/EcRecover) is that of SEC 1 (Spec/EcRecover).
-/
namespace Verif.Lemmas.EcRecover
open Verif Verif.Spec.Secp Verif.Spec.Secdsa Verif.Spec.EcRecover Verif.Field52 Verif.Ec52 Verif.EcmultConst Verif.Ecmult Verif.EcRecover
open Verif.Spec.Ecmult Verif.Lemmas.Group52 Verif.Lemmas.EcdsaVerifyWords
open Verif.Scalar64 (Sc)
open Verif.Spec.Scalar64 (Holds)
open Verif.Lemmas.EcdsaWords (isZero_holds setB32_holds getB32_holds)
open Verif.Lemmas.Ecdsa (n_lt n_lt_p p_lt_2n val_of val_smul nat_smul mod_smul cast_zero_iff)
open WeierstrassCurve.Affine

local notation "S" => ZMod n

/-! ### The point of a signature -/

theorem setXo_stands {a : Fe} {x : F} (ha : Stands 2 a x) (odd : Bool) :
    (setXo a odd = none ∧ Elligator.setXo x odd = none) ∨
    ∃ g e, setXo a odd = some g ∧ Elligator.setXo x odd = some e ∧ Stands 2 g.x e.1 ∧ Stands 2 g.y e.2 ∧ g.infinity = false := by
  have h7 : Stands 1 (setInt 7) (7 : F) := int_stands (n := 7) (by decide)
  obtain ⟨hy, ho⟩ := sqrt_spec (h7.add (ha.mul (ha.sqr (by decide)) (by decide) (by decide)) (by decide)) (by decide)
  unfold setXo Elligator.setXo
  dsimp only
  generalize sqrt (add (setInt 7) (mul a (sqr a))) = q at *
  generalize Elligator.sqrt (7 + x * (x * x)) = e at *
  obtain ⟨e1, e2⟩ := e
  obtain ⟨q1, q2⟩ := q
  dsimp only at *
  subst ho
  cases q2 with
  | false => exact .inl ⟨rfl, rfl⟩
  | true =>
    right
    have hn := hy.normalizeVar (by decide)
    have hodd : (isOdd (normalizeVar q1) ≠ odd.toNat) ↔ (Elligator.isOdd e1 != odd) = true := by
      rw [hn.isOdd, Elligator.isOdd]
      rcases Nat.mod_two_eq_zero_or_one e1.val with h | h <;> rw [h] <;> cases odd <;> decide
    by_cases hp : (Elligator.isOdd e1 != odd) = true
    · refine ⟨_, _, rfl, rfl, ha, ?_, rfl⟩
      rw [if_pos (hodd.2 hp)]
      dsimp only
      rw [if_pos hp]
      exact hn.stands.negate (by decide)
    · refine ⟨_, _, rfl, rfl, ha, ?_, rfl⟩
      rw [if_neg (fun h => hp (hodd.1 h))]
      dsimp only
      rw [if_neg hp]
      exact hn.stands.mono (by decide)

theorem point_spec {a : Fe} {x : F} (ha : Stands 2 a x) (odd : Bool) :
    (setXo a odd = none ∧ ∀ y, curve.Nonsingular x y → Elligator.isOdd y ≠ odd) ∨
    ∃ g y, ∃ hn : curve.Nonsingular x y, setXo a odd = some g ∧ IsAff 1 g (.some x y hn) ∧ Elligator.isOdd y = odd := by
  rcases setXo_stands ha odd with ⟨h1, h2⟩ | ⟨g, e, h1, h2, h3, h4, h5⟩
  · refine .inl ⟨h1, fun y hn ho => ?_⟩
    have := EllHash.setXo_of ((on_iff _ _).1 hn)
    rw [ho, h2] at this
    cases this
  · right
    obtain ⟨k1, k2, k3⟩ := EllHash.setXo_some h2
    obtain ⟨e1, y⟩ := e
    dsimp only at *
    subst k1
    exact ⟨g, y, (on_iff _ _).2 k2, h1, aff_point.2 ⟨h5, h3.mono (by decide), h4.mono (by decide)⟩, k3⟩

theorem bit1 {rec : Nat} (h : rec ≤ 3) : (rec &&& 2 ≠ 0 ∧ rec / 2 = 1) ∨ (¬ rec &&& 2 ≠ 0 ∧ rec / 2 = 0) := by
  have : rec = 0 ∨ rec = 1 ∨ rec = 2 ∨ rec = 3 := by omega
  rcases this with rfl | rfl | rfl | rfl <;> decide

theorem bit0 {rec : Nat} (h : rec ≤ 3) : decide (rec &&& 1 ≠ 0) = decide (rec % 2 = 1) := by
  have : rec = 0 ∨ rec = 1 ∨ rec = 2 ∨ rec = 3 := by omega
  rcases this with rfl | rfl | rfl | rfl <;> decide

theorem add_cast {a b : Fe} {i j : Nat} (ha : Stands 1 a ((i : Nat) : F)) (hb : Stands 1 b ((j : Nat) : F)) : Stands 2 (add a b) ((i + j : Nat) : F) := by
  exact (ha.add hb (by decide)).eq (Nat.cast_add i j).symm

theorem x_eq {sigr : Sc} {rec : Nat} {fx : Fe} (e : fx = (Field52.setB32 (Scalar64.getB32 sigr)).1) :
    recoverX sigr rec = if rec &&& 2 ≠ 0 then (if cmpVar fx pMinusOrder ≥ 0 then none else some (add fx orderAsFe)) else some fx := by
  subst e; rfl

theorem recoverX_spec {sigr : Sc} {r : S} (hr : Holds sigr r) {rec : Nat} (h : rec ≤ 3) :
    (recoverX sigr rec = none ∧ p ≤ r.val + n * (rec / 2)) ∨
    ∃ fx, recoverX sigr rec = some fx ∧ r.val + n * (rec / 2) < p ∧ Stands 2 fx ((r.val + n * (rec / 2) : Nat) : F) := by
  obtain ⟨fx, e⟩ : ∃ xr, xr = (Field52.setB32 (Scalar64.getB32 sigr)).1 := ⟨_, rfl⟩
  rw [x_eq e]
  rw [getB32_holds hr] at e
  have hv : r.val < p := lt_trans (ZMod.val_lt r) n_lt_p
  have hb : beNat (Ecdsa.getS r) = r.val := Ecdsa.getS_nat r
  have hl : (Ecdsa.getS r).length = 32 := beBytes_length _ _
  obtain ⟨s1, s2, s3, s4⟩ := setB32_spec hl
  rw [← e, hb] at s3
  rw [← e] at s1 s2
  have hN : Normal fx ((r.val : Nat) : F) := normal_iff.2 ⟨⟨s1, s2, by rw [s3]; exact hv⟩, by rw [s3]⟩
  have hnp := n_lt_p
  rcases bit1 h with ⟨h1, h2⟩ | ⟨h1, h2⟩
  · rw [if_pos h1, h2, cmp_spec (normal_iff.1 hN).1 (normal_iff.1 minus_normal).1, minus_val, s3, Nat.mul_one]
    by_cases hc : p - n ≤ r.val
    · left
      refine ⟨if_pos ?_, by omega⟩
      split
      · decide
      · rw [if_neg (by omega)]
    · right
      refine ⟨_, if_neg ?_, by omega, ?_⟩
      · rw [if_neg (by omega), if_pos (by omega)]; decide
      · exact add_cast hN.stands order_normal.stands
  · rw [if_neg h1, h2, Nat.mul_zero, Nat.add_zero]
    exact .inr ⟨_, rfl, hv, hN.stands.mono (by decide)⟩

/-! ### The key -/

theorem key_alg {r s e : S} (hr : r ≠ 0) (R Q : Point) : r • Q + e • G = s • R ↔ Q = (r⁻¹ * s) • R + (-(r⁻¹ * e)) • G := by
  constructor
  · intro h
    have : r⁻¹ • (r • Q + e • G) = r⁻¹ • s • R := by rw [h]
    rw [smul_add, smul_smul, smul_smul, smul_smul, inv_mul_cancel₀ hr, one_smul] at this
    rw [← this, neg_smul]
    abel
  · rintro rfl
    rw [smul_add, smul_smul, smul_smul, ← mul_assoc, mul_neg, ← mul_assoc, mul_inv_cancel₀ hr, one_mul, one_mul, neg_smul]
    abel

theorem key_eq {J : Junk} {pg : List Pubkey} {sigr sigs message : Sc} {x : Ge} {qj : Gej}
    (e : qj = ecmult J pg (gejSetGe x) (Scalar64.mul (Scalar64.inverse sigr) sigs) (Scalar64.negate (Scalar64.mul (Scalar64.inverse sigr) message))) :
    recoverKey J pg sigr sigs x message = if !qj.infinity then some (geSetGej qj) else none := by
  subst e; rfl

theorem recoverKey_spec {J : Junk} {pg : List Pubkey} (hg : Odds pg) {sigr sigs message : Sc} {r s m : S} (hr : Holds sigr r) (hs : Holds sigs s)
    (hm : Holds message m) (h0 : r ≠ 0) {x : Ge} {R : Point} (hx : IsAff 1 x R) :
    ∃ Q : Point, r • Q + m • G = s • R ∧ ((Q = 0 ∧ recoverKey J pg sigr sigs x message = none) ∨
      ∃ g X Y hn, Q = .some X Y hn ∧ recoverKey J pg sigr sigs x message = some g ∧ IsPoint 8 g (.some X Y hn)) := by
  obtain ⟨qj, e⟩ : ∃ qj, qj = ecmult J pg (gejSetGe x) (Scalar64.mul (Scalar64.inverse sigr) sigs)
    (Scalar64.negate (Scalar64.mul (Scalar64.inverse sigr) message)) := ⟨_, rfl⟩
  rw [key_eq e]
  have hi := Scalar64.holds_inverse hr
  have hp := Ecmult.ecmult_spec (J := J) hg (aff_ge hx) (Scalar64.holds_mul hi hs) (Scalar64.holds_negate (Scalar64.holds_mul hi hm))
  rw [← e, val_smul, val_smul] at hp
  refine ⟨_, (key_alg h0 R _).2 rfl, ?_⟩
  generalize (r⁻¹ * s) • R + (-(r⁻¹ * m)) • G = Q at hp
  have hq := jac_ge hp
  cases Q with
  | zero => exact .inl ⟨rfl, by rw [show qj.infinity = true from hp.1]; rfl⟩
  | some X Y hn =>
    exact .inr ⟨_, X, Y, hn, rfl, by rw [show qj.infinity = false from hp.1]; rfl, hq⟩

/-! ### The whole -/

theorem parse_nat {sig : Bytes} (hl : sig.length = 64) : (parseCompact sig = none ∧ ¬ (rOf sig < n ∧ sOf sig < n)) ∨
    ∃ a b, parseCompact sig = some (a, b) ∧ rOf sig < n ∧ sOf sig < n ∧ Holds a ((rOf sig : Nat) : S) ∧ Holds b ((sOf sig : Nat) : S) := by
  have hd : (sig.drop 32).take 32 = sig.drop 32 := List.take_of_length_le (by rw [List.length_drop]; omega)
  obtain ⟨h1, h2⟩ := setB32_holds (b := sig.take 32) (by rw [List.length_take]; omega)
  obtain ⟨h3, h4⟩ := setB32_holds (b := sig.drop 32) (by rw [List.length_drop]; omega)
  rw [Ecdsa.setS_eq] at h1 h2 h3 h4
  rw [parseCompact, hd]
  dsimp only at *
  rw [h2, h4]
  show (_ ∧ ¬ (beNat (sig.take 32) < n ∧ beNat (sig.drop 32) < n)) ∨ ∃ a b, _ ∧ beNat (sig.take 32) < n ∧ beNat (sig.drop 32) < n ∧
    Holds a ((beNat (sig.take 32) : Nat) : S) ∧ Holds b ((beNat (sig.drop 32) : Nat) : S)
  by_cases c1 : n ≤ beNat (sig.take 32)
  · exact .inl ⟨by rw [decide_eq_true c1]; rfl, fun h => by omega⟩
  by_cases c2 : n ≤ beNat (sig.drop 32)
  · exact .inl ⟨by rw [decide_eq_true c2, decide_eq_false c1]; rfl, fun h => by omega⟩
  exact .inr ⟨_, _, by rw [decide_eq_false c1, decide_eq_false c2]; rfl, by omega, by omega, h1, h3⟩

theorem unique {Q Q' : Point} {msg sig : Bytes} {rec : Nat} (h : Recovers Q msg sig rec) (h' : Recovers Q' msg sig rec) : Q = Q' := by
  obtain ⟨a1, a2, -, -, -, x, y, hn, h1, h2, h3⟩ := h
  obtain ⟨-, -, -, -, -, x', y', hn', h1', h2', h3'⟩ := h'
  have ex : x = x' := ZMod.val_injective _ (h1.trans h1'.symm)
  subst ex
  have ey : y = y' := by
    have e1 := (on_iff _ _).1 hn
    have e2 := (on_iff _ _).1 hn'
    refine EllField.sq_parity (EllField.y_ne e2) (by rw [← pow_two, ← pow_two, e1, e2]) ?_
    rw [Elligator.isOdd, Elligator.isOdd, h2, h2']
  subst ey
  have hr : ((rOf sig : Nat) : S) ≠ 0 := by rw [Ne, cast_zero_iff a2]; omega
  rw [nat_smul, nat_smul (beNat msg), nat_smul (sOf sig), key_alg hr] at h3 h3'
  rw [h3, h3']

/-- The last step. -/
def after (o : Option Ge) : Out Unit Bytes :=
  match o.map pubkeySave with
  | none => .err ()
  | some pub => serialize pub

theorem rec_bind {J : Junk} {pg : List Pubkey} {msg sig : Bytes} {rec : Nat} (h : rec ≤ 3) {a b : Sc} (hp : parseCompact sig = some (a, b)) {o : Option Ge}
    (ho : sigRecover J pg a b (Scalar64.setB32 msg).1 rec = o) : recover J pg msg sig rec = after o := by
  have e : ecdsaRecover J pg (a, b) rec msg = o.map pubkeySave := by rw [← ho, ecdsaRecover]
  rw [recover, if_pos (by omega), hp]
  dsimp only
  rw [Int.toNat_natCast, e, after]
  generalize o.map pubkeySave = q
  cases q <;> rfl

theorem sig_zero {J : Junk} {pg : List Pubkey} {a b m : Sc} {rec : Nat} (h0 : (Scalar64.isZero a || Scalar64.isZero b) = true) :
    sigRecover J pg a b m rec = none := by rw [sigRecover, if_pos h0]

theorem sig_noX {J : Junk} {pg : List Pubkey} {a b m : Sc} {rec : Nat} (h0 : (Scalar64.isZero a || Scalar64.isZero b) = false)
    (h1 : recoverX a rec = none) : sigRecover J pg a b m rec = none := by
  rw [sigRecover, if_neg (by rw [h0]; exact Bool.false_ne_true), h1, Option.bind_none]

theorem sig_noY {J : Junk} {pg : List Pubkey} {a b m : Sc} {rec : Nat} (h0 : (Scalar64.isZero a || Scalar64.isZero b) = false) {fx : Fe}
    (h1 : recoverX a rec = some fx) (h2 : setXo fx (decide (rec &&& 1 ≠ 0)) = none) : sigRecover J pg a b m rec = none := by
  rw [sigRecover, if_neg (by rw [h0]; exact Bool.false_ne_true), h1, Option.bind_some, h2, Option.bind_none]

theorem sig_of {J : Junk} {pg : List Pubkey} {a b m : Sc} {rec : Nat} (h0 : (Scalar64.isZero a || Scalar64.isZero b) = false) {fx : Fe}
    (h1 : recoverX a rec = some fx) {x : Ge} (h2 : setXo fx (decide (rec &&& 1 ≠ 0)) = some x) :
    sigRecover J pg a b m rec = recoverKey J pg a b x m := by
  rw [sigRecover, if_neg (by rw [h0]; exact Bool.false_ne_true), h1, Option.bind_some, h2, Option.bind_some]

theorem recover_spec {J : Junk} {pg : List Pubkey} (hg : Odds pg) {msg sig : Bytes} (hm : msg.length = 32) (hl : sig.length = 64) {rec : Nat} (h : rec ≤ 3) :
    (∃ Q pub, Recovers Q msg sig rec ∧ compress Q = some pub ∧ recover J pg msg sig rec = .ok pub) ∨
    ((∀ Q, ¬ Recovers Q msg sig rec) ∧ recover J pg msg sig rec = .err ()) := by
  rcases parse_nat hl with ⟨h1, h2⟩ | ⟨a, b, h1, hr, hs, ha, hb⟩
  · right
    refine ⟨fun Q hQ => h2 ⟨hQ.2.1, hQ.2.2.2.1⟩, ?_⟩
    rw [recover, if_pos (by omega), h1]
  obtain ⟨o, ho⟩ : ∃ o, sigRecover J pg a b (Scalar64.setB32 msg).1 rec = o := ⟨_, rfl⟩
  rw [rec_bind h h1 ho]
  by_cases h0 : ((rOf sig : Nat) : S) = 0 ∨ ((sOf sig : Nat) : S) = 0
  · right
    have hz : (Scalar64.isZero a || Scalar64.isZero b) = true := by
      rw [isZero_holds ha, isZero_holds hb]; simpa using h0
    refine ⟨fun Q hQ => ?_, by rw [← ho, sig_zero hz]; rfl⟩
    rw [cast_zero_iff hr, cast_zero_iff hs] at h0
    have := hQ.1
    have := hQ.2.2.1
    omega
  have hz : (Scalar64.isZero a || Scalar64.isZero b) = false := by
    rw [isZero_holds ha, isZero_holds hb]; simpa using h0
  have h0' := h0
  rw [cast_zero_iff hr, cast_zero_iff hs] at h0'
  have hX := recoverX_spec ha h
  rw [val_of hr] at hX
  rcases hX with ⟨k1, k2⟩ | ⟨fx, k1, k2, k3⟩
  · right
    refine ⟨fun Q hQ => ?_, by rw [← ho, sig_noX hz k1]; rfl⟩
    obtain ⟨-, -, -, -, -, x, y, hn, e, -⟩ := hQ
    have := ZMod.val_lt x
    omega
  have hxv : (((rOf sig + n * (rec / 2) : Nat) : F)).val = rOf sig + n * (rec / 2) := ZMod.val_cast_of_lt k2
  generalize ((rOf sig + n * (rec / 2) : Nat) : F) = X at k3 hxv
  rcases point_spec k3 (decide (rec &&& 1 ≠ 0)) with ⟨j1, j2⟩ | ⟨g, y, hn, j1, j2, j3⟩
  · right
    refine ⟨fun Q hQ => ?_, by rw [← ho, sig_noY hz k1 j1]; rfl⟩
    obtain ⟨-, -, -, -, -, x, y, hn, e, e', -⟩ := hQ
    have ex : x = X := ZMod.val_injective _ (e.trans hxv.symm)
    subst ex
    refine j2 y hn ?_
    rw [bit0 h, Elligator.isOdd, e']
    rcases Nat.mod_two_eq_zero_or_one rec with e | e <;> rw [e] <;> rfl
  rw [sig_of hz k1 j1] at ho
  subst ho
  have hodd : y.val % 2 = rec % 2 := by
    rw [bit0 h, Elligator.isOdd] at j3
    rcases Nat.mod_two_eq_zero_or_one rec with e | e <;> rcases Nat.mod_two_eq_zero_or_one y.val with e' | e' <;> rw [e, e'] at j3 ⊢ <;> revert j3 <;> decide
  have hr0 : ((rOf sig : Nat) : S) ≠ 0 := fun hc => h0 (.inl hc)
  obtain ⟨Q, q1, q2⟩ := recoverKey_spec (J := J) hg ha hb (setB32_holds hm).1 hr0 j2
  rw [Ecdsa.setS_eq] at q1
  dsimp only at q1
  rw [← nat_smul, ← nat_smul, ← nat_smul] at q1
  rcases q2 with ⟨e1, e2⟩ | ⟨g', X', Y', hn', e1, e2, e3⟩
  · right
    refine ⟨fun Q' hQ => ?_, by rw [e2]; rfl⟩
    obtain ⟨-, -, -, -, hne, x', y', hn', e, e', e''⟩ := hQ
    have ex : x' = X := ZMod.val_injective _ (e.trans hxv.symm)
    subst ex
    have ey : y' = y := by
      have e1 := (on_iff _ _).1 hn
      have e2 := (on_iff _ _).1 hn'
      refine EllField.sq_parity (EllField.y_ne e1) (by rw [← pow_two, ← pow_two, e1, e2]) ?_
      rw [Elligator.isOdd, Elligator.isOdd, hodd, e']
    subst ey
    rw [nat_smul, nat_smul (beNat msg), nat_smul (sOf sig), key_alg hr0] at q1 e''
    exact hne (by rw [e'', ← q1, e1])
  · left
    rw [e2, after, Option.map_some]
    dsimp only
    obtain ⟨c, s1, s2⟩ := EllHash.serialize_on hn'
    refine ⟨Q, c, ⟨by omega, hr, by omega, hs, ?_, X, y, hn, hxv, hodd, q1⟩, by rw [e1]; exact s2, ?_⟩
    · rw [e1]; intro hc; cases hc
    · rw [serialize_spec (EcmultGen.key_of_point e3), s1]

/-! ### Recovery and validity -/

theorem valid_of {Q : Point} {msg sig : Bytes} {rec : Nat} (hl : sig.length = 64) (h : Recovers Q msg sig rec) : Valid Q msg sig := by
  obtain ⟨h1, h2, h3, h4, -, x, y, hn, h5, -, h7⟩ := h
  have hs : ((sOf sig : Nat) : S) ≠ 0 := by rw [Ne, cast_zero_iff h4]; omega
  refine ⟨hl, h1, h2, h3, h4, (((sOf sig : Nat) : S)⁻¹).val, ?_, x, y, hn, ?_, ?_⟩
  · have e1 : ((sOf sig * (((sOf sig : Nat) : S)⁻¹).val : Nat) : S) = ((1 : Nat) : S) := by
      rw [Nat.cast_mul, ZMod.natCast_zmod_val, Nat.cast_one, mul_inv_cancel₀ hs]
    have := (ZMod.natCast_eq_natCast_iff' _ _ n).1 e1
    rw [this, Nat.mod_eq_of_lt SecpOrder.n_prime.one_lt]
  · rw [mod_smul, mod_smul, Nat.cast_mul, Nat.cast_mul, ZMod.natCast_zmod_val]
    rw [nat_smul, nat_smul (beNat msg), nat_smul (sOf sig)] at h7
    have : ((sOf sig : Nat) : S)⁻¹ • (((rOf sig : Nat) : S) • Q + ((beNat msg : Nat) : S) • G) = ((sOf sig : Nat) : S)⁻¹ • ((sOf sig : Nat) : S) • Point.some x y hn := by
      rw [h7]
    rw [smul_add, smul_smul, smul_smul, smul_smul, inv_mul_cancel₀ hs, one_smul] at this
    rw [← this, mul_comm, mul_comm ((rOf sig : Nat) : S), add_comm]
  · rw [h5, Nat.add_mul_mod_self_left, Nat.mod_eq_of_lt h2]

theorem of_valid {Q : Point} {msg sig : Bytes} (hQ : Q ≠ 0) (h : Valid Q msg sig) : ∃ rec ≤ 3, Recovers Q msg sig rec := by
  obtain ⟨-, h1, h2, h3, h4, w, hw, x, y, hn, h5, h6⟩ := h
  have hp := ZMod.val_lt x
  have h2n := p_lt_2n
  have hd := Nat.mod_add_div x.val n
  have hq : x.val / n ≤ 1 := by
    have : x.val / n < 2 := Nat.div_lt_of_lt_mul (by omega)
    omega
  refine ⟨2 * (x.val / n) + y.val % 2, by omega, h1, h2, h3, h4, hQ, x, y, hn, ?_, by omega, ?_⟩
  · rw [show (2 * (x.val / n) + y.val % 2) / 2 = x.val / n by omega]
    omega
  · rw [← h5, nat_smul, nat_smul (beNat msg), nat_smul (sOf sig), mod_smul, mod_smul, smul_add, smul_smul, smul_smul, Nat.cast_mul, Nat.cast_mul]
    have e1 : ((sOf sig : Nat) : S) * (w : S) = 1 := by
      have : ((sOf sig * w % n : Nat) : S) = ((1 : Nat) : S) := by rw [hw]
      rw [ZMod.natCast_mod, Nat.cast_mul, Nat.cast_one] at this
      exact this
    have e2 : ((sOf sig : Nat) : S) * (((rOf sig : Nat) : S) * (w : S)) = ((rOf sig : Nat) : S) := by linear_combination ((rOf sig : Nat) : S) * e1
    have e3 : ((sOf sig : Nat) : S) * (((beNat msg : Nat) : S) * (w : S)) = ((beNat msg : Nat) : S) := by linear_combination ((beNat msg : Nat) : S) * e1
    rw [e2, e3, add_comm]

/-! ### A signature that was made -/

theorem rec_bits (o q : Bool) : ((if o then 2 else 0) ||| (if q then 1 else 0) : Nat) ≤ 3 ∧ ((if o then 2 else 0) ||| (if q then 1 else 0)) / 2 = (if o then 1 else 0) ∧
    ((if o then 2 else 0) ||| (if q then 1 else 0)) % 2 = (if q then 1 else 0) ∧ (((if o then 2 else 0) ||| (if q then 1 else 0)) ^^^ 1) ≤ 3 ∧
    (((if o then 2 else 0) ||| (if q then 1 else 0)) ^^^ 1) / 2 = (if o then 1 else 0) ∧ (((if o then 2 else 0) ||| (if q then 1 else 0)) ^^^ 1) % 2 = (if q then 0 else 1) := by
  cases o <;> cases q <;> decide

theorem sign_rec {d e k r s : S} {rec : Nat} (hk : k ≠ 0) (h : Ecdsa.sigSign d e k = some (r, s, rec)) :
    ∃ x y hn, rec ≤ 3 ∧ r = ((x.val : Nat) : S) ∧ rec / 2 = x.val / n ∧ y.val % 2 = rec % 2 ∧ s • (Point.some x y hn : Point) = (r * d + e) • G := by
  have hne := EcdsaSign.smul_ne hk
  rw [Ecdsa.sigSign] at h
  have hP : k.val • G = k • G := val_smul k G
  generalize k.val • G = P at hne h hP
  cases P with
  | zero => exact absurd rfl hne
  | some x y hn =>
    rw [Ec.affine] at h
    dsimp only at h
    rw [Ecdsa.setS_eq, Elligator.getB32, beNat_beBytes_of_lt (EllHash.val_lt x)] at h
    dsimp only at h
    have hx := ZMod.val_lt x
    have h2n := p_lt_2n
    have ho : (if decide (n ≤ x.val) = true then 1 else 0) = x.val / n := by
      by_cases c : n ≤ x.val
      · rw [decide_eq_true c, if_pos rfl]
        exact (Nat.div_eq_of_lt_le (by omega) (by omega)).symm
      · rw [decide_eq_false c, if_neg Bool.false_ne_true, Nat.div_eq_of_lt (by omega)]
    have hy : (if Elligator.isOdd y = true then 1 else 0) = y.val % 2 := by
      rw [Elligator.isOdd]
      rcases Nat.mod_two_eq_zero_or_one y.val with e | e <;> rw [e] <;> rfl
    obtain ⟨b1, b2, b3, b4, b5, b6⟩ := rec_bits (decide (n ≤ x.val)) (Elligator.isOdd y)
    rw [ho] at b2 b5
    generalize hT : k⁻¹ * (((x.val : Nat) : S) * d + e) = t at h
    have ht : t • (Point.some x y hn : Point) = (((x.val : Nat) : S) * d + e) • G := by
      rw [hP, smul_smul, ← hT, mul_comm, ← mul_assoc, mul_inv_cancel₀ hk, one_mul]
    by_cases h0 : t = 0
    · rw [if_pos h0] at h; cases h
    rw [if_neg h0] at h
    by_cases hh : Ecdsa.isHigh t = true
    · rw [if_pos hh] at h
      rw [Option.some.injEq, Prod.mk.injEq, Prod.mk.injEq] at h
      obtain ⟨rfl, rfl, rfl⟩ := h
      have hn' : curve.Nonsingular x (-y) := (on_iff _ _).2 (by have := (on_iff _ _).1 hn; rw [neg_sq]; exact this)
      have en : (Point.some x (-y) hn' : Point) = -Point.some x y hn := by
        rw [Point.neg_some, Point.some.injEq]
        exact ⟨rfl, (EllGroup.negY_eq x y).symm⟩
      refine ⟨x, -y, hn', b4, rfl, b5, ?_, ?_⟩
      · rw [b6]
        have e1 := EllField.odd_neg (EllField.y_ne ((on_iff _ _).1 hn))
        rw [Elligator.isOdd] at e1
        rcases Nat.mod_two_eq_zero_or_one (-y).val with e | e <;> rw [e] at e1 ⊢ <;> revert e1 <;> cases Elligator.isOdd y <;> decide
      · rw [en, smul_neg, neg_smul, neg_neg]; exact ht
    · rw [if_neg hh] at h
      rw [Option.some.injEq, Prod.mk.injEq, Prod.mk.injEq] at h
      obtain ⟨rfl, rfl, rfl⟩ := h
      exact ⟨x, y, hn, b1, rfl, b2, by rw [b3, hy], ht⟩

theorem made {f : Nat → Bytes} {fuel : Nat} {key msg sig : Bytes} {rec : Nat} (h : Ecdsa.signWith f fuel key msg = some (sig, rec)) (hr : rOf sig ≠ 0) :
    rec ≤ 3 ∧ Recovers (beNat key • G) msg sig rec := by
  have hk := (EcdsaSign.signWith_some h).1
  have hs := (EcdsaSign.signWith_some h).2.2.2.1
  rw [EcdsaSign.signWith_eq hk] at h
  cases hl : Ecdsa.signLoop f ((beNat key : Nat) : S) ((beNat msg : Nat) : S) fuel 0 with
  | none => rw [hl] at h; cases h
  | some t =>
    obtain ⟨r, s, rc⟩ := t
    rw [hl] at h
    dsimp only at h
    rw [Option.some.injEq, Prod.mk.injEq] at h
    obtain ⟨rfl, rfl⟩ := h
    obtain ⟨i, -, -, hT, -, hS⟩ := EcdsaSign.loop_some _ _ hl
    have hk0 : ((beNat (f i) : Nat) : S) ≠ 0 := by
      rw [Ne, cast_zero_iff hT.2.1]; have := hT.1; omega
    obtain ⟨x, y, hn, h1, h2, h3, h4, h5⟩ := sign_rec hk0 hS
    rw [EcdsaSign.sig_r] at hr
    rw [EcdsaSign.sig_s] at hs
    refine ⟨h1, ?_⟩
    rw [Recovers, EcdsaSign.sig_r, EcdsaSign.sig_s]
    refine ⟨Nat.pos_of_ne_zero hr, ZMod.val_lt r, hs, ZMod.val_lt s, EcKeys.mul_ne hk, x, y, hn, ?_, h4, ?_⟩
    · rw [h3, h2, ZMod.val_natCast, Nat.mod_add_div]
    · rw [val_smul, val_smul, nat_smul (beNat msg), nat_smul (beNat key), h5, smul_smul, ← add_smul]

end Verif.Lemmas.EcRecover

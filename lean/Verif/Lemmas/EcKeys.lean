import Verif.Lemmas.EllComplete
import Verif.Model.EcOps
/-
Private and public keys and the common secret.
-/
namespace Verif.Lemmas.EcKeys
open Verif Verif.Spec.Secp Verif.Elligator Verif.Ec Verif.Lemmas.EllField Verif.Lemmas.EllMap Verif.Lemmas.EllGroup
open Verif.Lemmas.EllHash Verif.Lemmas.EllComplete Verif.EcOps
open Verif.Lemmas.SecpOrder (nsmul_eq_zero n_prime)
open WeierstrassCurve.Affine

attribute [local irreducible] xy2 sqrt isqrt svdw addGe geSetGej serialize invert

/-- A private key: a number from 1 to `n - 1`. -/
def Valid (key : Bytes) : Prop := 0 < beNat key ∧ beNat key < n

theorem verify_iff (key : Bytes) : verifyPrivkey key = true ↔ Valid key := by
  simp only [verifyPrivkey, Bool.and_eq_true, Bool.not_eq_true', decide_eq_false_iff_not, Valid]
  omega

theorem mul_ne {key : Bytes} (h : Valid key) : beNat key • G ≠ 0 := by
  rw [Ne, nsmul_eq_zero, Nat.mod_eq_of_lt h.2]
  have := h.1
  omega

theorem mul_mul_ne {a b : Bytes} (ha : Valid a) (hb : Valid b) : beNat a • (beNat b • G) ≠ 0 := by
  rw [← mul_nsmul, Ne, nsmul_eq_zero, ← Nat.dvd_iff_mod_eq_zero, n_prime.dvd_mul]
  rintro (h | h)
  · exact absurd (Nat.le_of_dvd hb.1 h) (by have := hb.2; omega)
  · exact absurd (Nat.le_of_dvd ha.1 h) (by have := ha.2; omega)

theorem createPubkey_ok {key : Bytes} (h : Valid key) :
    ∃ b, createPubkey key = .ok b ∧ compress (beNat key • G) = some b := by
  have hne := mul_ne h
  rw [createPubkey, if_pos ((verify_iff key).2 h)]
  generalize beNat key • G = P at hne
  cases P with
  | zero => exact absurd rfl hne
  | some x y hn => exact serialize_on hn

theorem createPubkey_some {key b : Bytes} (h : createPubkey key = .ok b) : Valid key ∧ compress (beNat key • G) = some b := by
  by_cases hv : Valid key
  · obtain ⟨b', h1, h2⟩ := createPubkey_ok hv
    rw [h1] at h
    cases h
    exact ⟨hv, h2⟩
  · rw [createPubkey, if_neg (fun hc => hv ((verify_iff key).1 hc))] at h
    cases h

theorem verifyPubkey_iff (b : Bytes) : verifyPubkey b = true ↔ ∃ P, compress P = some b := by
  rw [verifyPubkey, Option.isSome_iff_exists]
  constructor
  · rintro ⟨k, hk⟩
    obtain ⟨hn, hc⟩ := parse_some hk
    exact ⟨_, hc⟩
  · rintro ⟨P, hP⟩
    obtain ⟨x, y, hn, -, hp⟩ := parse_of hP
    exact ⟨_, hp⟩

/-- The common secret. -/
theorem ecdh_point {P : Point} {pub key s : Bytes} (hP : compress P = some pub) (hk : Valid key)
    (hs : compress (beNat key • P) = some s) : ecdh pub key = .ok (Spec.Sha256.sha256 s) := by
  obtain ⟨x, y, hn, rfl, hp⟩ := parse_of hP
  rw [ecdh, hp]
  dsimp only
  rw [secpEcdh, pubkeyLoad, if_neg (x_ne ((on_iff _ _).1 hn))]
  dsimp only
  rw [if_neg (by have := hk.1; have := hk.2; omega), dif_pos ((on_iff _ _).1 hn)]
  generalize beNat key • (Point.some x y hn : Point) = Q at hs
  cases Q with
  | zero => cases hs
  | some x' y' hn' =>
    rw [compress_some] at hs
    cases hs
    rw [affine]
    dsimp only
    cases isOdd y' <;> rfl

/-- The routine fails exactly on a key that is no point, or a number that is no private key; it never aborts. -/
theorem ecdh_total {P : Point} {pub key : Bytes} (hP : compress P = some pub) (hk : Valid key) :
    ∃ s, ecdh pub key = .ok s := by
  obtain ⟨x, y, hn, rfl, hp⟩ := parse_of hP
  rw [ecdh, hp]
  dsimp only
  rw [secpEcdh, pubkeyLoad, if_neg (x_ne ((on_iff _ _).1 hn))]
  dsimp only
  rw [if_neg (by have := hk.1; have := hk.2; omega), dif_pos ((on_iff _ _).1 hn)]
  exact ⟨_, rfl⟩

theorem ecdh_bad {P : Point} {pub key : Bytes} (hP : compress P = some pub) (hk : ¬ Valid key) : ecdh pub key = .err () := by
  obtain ⟨x, y, hn, rfl, hp⟩ := parse_of hP
  rw [ecdh, hp]
  dsimp only
  rw [secpEcdh, pubkeyLoad, if_neg (x_ne ((on_iff _ _).1 hn))]
  dsimp only
  rw [if_pos (by unfold Valid at hk; omega)]

theorem ecdh_none {pub key : Bytes} (h : parse pub = none) : ecdh pub key = .err () := by
  rw [ecdh, h]

theorem compress_ne {P : Point} (h : P ≠ 0) : ∃ b, compress P = some b := by
  cases P with
  | zero => exact absurd rfl h
  | some x y hn => exact ⟨_, compress_some x y hn⟩

theorem ecdh_keys {a b pa : Bytes} (ha : Valid a) (hb : Valid b) (h : createPubkey a = .ok pa) :
    ∃ s, compress ((beNat a * beNat b) • G) = some s ∧ ecdh pa b = .ok (Spec.Sha256.sha256 s) := by
  have h1 := (createPubkey_some h).2
  obtain ⟨s, hs⟩ := compress_ne (mul_mul_ne hb ha)
  refine ⟨s, ?_, ecdh_point h1 hb hs⟩
  rw [mul_nsmul, hs]

theorem toOption_some {α : Type} {o : Out Unit α} {a : α} (h : toOption o = some a) : o = .ok a := by
  cases o with
  | ok b => cases h; rfl
  | err e => cases h
  | ub => cases h

theorem laws (draw : Bytes → Nat → F × Nat) (hd : ∀ e i, (draw e i).1 ≠ 0) (fuel : Nat) :
    Spec.Transport.CurveLaws (ops draw fuel) where
  pub_len k p h := compress_len (createPubkey_some (toOption_some h)).2
  pub_ok k p h := (verifyPubkey_iff p).2 ⟨_, (createPubkey_some (toOption_some h)).2⟩
  hash_len p r u h := (roundtrip (hd r) (toOption_some h)).1
  hash_inv p r u h := by
    show toOption (fromHash u) = some p
    rw [(roundtrip (hd r) (toOption_some h)).2]; rfl
  ecdh_symm a b pa pb ha hb := by
    have ha := toOption_some ha
    have hb := toOption_some hb
    have va := (createPubkey_some ha).1
    have vb := (createPubkey_some hb).1
    obtain ⟨s, h1, h2⟩ := ecdh_keys va vb ha
    obtain ⟨t, h3, h4⟩ := ecdh_keys vb va hb
    rw [Nat.mul_comm, h1] at h3
    cases h3
    show toOption (ecdh pa b) = toOption (ecdh pb a)
    rw [h2, h4]
  ecdh_def p k q hp hk := by
    obtain ⟨P, hP⟩ := (verifyPubkey_iff p).1 hp
    obtain ⟨s, hs⟩ := ecdh_total hP (createPubkey_some (toOption_some hk)).1
    show toOption (ecdh p k) ≠ none
    rw [hs]; exact Option.some_ne_none _

/-! ### The private key -/

theorem createPrivkeyLoop_some {rand : Nat → Option Bytes} (hr : ∀ i k, rand i = some k → k.length = 32) (f i : Nat)
    {key k : Bytes} (hk : key.length = 32) (h : createPrivkeyLoop rand f i key = some k) : k.length = 32 ∧ Valid k := by
  induction f generalizing i key with
  | zero => cases h
  | succ f ih =>
    rw [createPrivkeyLoop] at h
    split at h
    · rename_i hv
      cases h
      exact ⟨hk, (verify_iff _).1 hv⟩
    · split at h
      · cases h
      · cases hi : rand i with
        | none => rw [hi] at h; cases h
        | some k' => rw [hi] at h; exact ih _ (hr i k' hi) h

/-- The loop fails only after a failure of the source or 1001 numbers out of range. -/
theorem createPrivkeyLoop_none {rand : Nat → Option Bytes} (f i : Nat) {key : Bytes} (hf : 1002 ≤ f + i) (hi : i ≤ 1001)
    (h : createPrivkeyLoop rand f i key = none) :
    (∃ j, i ≤ j ∧ j ≤ 1000 ∧ rand j = none) ∨ (∀ j, i ≤ j → j ≤ 1000 → ∃ k, rand j = some k ∧ ¬ Valid k) := by
  induction f generalizing i key with
  | zero => omega
  | succ f ih =>
    rw [createPrivkeyLoop] at h
    split at h
    · cases h
    · split at h
      · right; intro j h1 h2; omega
      · cases hr : rand i with
        | none => left; exact ⟨i, Nat.le_refl _, by omega, hr⟩
        | some k' =>
          rw [hr] at h
          dsimp only at h
          have hv : ¬ Valid k' := by
            intro hv
            cases f with
            | zero => omega
            | succ f =>
              rw [createPrivkeyLoop, if_pos ((verify_iff _).2 hv)] at h
              cases h
          rcases ih (i + 1) (by omega) (by omega) h with ⟨j, h1, h2, h3⟩ | hall
          · left; exact ⟨j, by omega, h2, h3⟩
          · right
            intro j h1 h2
            by_cases he : j = i
            · subst he; exact ⟨k', hr, hv⟩
            · exact hall j (by omega) h2

/-! ### Every encoding can occur; opposite halves -/

theorem reach {u1 u2 : F} (h1 : u1 ≠ 0) (h2 : u2 ≠ 0) {pub : Bytes}
    (hp : compress (pt (svdw_on h1) + pt (svdw_on h2)) = some pub) :
    ∃ r < 4, toHash (fun _ => (u1, r)) 1 pub = .ok (getB32 u1 ++ getB32 u2) := by
  obtain ⟨r, hr, hi⟩ := finds h2
  refine ⟨r, hr, ?_⟩
  obtain ⟨x, y, hn, hP, hparse⟩ := parse_of hp
  have hon : On ⟨x, y, false⟩ := ⟨rfl, (on_iff _ _).1 hn⟩
  have hx : x ≠ 0 := x_ne ((on_iff _ _).1 hn)
  have hsum := add_spec hon (neg_on (svdw_on h1))
  rw [pt_neg (svdw_on h1)] at hsum
  have e : pt hon + -pt (svdw_on h1) = pt (svdw_on h2) := by
    have : pt hon = pt (svdw_on h1) + pt (svdw_on h2) := by rw [hP]; rfl
    rw [this]; abel
  rw [e] at hsum
  have hg : geSetGej (addGe (gejSetGe ⟨x, y, false⟩) (geNeg (svdw u1))) = svdw u2 :=
    Eq.trans (show _ = (⟨(svdw u2).x, (svdw u2).y, false⟩ : Ge) from hsum) (ge_ext (svdw_on h2).1.symm rfl rfl)
  have hl : toHashLoop (fun _ => (u1, r)) (gejSetGe ⟨x, y, false⟩) 1 0 = some (u1, u2) := by
    rw [toHashLoop]
    dsimp only
    rw [hg, hi]
  rw [toHash, hparse]
  dsimp only
  rw [pubkeyLoad, if_neg hx]
  dsimp only
  rw [hl]

theorem svdw_neg {u : F} (h : u ≠ 0) : pt (svdw_on (neg_ne_zero.2 h)) = -pt (svdw_on h) := by
  have hx : (svdw (-u)).x = (svdw u).x := by rw [svdw_x, svdw_x, xy2_neg]
  have hon := svdw_on h
  have hon' := svdw_on (neg_ne_zero.2 h)
  have hy : (svdw (-u)).y = -(svdw u).y := by
    refine sq_parity (neg_ne_zero.2 (y_ne hon.2)) ?_ ?_
    · have := hon'.2
      rw [hx, ← hon.2] at this
      linear_combination this
    · rw [svdw_odd (neg_ne_zero.2 h), odd_neg h, odd_neg (y_ne hon.2), svdw_odd h]
  rw [pt, pt, Point.neg_some, Point.some.injEq, negY_eq]
  exact ⟨hx, hy⟩

theorem opposite {u : F} (h : u ≠ 0) : fromHash (getB32 u ++ getB32 (-u)) = .err () := by
  obtain ⟨e1, e2⟩ := half_get u (-u)
  have q1 : half1 (getB32 u ++ getB32 (-u)) ≠ 0 := by rw [e1]; exact h
  have q2 : half2 (getB32 u ++ getB32 (-u)) ≠ 0 := by rw [e2]; exact neg_ne_zero.2 h
  have r1 : pt (svdw_on q1) = pt (svdw_on h) := by
    refine is_inj (is_pt _) ?_; rw [e1]; exact is_pt _
  have r2 : pt (svdw_on q2) = -pt (svdw_on h) := by
    rw [← svdw_neg h]
    refine is_inj (is_pt _) ?_; rw [e2]; exact is_pt _
  rw [fromHash_sum q1 q2, r1, r2, add_neg_cancel]
  rfl

end Verif.Lemmas.EcKeys

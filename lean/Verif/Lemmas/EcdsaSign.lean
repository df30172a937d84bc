import Verif.Lemmas.Ecdsa
import Verif.Lemmas.Hash
/-
Signing: the random number is that of RFC 6979, and the signature is valid.
-/
namespace Verif.Lemmas.EcdsaSign
open Verif Verif.Spec.Secp Verif.Elligator Verif.Ec Verif.Ecdsa Verif.Spec.Secdsa Verif.Spec.Hmac
open Verif.Lemmas.EllField Verif.Lemmas.EllHash Verif.Lemmas.SecpCard Verif.Lemmas.SecpOrder Verif.Lemmas.Ecdsa
open WeierstrassCurve.Affine

attribute [local irreducible] sqrt serialize Spec.Sha256.sha256 hmac

/-! ### The generator -/

theorem rngLoop_32 (k v : Bytes) : rngLoop k 32 v 32 = (hmac k v, hmac k v) := by
  rw [rngLoop, if_pos (by decide)]
  dsimp only
  rw [if_neg (by decide), Nat.sub_self]
  have h : rngLoop k 31 (hmac k v) 0 = (hmac k v, []) := by
    rw [rngLoop, if_neg (by decide)]
  rw [h, List.append_nil, List.take_of_length_le (by rw [Hash.hmac_length])]

theorem nonceLoop_eq (key h : Bytes) (c i : Nat) (g : Rng) (hr : g.retry = true) (hs : state key h i = (g.k, g.v)) :
    nonceLoop g c = (state key h (i + 1 + c)).2 := by
  induction c generalizing i g with
  | zero =>
    rw [nonceLoop, rngGenerate]
    dsimp only
    rw [if_pos hr]
    dsimp only
    rw [rngLoop_32, Nat.add_zero, state, hs]
  | succ c ih =>
    rw [nonceLoop, Nat.add_succ, Nat.succ_eq_add_one, Nat.add_right_comm]
    refine ih (i + 1) _ rfl ?_
    rw [state, hs, rngGenerate]
    dsimp only
    rw [if_pos hr]
    dsimp only
    rw [rngLoop_32]

theorem rngInit_retry (seed : Bytes) : (rngInit seed).retry = false := by rw [rngInit]

theorem state_zero (key h : Bytes) :
    state key h 0 = ((rngInit (key ++ h)).k, hmac (rngInit (key ++ h)).k (rngInit (key ++ h)).v) := by
  rw [state, start, rngInit]
  dsimp only
  simp only [List.append_assoc]

theorem generate_first (g : Rng) (hr : g.retry = false) :
    rngGenerate g 32 = (⟨hmac g.k g.v, g.k, true⟩, hmac g.k g.v) := by
  rw [rngGenerate, hr]
  dsimp only
  rw [if_neg Bool.false_ne_true]
  rw [rngLoop_32]

theorem nonce_eq (msg key : Bytes) (c : Nat) : nonce msg key c = (state key msg c).2 := by
  rw [nonce]
  have h0 := state_zero key msg
  have hr := rngInit_retry (key ++ msg)
  generalize rngInit (key ++ msg) = g at h0 hr
  cases c with
  | zero => rw [nonceLoop, generate_first g hr, h0]
  | succ c => rw [nonceLoop, generate_first g hr, nonceLoop_eq key msg c 0 _ rfl h0, Nat.zero_add, Nat.add_comm]

theorem nonce_candidate (msg key : Bytes) (c : Nat) : beNat (nonce msg key c) = candidate key msg c := by
  rw [nonce_eq, candidate]

/-! ### A signature -/

theorem n_odd : n % 2 = 1 := by decide +kernel

theorem smul_ne {k : S} (hk : k ≠ 0) : k.val • G ≠ 0 := by
  rw [Ne, nsmul_eq_zero, Nat.mod_eq_of_lt (ZMod.val_lt k)]
  exact fun h => hk ((ZMod.val_eq_zero k).1 h)

/-- What the routine computes. -/
theorem sigSign_eq {d e k : S} (hk : k ≠ 0) : ∃ x y h, k.val • G = Point.some x y h ∧
    ((k⁻¹ * (((x.val : Nat) : S) * d + e) = 0 → sigSign d e k = none) ∧
     (k⁻¹ * (((x.val : Nat) : S) * d + e) ≠ 0 → ∃ s rec, sigSign d e k = some (((x.val : Nat) : S), s, rec) ∧ s ≠ 0 ∧ s.val ≤ n / 2 ∧
       (s = k⁻¹ * (((x.val : Nat) : S) * d + e) ∨ s = -(k⁻¹ * (((x.val : Nat) : S) * d + e))))) := by
  have hne := smul_ne hk
  rw [sigSign]
  generalize k.val • G = P at hne
  cases P with
  | zero => exact absurd rfl hne
  | some x y hn =>
    refine ⟨x, y, hn, rfl, ?_⟩
    rw [affine]
    dsimp only
    rw [setS_eq, getB32, beNat_beBytes_of_lt (val_lt x)]
    dsimp only
    generalize k⁻¹ * (((x.val : Nat) : S) * d + e) = t
    refine ⟨fun h => by rw [if_pos h], fun h => ?_⟩
    rw [if_neg h]
    by_cases hh : isHigh t = true
    · rw [if_pos hh]
      refine ⟨_, _, rfl, neg_ne_zero.2 h, ?_, Or.inr rfl⟩
      rw [isHigh, decide_eq_true_iff] at hh
      have : NeZero t := ⟨h⟩
      rw [ZMod.val_neg_of_ne_zero]
      have := n_odd
      omega
    · rw [if_neg hh]
      refine ⟨_, _, rfl, h, ?_, Or.inl rfl⟩
      rw [isHigh, decide_eq_true_iff] at hh
      omega

/-- The result, without an inverse. -/
theorem sigSign_val {d e k t : S} (hk : k ≠ 0) {x y : F} {h : curve.Nonsingular x y} (hx : k.val • G = Point.some x y h)
    (ht : k * t = ((x.val : Nat) : S) * d + e) (ht0 : t ≠ 0) :
    ∃ rec, sigSign d e k = some (((x.val : Nat) : S), if isHigh t then -t else t, rec) := by
  have e1 : k⁻¹ * (((x.val : Nat) : S) * d + e) = t := by rw [← ht, ← mul_assoc, inv_mul_cancel₀ hk, one_mul]
  rw [sigSign, hx, affine]
  dsimp only
  rw [setS_eq, getB32, beNat_beBytes_of_lt (val_lt x)]
  dsimp only
  rw [e1, if_neg ht0]
  by_cases hh : isHigh t = true
  · rw [if_pos hh, if_pos hh]; exact ⟨_, rfl⟩
  · rw [if_neg hh, if_neg hh]; exact ⟨_, rfl⟩

theorem sig_len (r s : S) : (getS r ++ getS s).length = 64 := by rw [List.length_append, getS_len, getS_len]
theorem sig_r (r s : S) : rOf (getS r ++ getS s) = r.val := by rw [rOf, List.take_left' (getS_len r), getS_nat]
theorem sig_s (r s : S) : sOf (getS r ++ getS s) = s.val := by rw [sOf, List.drop_left' (getS_len r), getS_nat]

/-- It is valid, if its first number is not 0. -/
theorem sig_valid {d e k s : S} {msg : Bytes} {D : Nat} (hD : (D : S) = d) (he : ((beNat msg : Nat) : S) = e) (hk : k ≠ 0)
    {x y : F} {h : curve.Nonsingular x y} (hx : k.val • G = Point.some x y h) (hs0 : s ≠ 0) (hr : ((x.val : Nat) : S) ≠ 0)
    (hs : s = k⁻¹ * (((x.val : Nat) : S) * d + e) ∨ s = -(k⁻¹ * (((x.val : Nat) : S) * d + e))) :
    Valid (D • G) msg (getS ((x.val : Nat) : S) ++ getS s) := by
  generalize hR : ((x.val : Nat) : S) = r at hr hs
  have hv : r.val = x.val % n := by rw [← hR, ZMod.val_natCast]
  have p1 : 0 < r.val := Nat.pos_of_ne_zero fun hc => hr ((ZMod.val_eq_zero r).1 hc)
  have p2 : 0 < s.val := Nat.pos_of_ne_zero fun hc => hs0 ((ZMod.val_eq_zero s).1 hc)
  refine ⟨sig_len _ _, ?_⟩
  rw [sig_r, sig_s]
  have := (sigVerify_iff (ZMod.val_lt r) (ZMod.val_lt s) (D • G) (e := beNat msg))
  refine ⟨p1, ZMod.val_lt r, p2, ZMod.val_lt s, s⁻¹.val, ?_, ?_⟩
  · have e1 : ((s.val * s⁻¹.val : Nat) : S) = ((1 : Nat) : S) := by
      rw [Nat.cast_mul, ZMod.natCast_zmod_val, ZMod.natCast_zmod_val, Nat.cast_one, mul_inv_cancel₀ hs0]
    have := (ZMod.natCast_eq_natCast_iff' _ _ n).1 e1
    rw [this, Nat.mod_eq_of_lt n_prime.one_lt]
  · have hsum : (beNat msg * s⁻¹.val % n) • G + (r.val * s⁻¹.val % n) • D • G = (s⁻¹ * (r * d + e)) • G := by
      rw [mod_smul, mod_smul, Nat.cast_mul, Nat.cast_mul, ZMod.natCast_zmod_val, ZMod.natCast_zmod_val, he, nat_smul D, hD, smul_smul,
        ← add_smul]
      congr 1
      ring
    rw [hsum]
    rw [val_smul] at hx
    rcases hs with hs | hs
    · have e2 : s⁻¹ * (r * d + e) = k := by
        have : r * d + e = k * s := by rw [hs, ← mul_assoc, mul_inv_cancel₀ hk, one_mul]
        rw [this]; field_simp
      rw [e2]
      exact ⟨x, y, h, hx, hv.symm⟩
    · have e2 : s⁻¹ * (r * d + e) = -k := by
        have : r * d + e = -(k * s) := by rw [hs, mul_neg, neg_neg, ← mul_assoc, mul_inv_cancel₀ hk, one_mul]
        rw [this]; field_simp
      rw [e2, neg_smul, hx, Point.neg_some]
      exact ⟨x, _, _, rfl, hv.symm⟩

/-! ### The loop -/

/-- A candidate that is taken: it is in range, and the second number is not 0. -/
def Taken (d e : S) (c : Nat) : Prop :=
  0 < c ∧ c < n ∧ ∃ x y h, c • G = Point.some x y h ∧ ((x.val : Nat) : S) * d + e ≠ 0

theorem taken_of {key hash : Bytes} {k : Nat} (h : Suitable key hash k) :
    Taken ((beNat key : Nat) : S) ((beNat hash : Nat) : S) k := by
  obtain ⟨h1, h2, x, y, hn, h3, -, h4⟩ := h
  refine ⟨h1, h2, x, y, hn, h3, fun hc => h4 ?_⟩
  have : ((beNat hash + x.val * beNat key : Nat) : S) = 0 := by push_cast; linear_combination hc
  exact Nat.mod_eq_zero_of_dvd ((ZMod.natCast_eq_zero_iff _ _).1 this)

theorem suitable_of {key hash : Bytes} {k : Nat} (h : Taken ((beNat key : Nat) : S) ((beNat hash : Nat) : S) k) {x y : F}
    {hn : curve.Nonsingular x y} (hx : k • G = Point.some x y hn) (hr : x.val % n ≠ 0) : Suitable key hash k := by
  obtain ⟨h1, h2, x', y', hn', h3, h4⟩ := h
  rw [hx, Point.some.injEq] at h3
  rw [← h3.1] at h4
  refine ⟨h1, h2, x, y, hn, hx, hr, fun hc => h4 ?_⟩
  have := (ZMod.natCast_eq_zero_iff (beNat hash + x.val * beNat key) n).2 (Nat.dvd_of_mod_eq_zero hc)
  push_cast at this
  linear_combination this

theorem taken_iff {d e k : S} (hk : k ≠ 0) : Taken d e k.val ↔ ∃ t, sigSign d e k = some t := by
  obtain ⟨x, y, h, hx, h1, h2⟩ := sigSign_eq (d := d) (e := e) hk
  constructor
  · rintro ⟨-, -, x', y', h', hx', ht⟩
    rw [hx, Point.some.injEq] at hx'
    rw [← hx'.1] at ht
    obtain ⟨s, rec, e1, -⟩ := h2 (mul_ne_zero (inv_ne_zero hk) ht)
    exact ⟨_, e1⟩
  · rintro ⟨t, ht⟩
    refine ⟨Nat.pos_of_ne_zero fun hc => hk ((ZMod.val_eq_zero k).1 hc), ZMod.val_lt k, x, y, h, hx, fun hc => ?_⟩
    rw [h1 (by rw [hc, mul_zero])] at ht
    cases ht

theorem loop_some {f : Nat → Bytes} {d e : S} (fuel c : Nat) {t : S × S × Nat} (h : signLoop f d e fuel c = some t) :
    ∃ i, c ≤ i ∧ i < c + fuel ∧ Taken d e (beNat (f i)) ∧ (∀ j, c ≤ j → j < i → ¬ Taken d e (beNat (f j))) ∧
      sigSign d e ((beNat (f i) : Nat) : S) = some t := by
  induction fuel generalizing c with
  | zero => cases h
  | succ fuel ih =>
    rw [signLoop, setS_eq] at h
    dsimp only at h
    have step : signLoop f d e fuel (c + 1) = some t → ¬ Taken d e (beNat (f c)) →
        ∃ i, c ≤ i ∧ i < c + (fuel + 1) ∧ Taken d e (beNat (f i)) ∧ (∀ j, c ≤ j → j < i → ¬ Taken d e (beNat (f j))) ∧
          sigSign d e ((beNat (f i) : Nat) : S) = some t := by
      intro hh hn
      obtain ⟨i, h1, h2, h3, h4, h5⟩ := ih (c + 1) hh
      refine ⟨i, by omega, by omega, h3, fun j hj1 hj2 => ?_, h5⟩
      by_cases hc : j = c
      · rw [hc]; exact hn
      · exact h4 j (by omega) hj2
    by_cases hr : ((beNat (f c) : Nat) : S) ≠ 0 ∧ decide (n ≤ beNat (f c)) = false
    · rw [if_pos hr] at h
      have hlt : beNat (f c) < n := by have := of_decide_eq_false hr.2; omega
      have hT := taken_iff (d := d) (e := e) hr.1
      rw [val_of hlt] at hT
      cases hs : sigSign d e ((beNat (f c) : Nat) : S) with
      | none =>
        rw [hs] at h
        exact step h (fun hc => by obtain ⟨t, ht⟩ := hT.1 hc; rw [hs] at ht; cases ht)
      | some t' =>
        rw [hs] at h
        cases h
        exact ⟨c, Nat.le_refl _, by omega, hT.2 ⟨_, hs⟩, fun j h1 h2 => by omega, hs⟩
    · rw [if_neg hr] at h
      refine step h fun hc => hr ⟨?_, ?_⟩
      · rw [Ne, cast_zero_iff hc.2.1]; have := hc.1; omega
      · rw [decide_eq_false_iff_not]; have := hc.2.1; omega

theorem loop_of {f : Nat → Bytes} {d e : S} (fuel c i : Nat) (h1 : c ≤ i) (h2 : i < c + fuel) (h : Taken d e (beNat (f i))) :
    ∃ t, signLoop f d e fuel c = some t := by
  induction fuel generalizing c with
  | zero => omega
  | succ fuel ih =>
    rw [signLoop, setS_eq]
    dsimp only
    by_cases hr : ((beNat (f c) : Nat) : S) ≠ 0 ∧ decide (n ≤ beNat (f c)) = false
    · rw [if_pos hr]
      have hlt : beNat (f c) < n := by have := of_decide_eq_false hr.2; omega
      have hT := taken_iff (d := d) (e := e) hr.1
      rw [val_of hlt] at hT
      cases hs : sigSign d e ((beNat (f c) : Nat) : S) with
      | some t => exact ⟨t, rfl⟩
      | none =>
        dsimp only
        by_cases hc : c = i
        · rw [hc] at hs hT
          obtain ⟨t, ht⟩ := hT.1 h
          rw [hs] at ht; cases ht
        · exact ih (c + 1) (by omega) (by omega)
    · rw [if_neg hr]
      by_cases hc : c = i
      · exfalso
        rw [hc] at hr
        refine hr ⟨?_, ?_⟩
        · rw [Ne, cast_zero_iff h.2.1]; have := h.1; omega
        · rw [decide_eq_false_iff_not]; have := h.2.1; omega
      · exact ih (c + 1) (by omega) (by omega)

theorem valid_cast {key : Bytes} (h : EcKeys.Valid key) : ((beNat key : Nat) : S) ≠ 0 := by
  rw [Ne, cast_zero_iff h.2]; have := h.1; omega

theorem signWith_eq {f : Nat → Bytes} {fuel : Nat} {key : Bytes} (hk : EcKeys.Valid key) (msg : Bytes) :
    signWith f fuel key msg = match signLoop f ((beNat key : Nat) : S) ((beNat msg : Nat) : S) fuel 0 with
      | none => none
      | some (r, s, rec) => some (getS r ++ getS s, rec) := by
  rw [signWith, signRecoverable, setS_eq, setS_eq]
  dsimp only
  rw [if_pos ⟨decide_eq_false (by have := hk.2; omega), valid_cast hk⟩]
  cases signLoop f ((beNat key : Nat) : S) ((beNat msg : Nat) : S) fuel 0 <;> rfl

theorem signWith_bad {f : Nat → Bytes} {fuel : Nat} {key : Bytes} (hk : ¬ EcKeys.Valid key) (msg : Bytes) :
    signWith f fuel key msg = none := by
  rw [signWith, signRecoverable, setS_eq, setS_eq]
  dsimp only
  rw [if_neg]
  rintro ⟨h1, h2⟩
  have h1 := of_decide_eq_false h1
  rw [Ne, cast_zero_iff (by omega)] at h2
  exact hk ⟨by omega, by omega⟩

/-- A signature that is made. -/
theorem signWith_some {f : Nat → Bytes} {fuel : Nat} {key msg sig : Bytes} {rec : Nat} (h : signWith f fuel key msg = some (sig, rec)) :
    EcKeys.Valid key ∧ sig.length = 64 ∧ Low sig ∧ 0 < sOf sig ∧
    (∃ i, Taken ((beNat key : Nat) : S) ((beNat msg : Nat) : S) (beNat (f i)) ∧
      (∀ j < i, ¬ Taken ((beNat key : Nat) : S) ((beNat msg : Nat) : S) (beNat (f j))) ∧
      ∃ x y h, beNat (f i) • G = Point.some x y h ∧ rOf sig = x.val % n) ∧
    (rOf sig ≠ 0 → Valid (beNat key • G) msg sig) := by
  by_cases hk : EcKeys.Valid key
  case neg => rw [signWith_bad hk] at h; cases h
  refine ⟨hk, ?_⟩
  rw [signWith_eq hk] at h
  cases hl : signLoop f ((beNat key : Nat) : S) ((beNat msg : Nat) : S) fuel 0 with
  | none => rw [hl] at h; cases h
  | some t =>
    obtain ⟨r, s, rc⟩ := t
    rw [hl] at h
    dsimp only at h
    rw [Option.some.injEq, Prod.mk.injEq] at h
    obtain ⟨rfl, rfl⟩ := h
    obtain ⟨i, -, -, hT, hmin, hs⟩ := loop_some _ _ hl
    have hk0 : ((beNat (f i) : Nat) : S) ≠ 0 := by
      rw [Ne, cast_zero_iff hT.2.1]; have := hT.1; omega
    obtain ⟨x, y, hn, hx, h1, h2⟩ := sigSign_eq (d := ((beNat key : Nat) : S)) (e := ((beNat msg : Nat) : S)) hk0
    have hne : ((beNat (f i) : Nat) : S)⁻¹ * (((x.val : Nat) : S) * ((beNat key : Nat) : S) + ((beNat msg : Nat) : S)) ≠ 0 := by
      intro hc; rw [h1 hc] at hs; cases hs
    obtain ⟨s', rec', e1, e2, e3, e4⟩ := h2 hne
    rw [hs, Option.some.injEq, Prod.mk.injEq, Prod.mk.injEq] at e1
    obtain ⟨rfl, rfl, -⟩ := e1
    refine ⟨sig_len _ _, ?_, ?_, ⟨i, hT, fun j hj => hmin j (Nat.zero_le _) hj, x, y, hn, ?_, ?_⟩, ?_⟩
    · rw [Low, sig_s]; exact e3
    · rw [sig_s]; exact Nat.pos_of_ne_zero fun hc => e2 ((ZMod.val_eq_zero s).1 hc)
    · rw [val_of hT.2.1] at hx; exact hx
    · rw [sig_r, ZMod.val_natCast]
    · intro hr
      rw [sig_r] at hr
      exact sig_valid rfl rfl hk0 hx e2 (fun hc => hr ((ZMod.val_eq_zero _).2 hc)) e4

theorem signWith_of {f : Nat → Bytes} {fuel i : Nat} {key msg : Bytes} (hk : EcKeys.Valid key) (hi : i < fuel)
    (h : Taken ((beNat key : Nat) : S) ((beNat msg : Nat) : S) (beNat (f i))) : ∃ sig rec, signWith f fuel key msg = some (sig, rec) := by
  obtain ⟨⟨r, s, rec⟩, ht⟩ := loop_of fuel 0 i (Nat.zero_le _) (by omega) h
  exact ⟨_, rec, by rw [signWith_eq hk, ht]⟩

/-- There is a point with the abscissa `n`. -/
theorem gap : ∃ k, 0 < k ∧ k < n ∧ ∃ y h, k • G = Point.some ((n : Nat) : F) y h := by
  have hsq : IsSquare ((((n : Nat) : F)) ^ 3 + 7) := (sqrt_flag _).1 (by decide +kernel)
  obtain ⟨y, hy⟩ := hsq
  have hn : curve.Nonsingular ((n : Nat) : F) y := (on_iff _ _).2 (by rw [hy]; ring)
  obtain ⟨k, hk, he⟩ := multiple (.some _ _ hn)
  refine ⟨k, Nat.pos_of_ne_zero ?_, hk, y, hn, he.symm⟩
  rintro rfl
  rw [zero_nsmul] at he
  cases he

end Verif.Lemmas.EcdsaSign

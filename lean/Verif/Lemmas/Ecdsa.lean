import Verif.Lemmas.EcKeys
import Verif.Lemmas.SecpCard
import Verif.Model.Ecdsa
import Verif.Spec.Secdsa
import Mathlib.Tactic.Module
import Mathlib.Algebra.Module.ZMod
/-
Signatures: what is made is valid, and what is accepted is what is valid.
-/
namespace Verif.Lemmas.Ecdsa
open Verif Verif.Spec.Secp Verif.Elligator Verif.Ec Verif.Ecdsa Verif.Spec.Secdsa
open Verif.Lemmas.EllField Verif.Lemmas.EllHash Verif.Lemmas.SecpCard Verif.Lemmas.SecpOrder
open WeierstrassCurve.Affine

attribute [local irreducible] sqrt serialize

noncomputable instance : Module S Point := AddCommGroup.zmodModule n_nsmul_all

theorem val_smul (a : S) (P : Point) : a.val • P = a • P := by
  rw [← Nat.cast_smul_eq_nsmul S, ZMod.natCast_zmod_val]

theorem nat_smul (k : Nat) (P : Point) : k • P = (k : S) • P := (Nat.cast_smul_eq_nsmul S k P).symm

theorem mod_smul (k : Nat) (P : Point) : (k % n) • P = (k : S) • P := by
  rw [nat_smul, ZMod.natCast_mod]

theorem n_lt : n < 256 ^ 32 := by decide +kernel
theorem n_lt_p : n < p := by decide +kernel
theorem p_lt_2n : p < 2 * n := by decide +kernel

theorem setS_eq (b : Bytes) : setS b = (((beNat b : Nat) : S), decide (n ≤ beNat b)) := rfl

theorem val_of {a : Nat} (h : a < n) : ((a : S)).val = a := ZMod.val_cast_of_lt h

theorem cast_zero_iff {a : Nat} (h : a < n) : ((a : Nat) : S) = 0 ↔ a = 0 := by
  constructor
  · intro e
    have := val_of h
    rw [e, ZMod.val_zero] at this
    exact this.symm
  · rintro rfl; exact Nat.cast_zero

theorem getS_len (s : S) : (getS s).length = 32 := beBytes_length _ _
theorem getS_nat (s : S) : beNat (getS s) = s.val := beNat_beBytes_of_lt (Nat.lt_trans (ZMod.val_lt s) n_lt)

/-- The abscissa modulo `n`. -/
theorem x_mod {X : F} {r : Nat} (h0 : r < n) :
    (X.val % n = r) ↔ (((r : Nat) : F) = X ∨ (¬ p - n ≤ (((r : Nat) : F)).val ∧ ((r : Nat) : F) + ((n : Nat) : F) = X)) := by
  have hp := n_lt_p
  have h2 := p_lt_2n
  have hX := ZMod.val_lt X
  have hr : (((r : Nat) : F)).val = r := ZMod.val_cast_of_lt (by omega)
  rw [hr]
  constructor
  · intro h
    by_cases hn : X.val < n
    · left
      rw [Nat.mod_eq_of_lt hn] at h
      rw [← h, ZMod.natCast_zmod_val]
    · right
      have e : X.val = r + n := by
        have : X.val = (X.val - n) + n := by omega
        rw [this, Nat.add_mod_right, Nat.mod_eq_of_lt (by omega)] at h
        omega
      refine ⟨by omega, ?_⟩
      rw [← Nat.cast_add, ← e, ZMod.natCast_zmod_val]
  · rintro (h | ⟨h1, h⟩)
    · rw [← h, hr, Nat.mod_eq_of_lt h0]
    · rw [← h, ← Nat.cast_add, ZMod.val_cast_of_lt (by omega), Nat.add_mod_right, Nat.mod_eq_of_lt h0]

/-- The core of the verification. -/
theorem sigVerify_iff {r s e : Nat} (hr : r < n) (hs : s < n) (Q : Point) :
    sigVerify (r : S) (s : S) Q (e : S) = true ↔ 0 < r ∧ 0 < s ∧
      ∃ w, s * w % n = 1 ∧ ∃ x y h, (e * w % n) • G + (r * w % n) • Q = Point.some x y h ∧ x.val % n = r := by
  have hone : 1 < n := n_prime.one_lt
  rw [sigVerify]
  by_cases h0 : (r : S) = 0 ∨ (s : S) = 0
  · rw [if_pos h0, cast_zero_iff hr, cast_zero_iff hs] at *
    constructor
    · intro h; cases h
    · rintro ⟨h1, h2, -⟩; omega
  · rw [if_neg h0]
    rw [cast_zero_iff hr, cast_zero_iff hs] at h0
    have hr0 : 0 < r := by omega
    have hs0 : 0 < s := by omega
    have hsn : (s : S) ≠ 0 := by rw [Ne, cast_zero_iff hs]; omega
    have hw : ∀ w, s * w % n = 1 ↔ (w : S) = (s : S)⁻¹ := by
      intro w
      rw [← mul_eq_one_iff_eq_inv₀ hsn]
      constructor
      · intro h
        have : ((s * w % n : Nat) : S) = ((1 : Nat) : S) := by rw [h]
        rw [ZMod.natCast_mod, Nat.cast_mul, Nat.cast_one] at this
        rw [mul_comm]; exact this
      · intro h
        have h : ((s * w : Nat) : S) = ((1 : Nat) : S) := by rw [Nat.cast_mul, Nat.cast_one, mul_comm]; exact h
        have := (ZMod.natCast_eq_natCast_iff' _ _ n).1 h
        rw [this, Nat.mod_eq_of_lt hone]
    dsimp only
    have hsum : ∀ w : Nat, (w : S) = (s : S)⁻¹ → (((s : S)⁻¹ * (r : S)).val • Q + ((s : S)⁻¹ * (e : S)).val • G) =
        (e * w % n) • G + (r * w % n) • Q := by
      intro w h
      rw [val_smul, val_smul, mod_smul, mod_smul, Nat.cast_mul, Nat.cast_mul, h, add_comm, mul_comm, mul_comm (s : S)⁻¹]
    have hxr : (setB32 (getS (r : S))).1 = ((r : Nat) : F) := by
      show ((beNat (getS (r : S)) : Nat) : F) = _
      rw [getS_nat, val_of hr]
    rw [hxr]
    have key : (∃ w, s * w % n = 1 ∧ ∃ x y h, (e * w % n) • G + (r * w % n) • Q = Point.some x y h ∧ x.val % n = r) ↔
        ∃ x y h, (((s : S)⁻¹ * (r : S)).val • Q + ((s : S)⁻¹ * (e : S)).val • G) = Point.some x y h ∧ x.val % n = r := by
      constructor
      · rintro ⟨w, h1, h2⟩
        rw [hsum w ((hw w).1 h1)]
        exact h2
      · intro h
        have hc : (((s : S)⁻¹.val : Nat) : S) = (s : S)⁻¹ := ZMod.natCast_zmod_val _
        refine ⟨(s : S)⁻¹.val, (hw _).2 hc, ?_⟩
        rw [← hsum _ hc]
        exact h
    rw [key]
    generalize ((s : S)⁻¹ * (r : S)).val • Q + ((s : S)⁻¹ * (e : S)).val • G = R
    cases R with
    | zero =>
      constructor
      · intro h; cases h
      · rintro ⟨-, -, x, y, h, he, -⟩; cases he
    | some X Y hn =>
      have hx := x_mod (X := X) hr
      have e1 : (∃ x y h, (Point.some X Y hn : Point) = Point.some x y h ∧ x.val % n = r) ↔ X.val % n = r := by
        constructor
        · rintro ⟨x, y, h, he, hv⟩
          rw [Point.some.injEq] at he
          rw [he.1]; exact hv
        · intro h; exact ⟨X, Y, hn, rfl, h⟩
      rw [e1, hx]
      dsimp only
      by_cases c1 : ((r : Nat) : F) = X
      · rw [if_pos c1]
        exact ⟨fun _ => ⟨hr0, hs0, Or.inl c1⟩, fun _ => rfl⟩
      · rw [if_neg c1]
        by_cases c2 : p - n ≤ (((r : Nat) : F)).val
        · rw [if_pos c2]
          constructor
          · intro h; cases h
          · rintro ⟨-, -, h | h⟩
            · exact absurd h c1
            · exact absurd c2 h.1
        · rw [if_neg c2, decide_eq_true_iff]
          constructor
          · intro h; exact ⟨hr0, hs0, Or.inr ⟨c2, h⟩⟩
          · rintro ⟨-, -, h | h⟩
            · exact absurd h c1
            · exact h.2

theorem parseCompact_some {sig : Bytes} (hl : sig.length = 64) {r s : S} (h : parseCompact sig = some (r, s)) :
    rOf sig < n ∧ sOf sig < n ∧ r = ((rOf sig : Nat) : S) ∧ s = ((sOf sig : Nat) : S) := by
  have hd : (sig.drop 32).take 32 = sig.drop 32 := List.take_of_length_le (by simp [hl])
  simp only [parseCompact, setS_eq, hd] at h
  split at h
  · rename_i hc
    simp only [Bool.and_eq_true, Bool.not_eq_true', decide_eq_false_iff_not] at hc
    rw [Option.some.injEq, Prod.mk.injEq] at h
    exact ⟨by unfold rOf; omega, by unfold sOf; omega, h.1.symm, h.2.symm⟩
  · cases h

theorem parseCompact_of {sig : Bytes} (hl : sig.length = 64) (hr : rOf sig < n) (hs : sOf sig < n) :
    parseCompact sig = some (((rOf sig : Nat) : S), ((sOf sig : Nat) : S)) := by
  have hd : (sig.drop 32).take 32 = sig.drop 32 := List.take_of_length_le (by simp [hl])
  unfold rOf at hr
  unfold sOf at hs
  simp only [parseCompact, setS_eq, hd]
  rw [if_pos (by simp only [Bool.and_eq_true, Bool.not_eq_true', decide_eq_false_iff_not]; omega)]
  rfl

/-- The verification accepts exactly the valid signatures with the smaller second number. -/
theorem verifyMsg_spec {pub sig : Bytes} (hl : sig.length = 64) (msg : Bytes) :
    ∃ b, verifyMsg pub msg sig = .ok b ∧ (b = true ↔ ∃ Q, compress Q = some pub ∧ Valid Q msg sig ∧ Low sig) := by
  rw [verifyMsg]
  cases hc : parseCompact sig with
  | none =>
    refine ⟨false, rfl, ?_⟩
    constructor
    · intro h; cases h
    · rintro ⟨Q, -, ⟨-, -, h1, -, h2, -⟩, -⟩
      rw [parseCompact_of hl h1 h2] at hc
      cases hc
  | some t =>
    obtain ⟨r, s⟩ := t
    obtain ⟨hr, hs, rfl, rfl⟩ := parseCompact_some hl hc
    dsimp only
    cases hp : parse pub with
    | none =>
      refine ⟨false, rfl, ?_⟩
      constructor
      · intro h; cases h
      · rintro ⟨Q, hQ, -⟩
        obtain ⟨x, y, hn, -, hpp⟩ := parse_of hQ
        rw [hp] at hpp; cases hpp
    | some k =>
      obtain ⟨hn, hk⟩ := parse_some hp
      have hu : ∀ Q, compress Q = some pub → Q = .some k.1 k.2 hn := by
        intro Q hQ
        obtain ⟨x, y, hn', rfl, hpp⟩ := parse_of hQ
        rw [hp] at hpp
        cases hpp
        rfl
      dsimp only
      rw [ecdsaVerify]
      dsimp only
      have hlow : isHigh ((sOf sig : Nat) : S) = true ↔ ¬ Low sig := by
        rw [isHigh, decide_eq_true_iff, val_of hs, Low, Nat.not_le]
      by_cases hh : isHigh ((sOf sig : Nat) : S) = true
      · rw [if_pos hh]
        refine ⟨false, rfl, ?_⟩
        constructor
        · intro h; cases h
        · rintro ⟨-, -, -, h⟩; exact absurd h (hlow.1 hh)
      · rw [if_neg hh, pubkeyLoad, if_neg (x_ne ((on_iff _ _).1 hn))]
        dsimp only
        rw [dif_pos ((on_iff _ _).1 hn)]
        refine ⟨_, rfl, ?_⟩
        have hlow' : Low sig := by
          by_contra hcc; exact hh (hlow.2 hcc)
        rw [show (setS msg).1 = ((beNat msg : Nat) : S) from rfl, sigVerify_iff hr hs]
        constructor
        · rintro ⟨h1, h2, h3⟩
          exact ⟨_, hk, ⟨hl, h1, hr, h2, hs, h3⟩, hlow'⟩
        · rintro ⟨Q, hQ, ⟨-, h1, -, h2, -, h3⟩, -⟩
          rw [hu Q hQ] at h3
          exact ⟨h1, h2, h3⟩

end Verif.Lemmas.Ecdsa

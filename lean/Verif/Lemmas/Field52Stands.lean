import Verif.Lemmas.Field52Bytes
/-
The operations on five words, as operations of the field.
-/
namespace Verif.Field52
open Verif Verif.Spec.Secp

theorem cast_mod (a : Nat) : ((a % p : Nat) : F) = (a : F) := ZMod.natCast_mod a p

theorem p_zero : ((p : Nat) : F) = 0 := ZMod.natCast_self p

section
variable {m k : Nat} {a b : Fe} {x y : F}

theorem Mag.mono (h : Mag m a) (hk : m ≤ k) : Mag k a := by
  obtain ⟨h0, h1, h2, h3, h4⟩ := h
  have e (B : Nat) : 2 * m * B ≤ 2 * k * B := Nat.mul_le_mul_right B (Nat.mul_le_mul_left 2 hk)
  exact ⟨h0.trans (e _), h1.trans (e _), h2.trans (e _), h3.trans (e _), h4.trans (e _)⟩

theorem Stands.mono (h : Stands m a x) (hk : m ≤ k) : Stands k a x := ⟨h.1.mono hk, h.2⟩

theorem Stands.mul (ha : Stands m a x) (hb : Stands k b y) (hm : m ≤ 8) (hk : k ≤ 8) : Stands 1 (mul a b) (x * y) := by
  obtain ⟨h1, h2⟩ := mul_spec (ha.1.mono hm) (hb.1.mono hk)
  refine ⟨h1, ?_⟩
  rw [← cast_mod, h2, cast_mod, Nat.cast_mul, ha.2, hb.2]

theorem Stands.sqr (ha : Stands m a x) (hm : m ≤ 8) : Stands 1 (sqr a) (x * x) := by
  rw [sqr_eq (ha.1.mono hm)]
  exact ha.mul ha hm hm

theorem Stands.add (ha : Stands m a x) (hb : Stands k b y) (h : m + k ≤ 2047) : Stands (m + k) (add a b) (x + y) := by
  obtain ⟨h1, h2⟩ := add_spec ha.1 hb.1 h
  exact ⟨h1, by rw [h2, Nat.cast_add, ha.2, hb.2]⟩

theorem Stands.mulInt (ha : Stands m a x) (h : m * k ≤ 2047) : Stands (m * k) (mulInt a k) (x * (k : F)) := by
  obtain ⟨h1, h2⟩ := mulInt_spec ha.1 h
  exact ⟨h1, by rw [h2, Nat.cast_mul, ha.2]⟩

theorem Stands.negate (ha : Stands m a x) (h : m + 1 ≤ 2047) : Stands (m + 1) (negate a m) (-x) := by
  obtain ⟨h1, h2⟩ := negate_spec ha.1 h
  refine ⟨h1, ?_⟩
  have := congrArg (Nat.cast : Nat → F) h2
  rw [Nat.cast_add, Nat.cast_mul, p_zero, zero_mul, ha.2] at this
  exact eq_neg_of_add_eq_zero_left this

/-- Negation with a larger number for the magnitude. -/
theorem Stands.neg (ha : Stands m a x) (hk : m ≤ k) (h : k + 1 ≤ 2047) : Stands (k + 1) (Field52.negate a k) (-x) := (ha.mono hk).negate h

theorem Stands.weak (ha : Stands m a x) (hm : m ≤ 2047) : Stands 1 (normalizeWeak a) x := by
  obtain ⟨h1, h2⟩ := weak_spec hm ha.1
  exact ⟨h1, by rw [← cast_mod, h2, cast_mod, ha.2]⟩

theorem normal_iff : Normal a x ↔ Canon a ∧ ((val a : Nat) : F) = x := by
  constructor
  · rintro ⟨h0, h1, h2, h3, h4, h⟩
    exact ⟨⟨⟨h0, h1, h2, h3⟩, h4, by rw [h]; exact ZMod.val_lt x⟩, by rw [h, ZMod.natCast_zmod_val]⟩
  · rintro ⟨⟨⟨h0, h1, h2, h3⟩, h4, h5⟩, h⟩
    exact ⟨h0, h1, h2, h3, h4, by rw [← h, ZMod.val_cast_of_lt h5]⟩

theorem Normal.stands (h : Normal a x) : Stands 1 a x := ⟨(normal_iff.1 h).1.mag, (normal_iff.1 h).2⟩

theorem Normal.val_eq (h : Normal a x) : val a = x.val := h.2.2.2.2.2

theorem Normal.ext (ha : Normal a x) (hb : Normal b x) : a = b :=
  Canon.ext (normal_iff.1 ha).1 (normal_iff.1 hb).1 (ha.val_eq.trans hb.val_eq.symm)

theorem Stands.normalize (ha : Stands m a x) (hm : m ≤ 2047) : Normal (normalize a) x := by
  obtain ⟨h1, h2⟩ := normalize_spec hm ha.1
  exact normal_iff.2 ⟨h1, by rw [h2, cast_mod, ha.2]⟩

theorem Stands.normalizeVar (ha : Stands m a x) (hm : m ≤ 2047) : Normal (normalizeVar a) x := by
  rw [normalize_var_eq hm ha.1]; exact ha.normalize hm

theorem cast_zero_iff (c : Nat) : c % p = 0 ↔ ((c : Nat) : F) = 0 := by
  rw [ZMod.natCast_eq_zero_iff]; exact ⟨Nat.dvd_of_mod_eq_zero, Nat.mod_eq_zero_of_dvd⟩

theorem Stands.toZero (ha : Stands m a x) (hm : m ≤ 2047) : normalizesToZero a = decide (x = 0) := by
  rw [toZero_spec hm ha.1]
  apply decide_eq_decide.2
  rw [cast_zero_iff, ha.2]

theorem Stands.toZeroVar (ha : Stands m a x) (hm : m ≤ 2047) : normalizesToZeroVar a = decide (x = 0) := by
  rw [toZeroVar_eq, ha.toZero hm]

theorem Stands.cmov (hr : Stands m a x) (ha : Stands k b y) (hm : m ≤ 2047) (hk : k ≤ 2047) (f : Bool) :
    Stands (max m k) (cmov a b f.toNat) (if f then y else x) := by
  obtain ⟨h0, h1⟩ := cmov_spec hm hk hr.1 ha.1
  cases f with
  | false => show Stands _ (Field52.cmov a b 0) x; rw [h0]; exact hr.mono (le_max_left m k)
  | true => show Stands _ (Field52.cmov a b 1) y; rw [h1]; exact ha.mono (le_max_right m k)

theorem Normal.isOdd (h : Normal a x) : isOdd a = x.val % 2 := by rw [isOdd_spec, h.val_eq]

theorem Normal.isZero (h : Normal a x) : isZero a = decide (x = 0) := by
  rw [isZero_spec, h.val_eq]
  exact decide_eq_decide.2 (ZMod.val_eq_zero x)

theorem Normal.getB32 (h : Normal a x) : getB32 a = beBytes 32 x.val := by
  obtain ⟨h0, h1, h2, h3, h4, h5⟩ := h
  rw [getB32_spec ⟨h0, h1, h2, h3⟩ h4, h5]

theorem Normal.storage (h : Normal a x) : fromStorage (toStorage a) = a := by
  obtain ⟨⟨hl, h4, hp⟩, hv⟩ := normal_iff.1 h
  obtain ⟨w, e⟩ := toStorage_spec hl h4
  obtain ⟨l, k4, e'⟩ := fromStorage_spec w
  exact Canon.ext ⟨l, k4, by rw [e', e]; exact hp⟩ ⟨hl, h4, hp⟩ (e'.trans e)

theorem set_stands {s : Bytes} (hs : s.length = 32) : Stands 1 (setB32 s).1 ((beNat s : Nat) : F) := by
  obtain ⟨⟨h0, h1, h2, h3⟩, h4, h5, -⟩ := setB32_spec hs
  exact ⟨⟨by omega, by omega, by omega, by omega, by omega⟩, by rw [h5]⟩

theorem set_ok {s : Bytes} (hs : s.length = 32) : (setB32 s).2 = decide (beNat s < p) := (setB32_spec hs).2.2.2

theorem set_normal {s : Bytes} (hs : s.length = 32) (h : (setB32 s).2 = true) : Normal (setB32 s).1 ((beNat s : Nat) : F) := by
  obtain ⟨h1, h2, h3, h4⟩ := setB32_spec hs
  rw [h4] at h
  exact normal_iff.2 ⟨⟨h1, h2, by rw [h3]; exact of_decide_eq_true h⟩, by rw [h3]⟩

end

end Verif.Field52

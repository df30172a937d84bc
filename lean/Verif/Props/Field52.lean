import Verif.Lemmas.Field52Stands
/-
C80: the arithmetic modulo the prime of secp256k1 on five words of 64 bits. `val`, `Mag`, `Normal` and `stored`:
Spec/Field52.
-/
namespace Verif.Props.Field52
open Verif Verif.Spec.Secp Verif.Field52

/-- C80. The product and the square, of words of magnitude up to 8, are right modulo `p` and of magnitude 1, although
the code adds up to 128 bits and cuts to 64. -/
theorem C80_product {a b : Fe} (ha : Mag 8 a) (hb : Mag 8 b) :
    Mag 1 (mul a b) ∧ val (mul a b) % p = val a * val b % p ∧ Mag 1 (sqr a) ∧ val (sqr a) % p = val a * val a % p :=
  ⟨(mul_spec ha hb).1, (mul_spec ha hb).2, (sqr_spec ha).1, (sqr_spec ha).2⟩

/-- C80. The sum, the negative and the multiple: exact, with the magnitudes added, one more, and multiplied. -/
theorem C80_linear {m k : Nat} {a b : Fe} (ha : Mag m a) (hb : Mag k b) :
    (m + k ≤ 2047 → Mag (m + k) (add a b) ∧ val (add a b) = val a + val b) ∧
    (m + 1 ≤ 2047 → Mag (m + 1) (negate a m) ∧ (val (negate a m) + val a) % p = 0) ∧
    (∀ n, m * n ≤ 2047 → Mag (m * n) (mulInt a n) ∧ val (mulInt a n) = val a * n) := by
  refine ⟨add_spec ha hb, fun h => ⟨(negate_spec ha h).1, ?_⟩, fun n => mulInt_spec ha⟩
  have e := (negate_spec ha h).2
  generalize val (negate a m) + val a = s at e ⊢
  subst e
  generalize p = q
  exact Nat.mul_mod_right _ _

/-- C80. Normalising, in constant time or not, yields the words of the remainder; the weak form yields words of
magnitude 1 with the same remainder; and the tests for zero are right. -/
theorem C80_normalize {m : Nat} {a : Fe} (hm : m ≤ 2047) (ha : Mag m a) :
    Normal (normalize a) ((val a : Nat) : F) ∧ normalizeVar a = normalize a ∧
    Mag 1 (normalizeWeak a) ∧ val (normalizeWeak a) % p = val a % p ∧
    (normalizesToZero a = true ↔ val a % p = 0) ∧ (normalizesToZeroVar a = true ↔ val a % p = 0) := by
  have h : Stands m a ((val a : Nat) : F) := ⟨ha, rfl⟩
  have hz := toZero_spec hm ha
  refine ⟨h.normalize hm, normalize_var_eq hm ha, (weak_spec hm ha).1, (weak_spec hm ha).2, ?_, ?_⟩
  · rw [hz]; exact decide_eq_true_iff
  · rw [toZeroVar_eq, hz]; exact decide_eq_true_iff

/-- C80. Normalised words are unique, so that they can be compared word by word. -/
theorem C80_unique {a b : Fe} {x y : F} (ha : Normal a x) (hb : Normal b y) : x = y ↔ a = b := by
  constructor
  · rintro rfl; exact ha.ext hb
  · rintro rfl; exact ZMod.val_injective p (ha.val_eq.symm.trans hb.val_eq)

/-- C80. The questions asked of normalised words: zero, odd, and the order. -/
theorem C80_compare {a b : Fe} {x y : F} (ha : Normal a x) (hb : Normal b y) :
    (isZero a = true ↔ x = 0) ∧ isOdd a = x.val % 2 ∧
    cmpVar a b = (if y.val < x.val then 1 else if x.val < y.val then -1 else 0) := by
  refine ⟨by rw [ha.isZero]; exact decide_eq_true_iff, ha.isOdd, ?_⟩
  rw [cmp_spec (normal_iff.1 ha).1 (normal_iff.1 hb).1, ha.val_eq, hb.val_eq]

/-- C80. 32 bytes are read as the number they are, most significant byte first, and the answer is whether it is below
the prime; then the words are normalised, and written they are the same bytes again. -/
theorem C80_bytes {s : Bytes} (hs : s.length = 32) :
    Mag 1 (setB32 s).1 ∧ val (setB32 s).1 = beNat s ∧ ((setB32 s).2 = true ↔ beNat s < p) ∧
    (beNat s < p → Normal (setB32 s).1 ((beNat s : Nat) : F) ∧ getB32 (setB32 s).1 = s) := by
  have h := setB32_spec hs
  have ho : (setB32 s).2 = true ↔ beNat s < p := by rw [set_ok hs]; exact decide_eq_true_iff
  refine ⟨(set_stands hs).1, h.2.2.1, ho, fun hlt => ⟨set_normal hs (ho.2 hlt), ?_⟩⟩
  rw [getB32_spec h.1 h.2.1, h.2.2.1, ← hs]
  exact Verif.beBytes_beNat s

/-- C80. Normalised words are written as the 32 bytes of the element. -/
theorem C80_write {a : Fe} {x : F} (ha : Normal a x) : getB32 a = beBytes 32 x.val := ha.getB32

/-- C80. The compact form holds the same number in four words, and is read back unchanged. -/
theorem C80_storage {a : Fe} {x : F} (ha : Normal a x) : stored (toStorage a) = x.val ∧ fromStorage (toStorage a) = a := by
  obtain ⟨hl, h4, -⟩ := (normal_iff.1 ha).1
  exact ⟨(toStorage_spec hl h4).2.trans ha.val_eq, ha.storage⟩

/-- C80. The conditional moves, which use masks and no branch: the second if the flag is 1, the first if it is 0. -/
theorem C80_cmov {m : Nat} (hm : m ≤ 2047) {r a : Fe} (hr : Mag m r) (ha : Mag m a) {x y : F} {t u : Fe} (ht : Normal t x)
    (hu : Normal u y) : cmov r a 0 = r ∧ cmov r a 1 = a ∧
    storageCmov (toStorage t) (toStorage u) 0 = toStorage t ∧ storageCmov (toStorage t) (toStorage u) 1 = toStorage u := by
  obtain ⟨hl, h4, -⟩ := (normal_iff.1 ht).1
  obtain ⟨kl, k4, -⟩ := (normal_iff.1 hu).1
  exact ⟨(cmov_spec hm hm hr ha).1, (cmov_spec hm hm hr ha).2, storageCmov_spec (toStorage_spec hl h4).1 (toStorage_spec kl k4).1⟩

/-- Words of the magnitude 2048, the largest `fe_verify` allows. -/
def big : Fe := ⟨2 ^ 64 - 4096, 0, 0, 0, 2 ^ 60 - 4096⟩

/-- C80 is false at the magnitude 2048, which `fe_verify` still allows: a carry is lost. -/
theorem C80_limit : Mag 2048 big ∧ val (normalize big) ≠ val big % p ∧ val (normalizeWeak big) % p ≠ val big % p := by
  refine ⟨by unfold Mag; decide +kernel, by decide +kernel, by decide +kernel⟩

/-! ### Examples -/

/-- The largest words of magnitude 8. -/
def top8 : Fe := ⟨16 * (2 ^ 52 - 1), 16 * (2 ^ 52 - 1), 16 * (2 ^ 52 - 1), 16 * (2 ^ 52 - 1), 16 * (2 ^ 48 - 1)⟩

example : Mag 8 top8 := by unfold Mag; decide +kernel
example : val (mul top8 top8) % p = val top8 * val top8 % p := by decide +kernel
example : val top8 * val top8 % p = 0x1000007a0000e890000 := by decide +kernel

/-- The words of `p` itself: not normalised; they become 0. -/
def pWords : Fe := ⟨0xFFFFEFFFFFC2F, 0xFFFFFFFFFFFFF, 0xFFFFFFFFFFFFF, 0xFFFFFFFFFFFFF, 0x0FFFFFFFFFFFF⟩

example : Mag 1 pWords ∧ normalize pWords = ⟨0, 0, 0, 0, 0⟩ ∧ normalizesToZero pWords = true ∧ normalizeWeak pWords = pWords := by
  unfold Mag; decide +kernel

example : Normal (normalize top8) ((0x1000003d0 * 16 : Nat) : F) := by unfold Normal; decide +kernel

example : setB32 (beBytes 32 p) = (pWords, false) ∧ setB32 (beBytes 32 (p - 1)) = ({ pWords with n0 := 0xFFFFEFFFFFC2E }, true) := by
  decide +kernel

example : negate ⟨1, 0, 0, 0, 0⟩ 1 ≠ ⟨0, 0, 0, 0, 0⟩ ∧ normalize (add (negate ⟨1, 0, 0, 0, 0⟩ 1) ⟨1, 0, 0, 0, 0⟩) = ⟨0, 0, 0, 0, 0⟩ := by
  decide +kernel

example : Normal (setB32 (beBytes 32 gx)).1 ((gx : Nat) : F) ∧ fromStorage (toStorage (setB32 (beBytes 32 gx)).1) = (setB32 (beBytes 32 gx)).1 := by
  unfold Normal; decide +kernel

example : cmpVar ⟨0, 1, 0, 0, 0⟩ ⟨5, 0, 0, 0, 0⟩ = 1 := by decide +kernel

end Verif.Props.Field52

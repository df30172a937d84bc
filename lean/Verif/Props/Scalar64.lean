import Verif.Lemmas.Scalar64Bits
/-
C85: the arithmetic modulo the order of secp256k1's base point on four words of 64 bits. `val`, `Words` and `Holds`: Spec/Scalar64.
-/
namespace Verif.Props.Scalar64
open Verif Verif.Scalar64 Verif.Spec.Scalar64 Verif.Spec.Secp Verif.Lemmas.Scalar64

/-- C85. The product and the square of any words are the words of the remainder, although the code adds in words of 64 bits and
drops what does not fit. -/
theorem C85_product {a b : Sc} (ha : Words a) (hb : Words b) :
    Words (mul a b) ∧ val (mul a b) = val a * val b % n ∧ Words (sqr a) ∧ val (sqr a) = val a * val a % n :=
  ⟨(mul_val ha hb).1, (mul_val ha hb).2, (sqr_val ha).1, (sqr_val ha).2⟩

/-- C85. The operations are those of the residues: sum, product, square, negative, inverse (with 0 for that of 0). The sum
tells whether n was subtracted, the conditional negative whether it was taken. -/
theorem C85_field {a b : Sc} {x y : ZMod n} (ha : Holds a x) (hb : Holds b y) :
    Holds (add a b).1 (x + y) ∧ (add a b).2 = (if n ≤ x.val + y.val then 1 else 0) ∧ Holds (mul a b) (x * y) ∧ Holds (sqr a) (x * x) ∧
    Holds (negate a) (-x) ∧ Holds (inverse a) x⁻¹ ∧ condNegate a false = (a, 1) ∧ Holds (condNegate a true).1 (-x) ∧ (condNegate a true).2 = -1 := by
  refine ⟨(holds_add ha hb).1, (holds_add ha hb).2, holds_mul ha hb, holds_sqr ha, holds_negate ha, holds_inverse ha, condNegate_false ha.1, ?_, ?_⟩
  · rw [condNegate_true ha.1]; exact holds_negate ha
  · rw [condNegate_true ha.1]

/-- C85. The words of a residue are unique, and the comparison of words is that of the residues. -/
theorem C85_unique {a b : Sc} {x y : ZMod n} (ha : Holds a x) (hb : Holds b y) : (x = y ↔ a = b) ∧ (Scalar64.eq a b = true ↔ x = y) := by
  have h : val a = val b ↔ x = y := by
    rw [ha.2, hb.2]
    exact ⟨fun e => ZMod.val_injective n e, fun e => by rw [e]⟩
  refine ⟨⟨fun e => words_ext ha.1 hb.1 (h.2 e), fun e => h.1 (by rw [e])⟩, ?_⟩
  rw [eq_val ha.1 hb.1, decide_eq_true_iff, h]

/-- C85. The questions asked of a scalar: zero, one, even, and above half the order. -/
theorem C85_tests {a : Sc} {x : ZMod n} (ha : Holds a x) :
    (isZero a = true ↔ x = 0) ∧ (isOne a = true ↔ x = 1) ∧ (isEven a = true ↔ Even x.val) ∧ (isHigh a = true ↔ n < 2 * x.val) := by
  have h1 : (1 : ZMod n).val = 1 := by
    have := ZMod.val_natCast n 1
    rw [Nat.cast_one] at this
    rw [this]; decide +kernel
  refine ⟨?_, ?_, ?_, ?_⟩
  · rw [isZero_val, decide_eq_true_iff, ha.2, ZMod.val_eq_zero]
  · rw [isOne_val ha.1, decide_eq_true_iff, ha.2]
    exact ⟨fun e => ZMod.val_injective n (e.trans h1.symm), fun e => by rw [e, h1]⟩
  · rw [isEven_val, decide_eq_true_iff, ha.2, Nat.even_iff]
  · rw [isHigh_val ha.1, decide_eq_true_iff, ha.2]

/-- C85. 32 bytes are read as the number they are modulo n, most significant byte first, with a flag for numbers that are not below n;
a residue is written as its 32 bytes; and what was read with the flag 0 is written as it was. -/
theorem C85_bytes {s : Bytes} (hs : s.length = 32) {a : Sc} {x : ZMod n} (ha : Holds a x) :
    Holds (setB32 s).1 ((beNat s : Nat) : ZMod n) ∧ (setB32 s).2 = (if n ≤ beNat s then 1 else 0) ∧
    getB32 a = beBytes 32 x.val ∧ ((setB32 s).2 = 0 → getB32 (setB32 s).1 = s) := by
  obtain ⟨w, e, o⟩ := setB32_val hs
  refine ⟨holds_of w e, o, by rw [getB32_val ha.1, ha.2], fun h => ?_⟩
  rw [o] at h
  have hlt : ¬ n ≤ beNat s := fun c => by rw [if_pos c] at h; cases h
  rw [getB32_val w, e, Nat.mod_eq_of_lt (Nat.lt_of_not_le hlt), ← hs]
  exact beBytes_beNat s

/-- C85. A window of up to 32 bits, within a word or across two, holds the bits of the number there. -/
theorem C85_bits {a : Sc} (ha : Words a) {offset count : Nat} (h1 : 0 < count) (h2 : count ≤ 32) (h3 : offset + count ≤ 256) :
    getBitsVar a offset count = val a / 2 ^ offset % 2 ^ count ∧
    ((offset + count - 1) / 64 = offset / 64 → getBits a offset count = val a / 2 ^ offset % 2 ^ count) :=
  ⟨getBitsVar_val ha h1 h2 h3, getBits_val ha h1 h2 h3⟩

/-- C85. The shift: the number divided, and the bits that went out. A bit added, or not. -/
theorem C85_shift {a : Sc} (ha : Words a) {k bit : Nat} (hk : k ≤ 32) (hb : bit < 256) :
    Words (shrInt a k).1 ∧ val (shrInt a k).1 = val a / 2 ^ k ∧ (shrInt a k).2 = val a % 2 ^ k ∧ caddBit a bit 0 = a ∧
    (val a + 2 ^ bit < 2 ^ 256 → Words (caddBit a bit 1) ∧ val (caddBit a bit 1) = val a + 2 ^ bit) :=
  ⟨(shrInt_val ha hk).1, (shrInt_val ha hk).2.1, (shrInt_val ha hk).2.2, caddBit_zero ha hb, caddBit_one ha hb⟩

/-! ### Examples -/

/-- The largest words, n - 1, and a number of the middle. -/
def top : Sc := ⟨2 ^ 64 - 1, 2 ^ 64 - 1, 2 ^ 64 - 1, 2 ^ 64 - 1⟩
def last : Sc := ⟨0xBFD25E8CD0364140, 0xBAAEDCE6AF48A03B, 0xFFFFFFFFFFFFFFFE, 0xFFFFFFFFFFFFFFFF⟩
def mid : Sc := ⟨0x0123456789ABCDEF, 0xFEDCBA9876543210, 0x0F1E2D3C4B5A6978, 0x8796A5B4C3D2E1F0⟩

instance (a : Sc) : Decidable (Words a) := by unfold Words; infer_instance

example : Words top ∧ mul top top = sqr top ∧ val (mul top top) = (2 ^ 256 - 1) ^ 2 % n := by decide +kernel
example : Words top ∧ val (mul top mid) = (2 ^ 256 - 1) * val mid % n ∧ n < val top := by decide +kernel
example : Holds last (((n - 1 : Nat) : Nat) : ZMod n) ∧ Holds mid ((val mid : Nat) : ZMod n) :=
  ⟨holds_of (by decide +kernel) (by decide +kernel), holds_of (by decide +kernel) (by decide +kernel)⟩
example : add last last = (⟨0xBFD25E8CD036413F, 0xBAAEDCE6AF48A03B, 0xFFFFFFFFFFFFFFFE, 0xFFFFFFFFFFFFFFFF⟩, 1) ∧ add mid ⟨1, 0, 0, 0⟩ = (⟨0x0123456789ABCDF0, 0xFEDCBA9876543210, 0x0F1E2D3C4B5A6978, 0x8796A5B4C3D2E1F0⟩, 0) := by
  decide +kernel
example : negate last = ⟨1, 0, 0, 0⟩ ∧ negate ⟨0, 0, 0, 0⟩ = ⟨0, 0, 0, 0⟩ ∧ inverse last = last ∧ mul (inverse mid) mid = ⟨1, 0, 0, 0⟩ := by decide +kernel
example : isHigh mid = true ∧ isHigh ⟨0xDFE92F46681B20A0, 0x5D576E7357A4501D, 0xFFFFFFFFFFFFFFFF, 0x7FFFFFFFFFFFFFFF⟩ = false ∧
    isHigh ⟨0xDFE92F46681B20A1, 0x5D576E7357A4501D, 0xFFFFFFFFFFFFFFFF, 0x7FFFFFFFFFFFFFFF⟩ = true ∧ isEven mid = false ∧ isOne ⟨1, 0, 0, 0⟩ = true := by
  decide +kernel
example : setB32 (beBytes 32 n) = (⟨0, 0, 0, 0⟩, 1) ∧ setB32 (beBytes 32 (n - 1)) = (last, 0) ∧ setB32 (beBytes 32 (2 ^ 256 - 1)) =
    (⟨0x402DA1732FC9BEBE, 0x4551231950B75FC4, 1, 0⟩, 1) := by decide +kernel
example : getBitsVar mid 60 5 = 0 ∧ getBitsVar mid 50 20 = 0x40048 ∧ getBits mid 8 8 = 0xCD ∧ (shrInt mid 5).2 = 15 := by
  decide +kernel
example : caddBit mid 64 1 = { mid with d1 := 0xFEDCBA9876543211 } ∧ caddBit top 0 1 = ⟨0, 0, 0, 0⟩ ∧ caddBit last 255 0 = last := by decide +kernel

end Verif.Props.Scalar64

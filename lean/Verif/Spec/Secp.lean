import Verif.Base
import Verif.Lemmas.SecpPrime
import Mathlib.AlgebraicGeometry.EllipticCurve.Affine.Point
/-
The curve secp256k1 (SEC 2, 2.4.1) as a group, and the compressed form of its points (SEC 1, 2.3.3). The group of the
points is Mathlib's.
-/
namespace Verif.Spec.Secp
open Verif WeierstrassCurve.Affine

/-- The prime of the field: 2^256 - 2^32 - 977. -/
def p : Nat := 0xfffffffffffffffffffffffffffffffffffffffffffffffffffffffefffffc2f

/-- The order of the base point. -/
def n : Nat := 0xfffffffffffffffffffffffffffffffebaaedce6af48a03bbfd25e8cd0364141

/-- The coordinates of the base point. -/
def gx : Nat := 0x79be667ef9dcbbac55a06295ce870b07029bfcdb2dce28d959f2815b16f81798
def gy : Nat := 0x483ada7726a3c4655da4fbfc0e1108a8fd17b448a68554199c47d08ffb10d4b8

theorem p_prime : Nat.Prime p := Verif.Lemmas.SecpPrime.prime_p

instance : Fact (Nat.Prime p) := ⟨p_prime⟩

/-- The integers modulo `p`. -/
abbrev F := ZMod p

/-- `y² = x³ + 7`. -/
def curve : WeierstrassCurve.Affine F := ⟨0, 0, 0, 0, 7⟩

/-- The points of the curve, with the point at infinity: a commutative group. -/
abbrev Point := WeierstrassCurve.Affine.Point curve

theorem cast_ne {a b : Nat} (h : a % p ≠ b % p) : (a : F) ≠ (b : F) := fun e => h ((ZMod.natCast_eq_natCast_iff' _ _ p).1 e)

theorem cast_eq {a b : Nat} (h : a % p = b % p) : (a : F) = (b : F) := (ZMod.natCast_eq_natCast_iff' _ _ p).2 h

theorem two_ne : (2 : F) ≠ 0 := by
  have := cast_ne (a := 2) (b := 0) (by decide +kernel)
  exact_mod_cast this

theorem three_ne : (3 : F) ≠ 0 := by
  have := cast_ne (a := 3) (b := 0) (by decide +kernel)
  exact_mod_cast this

theorem seven_ne : (7 : F) ≠ 0 := by
  have := cast_ne (a := 7) (b := 0) (by decide +kernel)
  exact_mod_cast this

theorem on_iff (x y : F) : curve.Nonsingular x y ↔ y ^ 2 = x ^ 3 + 7 := by
  rw [WeierstrassCurve.Affine.nonsingular_iff', WeierstrassCurve.Affine.equation_iff]
  simp only [curve]
  constructor
  · rintro ⟨h, -⟩; linear_combination h
  · intro h
    refine ⟨by linear_combination h, ?_⟩
    by_contra hc
    rw [not_or, not_not, not_not] at hc
    have hy : y = 0 := by
      rcases mul_eq_zero.1 (show (2 : F) * y = 0 by linear_combination hc.2) with e | e
      · exact absurd e two_ne
      · exact e
    have hx : x = 0 := by
      have : (3 : F) * x ^ 2 = 0 := by linear_combination -hc.1
      rcases mul_eq_zero.1 this with e | e
      · exact absurd e three_ne
      · exact pow_eq_zero_iff (by norm_num) |>.1 e
    rw [hx, hy] at h
    exact seven_ne (by linear_combination -h)

theorem g_on_curve : curve.Nonsingular (gx : F) (gy : F) := by
  rw [on_iff]
  have := cast_eq (a := gy ^ 2) (b := gx ^ 3 + 7) (by decide +kernel)
  exact_mod_cast this

/-- The base point. -/
def G : Point := .some (gx : F) (gy : F) g_on_curve

/-- A point in compressed form, 33 bytes: 2 or 3, as `y` is even or odd, and `x`. The point at infinity has none. -/
def compress : Point → Option Bytes
  | .zero => none
  | .some x y _ => some ((if y.val % 2 = 1 then 3 else 2) :: beBytes 32 x.val)

end Verif.Spec.Secp

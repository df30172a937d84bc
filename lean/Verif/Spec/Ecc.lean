import Verif.Base
import Verif.Lemmas.EccPrime
import Mathlib.AlgebraicGeometry.EllipticCurve.Affine.Point
/-
The curve P-256 (FIPS 186-4, D.1.2.3) as a group, and ECDSA with it (FIPS 186-4, 6.4; RFC 6605 for DNSSEC). The
group of the points is Mathlib's.
-/
namespace Verif.Spec.Ecc
open Verif WeierstrassCurve.Affine

/-- The prime of the field. -/
def p : Nat := 0xffffffff00000001000000000000000000000000ffffffffffffffffffffffff

/-- The order of the base point. -/
def n : Nat := 0xffffffff00000000ffffffffffffffffbce6faada7179e84f3b9cac2fc632551

/-- The constant term of the curve. -/
def b : Nat := 0x5ac635d8aa3a93e7b3ebbd55769886bc651d06b0cc53b0f63bce3c3e27d2604b

/-- The coordinates of the base point. -/
def gx : Nat := 0x6b17d1f2e12c4247f8bce6e563a440f277037d812deb33a0f4a13945d898c296
def gy : Nat := 0x4fe342e2fe1a7f9b8ee7eb4a7c0f9e162bce33576b315ececbb6406837bf51f5

theorem p_prime : Nat.Prime p := Verif.Lemmas.EccPrime.prime_p

instance : Fact (Nat.Prime p) := ⟨p_prime⟩

/-- `y² = x³ - 3 x + b` over the integers modulo `p`. -/
def curve : WeierstrassCurve.Affine (ZMod p) := ⟨0, 0, 0, -3, (b : ZMod p)⟩

/-- The points of the curve, with the point at infinity: a commutative group. -/
abbrev Point := WeierstrassCurve.Affine.Point curve

theorem g_on_curve : curve.Nonsingular (gx : ZMod p) (gy : ZMod p) := by
  have h1 : ((gy ^ 2 + 3 * gx : Nat) : ZMod p) = ((gx ^ 3 + b : Nat) : ZMod p) :=
    (ZMod.natCast_eq_natCast_iff' _ _ p).2 (by decide +kernel)
  have h2 : ((2 * gy : Nat) : ZMod p) ≠ ((0 : Nat) : ZMod p) := fun h =>
    absurd ((ZMod.natCast_eq_natCast_iff' _ _ p).1 h) (by decide +kernel)
  push_cast at h1 h2
  rw [WeierstrassCurve.Affine.nonsingular_iff']
  refine ⟨(WeierstrassCurve.Affine.equation_iff _ _).2 ?_, .inr ?_⟩
  · simp only [curve]; linear_combination h1
  · simp only [curve]; intro hc; exact h2 (by linear_combination hc)

/-- The base point. -/
def G : Point := .some (gx : ZMod p) (gy : ZMod p) g_on_curve

/-- A point's coordinates, 32 bytes each; the point at infinity has none. -/
def encode : Point → Option Bytes
  | .zero => none
  | .some x y _ => some (beBytes 32 x.val ++ beBytes 32 y.val)

/-- ECDSA verification: the signature `r`, `s` of the message with the digest `hash` is valid under the public key
`Q`. -/
def Valid (Q : Point) (hash sig : Bytes) : Prop :=
  sig.length = 64 ∧
  let r := beNat (sig.take 32)
  let s := beNat (sig.drop 32)
  let e := beNat hash
  0 < r ∧ r < n ∧ 0 < s ∧ s < n ∧
  ∃ w, s * w % n = 1 ∧ ∃ x y h, (e * w % n) • G + (r * w % n) • Q = Point.some x y h ∧ x.val % n = r

end Verif.Spec.Ecc

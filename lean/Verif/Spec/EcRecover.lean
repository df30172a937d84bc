import Verif.Spec.Secdsa
/-
Recovery of the public key from a signature (SEC 1, 4.1.6).
-/
namespace Verif.Spec.EcRecover
open Verif Verif.Spec.Secp Verif.Spec.Secdsa WeierstrassCurve.Affine

/-- `Q` is the public key that the signature of the digest and the number from 0 to 3 determine: the number says which of the points `R` with
the abscissa `r` modulo the order is meant (whether its abscissa is `r + n`, and whether its ordinate is odd), and `r Q + e G = s R`. -/
def Recovers (Q : Point) (hash sig : Bytes) (rec : Nat) : Prop :=
  0 < rOf sig ∧ rOf sig < n ∧ 0 < sOf sig ∧ sOf sig < n ∧ Q ≠ 0 ∧
  ∃ x y h, x.val = rOf sig + n * (rec / 2) ∧ y.val % 2 = rec % 2 ∧
    rOf sig • Q + beNat hash • G = sOf sig • (Point.some x y h : Point)

end Verif.Spec.EcRecover

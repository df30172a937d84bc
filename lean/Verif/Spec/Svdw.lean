import Verif.Spec.Secp
/-
The map of Shallue and van de Woestijne from the field to the curve secp256k1, in the form of Fouque and Tibouchi
("Indifferentiable Hashing to Barreto-Naehrig Curves", 2012): of three abscissae the first which the curve has.
-/
namespace Verif.Spec.Svdw
open Verif Verif.Spec.Secp

/-- A square root of -3. -/
def c : F := ((0x0a2d2ba93507f1df233770c2a797962cc61f6d15da14ecd47d8d27ae1cd5f852 : Nat) : F)

def w (u : F) : F := c * u / (1 + 7 + u ^ 2)

def x1 (u : F) : F := (c - 1) / 2 - u * w u
def x2 (u : F) : F := -1 - x1 u
def x3 (u : F) : F := 1 + 1 / w u ^ 2

/-- The curve has points with this abscissa. -/
def Has (x : F) : Prop := ∃ y, curve.Nonsingular x y

/-- The image of `u`: the first of the three abscissae the curve has, and the ordinate of the parity of `u`. -/
def Image (u : F) (P : Point) : Prop :=
  ∃ x y h, P = .some x y h ∧ y.val % 2 = u.val % 2 ∧
    (x = x1 u ∨ (¬ Has (x1 u) ∧ x = x2 u) ∨ (¬ Has (x1 u) ∧ ¬ Has (x2 u) ∧ x = x3 u))

end Verif.Spec.Svdw

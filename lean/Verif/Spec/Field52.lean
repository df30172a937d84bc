import Verif.Model.Field52
import Verif.Spec.Secp
/-
What the five words of a field element stand for: `n0 + n1 2^52 + n2 2^104 + n3 2^156 + n4 2^208`, a number modulo the
prime of secp256k1. The words may be larger than 52 bits; the magnitude says by how much (src/secp256k1/field_5x52.h:12-18).
-/
namespace Verif.Field52
open Verif Verif.Spec.Secp

/-- The number the words stand for. -/
def val (a : Fe) : Nat := a.n0 + a.n1 * 2 ^ 52 + a.n2 * 2 ^ 104 + a.n3 * 2 ^ 156 + a.n4 * 2 ^ 208

/-- The words are no more than those of `2 m` numbers of 256 bits (fe_verify). -/
def Mag (m : Nat) (a : Fe) : Prop :=
  a.n0 ≤ 2 * m * (2 ^ 52 - 1) ∧ a.n1 ≤ 2 * m * (2 ^ 52 - 1) ∧ a.n2 ≤ 2 * m * (2 ^ 52 - 1) ∧ a.n3 ≤ 2 * m * (2 ^ 52 - 1) ∧ a.n4 ≤ 2 * m * (2 ^ 48 - 1)

/-- The words have magnitude `m` and stand for the element `x` of the field. -/
def Stands (m : Nat) (a : Fe) (x : F) : Prop := Mag m a ∧ ((val a : Nat) : F) = x

/-- The words are those of the number `x` below the prime: what "normalized" means. -/
def Normal (a : Fe) (x : F) : Prop :=
  a.n0 < 2 ^ 52 ∧ a.n1 < 2 ^ 52 ∧ a.n2 < 2 ^ 52 ∧ a.n3 < 2 ^ 52 ∧ a.n4 < 2 ^ 48 ∧ val a = x.val

/-- The number four words of 64 bits stand for. -/
def stored (a : Storage) : Nat := a.n0 + a.n1 * 2 ^ 64 + a.n2 * 2 ^ 128 + a.n3 * 2 ^ 192

end Verif.Field52

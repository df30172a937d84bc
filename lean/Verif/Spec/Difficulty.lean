/-
Compact difficulty as the protocol defines it, over plain integers.
-/
namespace Verif.Spec.Difficulty

/-- Exponent byte of a compact difficulty. -/
def exponent (bits : Nat) : Nat := bits / 2 ^ 24
/-- 23-bit mantissa of a compact difficulty. -/
def mantissa (bits : Nat) : Nat := bits % 2 ^ 23
/-- Sign bit of a compact difficulty. -/
def negative (bits : Nat) : Bool := bits / 2 ^ 23 % 2 = 1

/-- mantissa x 256^(exponent - 3), rounded down to an integer. -/
def value (bits : Nat) : Nat :=
  if exponent bits ≤ 3 then mantissa bits / 256 ^ (3 - exponent bits)
  else mantissa bits * 256 ^ (exponent bits - 3)

/-- The target a compact difficulty stands for: none for zero, for a negative
number, and for a number that does not fit 256 bits. -/
def expand (bits : Nat) : Option Nat :=
  if bits = 0 ∨ negative bits ∨ value bits ≥ 2 ^ 256 then none else some (value bits)

/-- A compact difficulty in canonical form: positive, mantissa normalised to at
least 2^15, and no bits of the mantissa below the unit. -/
def Canonical (bits : Nat) : Prop :=
  2 ^ 15 ≤ mantissa bits ∧ negative bits = false ∧ 1 ≤ exponent bits ∧
  (exponent bits < 3 → 256 ^ (3 - exponent bits) ∣ mantissa bits) ∧ value bits < 2 ^ 256

/-- Work of one header with the given target (a 256-bit number: the stored
value wraps, which only matters for target zero). -/
def work (target : Nat) : Nat := 2 ^ 256 / (target + 1) % 2 ^ 256

end Verif.Spec.Difficulty

import Verif.Base
/-
Evaluation of concrete runs by the kernel.
-/
namespace Verif

def okWith {α : Type} (p : α → Bool) : Out Unit α → Bool
  | .ok a => p a
  | _ => false

theorem okWith_spec {α : Type} {p : α → Bool} {r : Out Unit α} (h : okWith p r = true) : ∃ a, r = .ok a ∧ p a = true := by
  cases r with
  | ok a => exact ⟨a, rfl, h⟩
  | err e => cases h
  | ub => cases h

end Verif

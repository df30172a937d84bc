import Verif.Model.RrList
/-
A list of at most 255 elements, in which places are also counted from the end: -1 is the last.
-/
namespace Verif.Spec.RrList
open Verif.RrList (Op Res)

variable {α : Type}

/-- The place an index means in a list of `n`. -/
def pos (i : Int) (n : Nat) : Option Nat :=
  if 0 ≤ i ∧ i < n then some i.toNat
  else if -(n : Int) ≤ i ∧ i < 0 then some (n + i).toNat
  else none

def step (l : List α) : Op α → List α × Res α
  | .push x => if l.length < 255 then (l ++ [x], .num (l.length + 1)) else (l, .num 0)
  | .pop => (l.dropLast, .ptr l.getLast?)
  | .shift => (l.tail, .ptr l.head?)
  | .get i => (l, .ptr ((pos i l.length).bind fun k => l[k]?))
  | .set i x => match pos i l.length with
    | some k => (l.set k x, .num l.length)
    | none => (l, .num 0)
  | .uninit => ([], .freed l)
  | .drain => ([], .freed l.reverse)

def steps : List (Op α) → List α → List α × List (Res α)
  | [], l => (l, [])
  | o :: os, l => ((steps os (step l o).1).1, (step l o).2 :: (steps os (step l o).1).2)

end Verif.Spec.RrList

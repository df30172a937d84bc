import Verif.Base
/-
Network time, as a function of the votes received.
-/
namespace Verif.Spec.Timedata

/-- One report: the clock when it came in, who sent it, the time it claims. -/
structure Report (κ : Type) where
  now : Int
  addr : κ
  time : Int

/-- The votes that count: the first of each address, 200 at most, in order of
arrival. -/
def votes {κ : Type} [DecidableEq κ] : List (Report κ) → List (κ × Int) → List (κ × Int)
  | [], acc => acc
  | r :: rs, acc =>
    if acc.length < 200 ∧ r.addr ∉ acc.map (·.1) then votes rs (acc ++ [(r.addr, r.time - r.now)])
    else votes rs acc

/-- `m` is the median of the odd-length list `l`. -/
def IsMedian (m : Int) (l : List Int) : Prop :=
  m ∈ l ∧ l.countP (· < m) ≤ l.length / 2 ∧ l.length / 2 < l.countP (· ≤ m)

/-- The number of votes the clock rests on: the largest odd number up to `n`. -/
def counted (n : Nat) : Nat := if n % 2 = 1 then n else n - 1

/-- The intended rule: with fewer than five votes the clock is not moved; otherwise
it is moved by the median, unless that is 70 minutes or more. -/
def Offset (v : List Int) (o : Int) : Prop :=
  if v.length < 5 then o = 0
  else ∃ m, IsMedian m (v.take (counted v.length)) ∧ o = if -4200 < m ∧ m < 4200 then m else 0

end Verif.Spec.Timedata

/-
The Gregorian calendar: which dates there are, and how many days after the first of January 1970 each of them is.
-/
namespace Verif.Spec.Calendar

/-- Leap years. -/
def Leap (y : Nat) : Prop := y % 4 = 0 ∧ (y % 100 ≠ 0 ∨ y % 400 = 0)

instance (y : Nat) : Decidable (Leap y) := inferInstanceAs (Decidable (_ ∧ _))

/-- The days of a month. -/
def daysIn (y m : Nat) : Nat :=
  if m = 2 then if Leap y then 29 else 28
  else if m = 4 ∨ m = 6 ∨ m = 9 ∨ m = 11 then 30
  else 31

/-- A day of the calendar from 1970 on. -/
def Valid (y m d : Nat) : Prop := 1970 ≤ y ∧ 1 ≤ m ∧ m ≤ 12 ∧ 1 ≤ d ∧ d ≤ daysIn y m

instance (y m d : Nat) : Decidable (Valid y m d) := inferInstanceAs (Decidable (_ ∧ _))

/-- The days of a year. -/
def yearDays (y : Nat) : Nat := if Leap y then 366 else 365

/-- The days of the years from 1970 on and before `y`. -/
def daysBeforeYear (y : Nat) : Nat := ((List.range' 1970 (y - 1970)).map yearDays).sum

/-- The days of the months of the year before `m`. -/
def daysBeforeMonth (y m : Nat) : Nat := ((List.range' 1 (m - 1)).map (daysIn y)).sum

/-- The days from the first of January 1970 to the day. -/
def dayNumber (y m d : Nat) : Nat := daysBeforeYear y + daysBeforeMonth y m + (d - 1)

end Verif.Spec.Calendar

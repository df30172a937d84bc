import Verif.Lemmas.Calendar
/-
C94: the serial number of the root zone is the date.
-/
namespace Verif.Props.Calendar
open Verif.Resource (date serial)
open Verif.Spec.Calendar Verif.Lemmas.Calendar

/-- C94: the date computed for a time is a day of the calendar, the one that is so many days after the first of January 1970, and the hour is that of
the day. Missing: times from 2^31 seconds on (C94_date_false). -/
theorem C94_date_partial (now : Nat) (h : now < 2 ^ 31) : Valid (date now).year (date now).month (date now).day ∧
    dayNumber (date now).year (date now).month (date now).day = now / 86400 ∧ (date now).hour = now / 3600 % 24 := date_ok now h

/-- The last second that is right is 19 January 2038, 3 o'clock. -/
example : date (2 ^ 31 - 1) = ⟨2038, 1, 19, 3⟩ ∧ dayNumber 2038 1 19 = (2 ^ 31 - 1) / 86400 := by decide +kernel

example : date 951782400 = ⟨2000, 2, 29, 0⟩ ∧ Valid 2000 2 29 ∧ ¬Valid 1999 2 29 ∧ ¬Valid 2100 2 29 := by decide +kernel

/-- C94: there is just one such day. -/
theorem C94_unique (y m d y' m' d' : Nat) (h : Valid y m d) (h' : Valid y' m' d') (hn : dayNumber y m d = dayNumber y' m' d') :
    y = y' ∧ m = m' ∧ d = d' := unique h h' hn

/-- C94: the decimal digits of the serial number are year, month, day and hour. -/
theorem C94_digits_partial (now : Nat) (h : now < 2 ^ 31) : serial now / 1000000 = (date now).year ∧ serial now / 10000 % 100 = (date now).month ∧
    serial now / 100 % 100 = (date now).day ∧ serial now % 100 = now / 3600 % 24 := by
  obtain ⟨h1, h2, h3⟩ := small now h
  have h4 : now / 3600 % 24 < 24 := Nat.mod_lt _ (by decide)
  generalize now / 3600 % 24 = h' at h1 h4 ⊢
  generalize (date now).year = y at h1 ⊢
  generalize (date now).month = m at h1 h2 ⊢
  generalize (date now).day = d at h1 h3 ⊢
  rw [h1]
  have e1 : (y * 1000000 + m * 10000 + d * 100 + h') / 10000 = y * 100 + m := by omega
  have e2 : (y * 1000000 + m * 10000 + d * 100 + h') / 100 = (y * 100 + m) * 100 + d := by omega
  rw [e1, e2]
  omega

/-- C94: the serial number never goes back, and it is new every hour. -/
theorem C94_serial_partial (a b : Nat) (ha : a < 2 ^ 31) (hb : b < 2 ^ 31) :
    (a ≤ b → serial a ≤ serial b) ∧ (a / 3600 < b / 3600 → serial a < serial b) ∧ (a / 3600 = b / 3600 → serial a = serial b) :=
  ⟨fun h => ordered h hb, fun h => strict h hb, fun h => same h ha hb⟩

example : serial 0 = 1970010100 ∧ serial 3599 = 1970010100 ∧ serial 3600 = 1970010101 ∧ serial (2 ^ 31 - 1) = 2038011903 := by decide +kernel

/-- C94: from 2^31 seconds on the time is taken for one of 1901, its hour is no hour, and the serial number is lower than all before. -/
theorem C94_date_false : date (2 ^ 31) = ⟨1901, 12, 14, 4294967293⟩ ∧ serial (2 ^ 31) = 1901121397 ∧ ∀ a : Nat, a < 2 ^ 31 → serial (2 ^ 31) < serial a := by
  have e : serial (2 ^ 31) = 1901121397 := by decide +kernel
  refine ⟨by decide +kernel, e, fun a ha => ?_⟩
  have h0 := ordered (Nat.zero_le a) ha
  have : serial (0 : Nat) = 1970010100 := by decide +kernel
  rw [e]
  omega

end Verif.Props.Calendar

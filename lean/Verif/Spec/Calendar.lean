import Mathlib.Tactic.Linarith

/-!
# The Gregorian calendar and the POSIX time scale
-/

namespace Ublox.Calendar

/-- A leap year. -/
def Leap (y : Int) : Prop := y % 4 = 0 ∧ (y % 100 ≠ 0 ∨ y % 400 = 0)

instance (y : Int) : Decidable (Leap y) := inferInstanceAs (Decidable (_ ∧ _))

/-- Days of the year. -/
def yearDays (y : Int) : Int := if Leap y then 366 else 365

/-- Days from 1 January 1970 to 1 January of the year (see `daysTo_1970`, `daysTo_succ`). -/
def daysTo (y : Int) : Int := 365 * (y - 1970) + ((y - 1) / 4 - (y - 1) / 100 + (y - 1) / 400) - 477

/-- Days of the month, January = 1. -/
def monthDays (y m : Int) : Int :=
  if m = 2 then (if Leap y then 29 else 28) else if m = 4 ∨ m = 6 ∨ m = 9 ∨ m = 11 then 30 else 31

/-- Days of the year before the month. -/
def daysBefore (y : Int) (m : Nat) : Int := ((List.range (m - 1)).map fun i => monthDays y (i + 1 : Nat)).sum

/-- A date and a time of day. -/
structure Stamp where
  year : Int
  month : Nat
  day : Nat
  hour : Nat
  min : Nat
  sec : Nat
  deriving DecidableEq

/-- The date exists and the time of day is in range. -/
structure Stamp.Valid (s : Stamp) : Prop where
  month : 1 ≤ s.month ∧ s.month ≤ 12
  day : 1 ≤ s.day ∧ (s.day : Int) ≤ monthDays s.year s.month
  hour : s.hour < 24
  min : s.min < 60
  sec : s.sec < 60

/-- POSIX seconds since the epoch. -/
def Stamp.posix (s : Stamp) : Int :=
  (daysTo s.year + daysBefore s.year s.month + s.day - 1) * 86400 + s.hour * 3600 + s.min * 60 + s.sec

theorem daysTo_1970 : daysTo 1970 = 0 := by decide

theorem daysTo_succ (y : Int) : daysTo (y + 1) = daysTo y + yearDays y := by
  unfold daysTo yearDays
  by_cases h : Leap y
  · rw [if_pos h]; unfold Leap at h; omega
  · rw [if_neg h]; unfold Leap at h; omega

example : (⟨2000, 2, 29, 23, 59, 59⟩ : Stamp).Valid ∧ (⟨2000, 2, 29, 23, 59, 59⟩ : Stamp).posix = 951868799 := by
  refine ⟨⟨by decide, by decide, by decide, by decide, by decide⟩, by decide⟩

end Ublox.Calendar

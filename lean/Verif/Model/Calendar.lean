import Mathlib.Algebra.Order.Field.Rat
/-!
# Timestep calendar fields

Models `/repo/pywr/_core.pyx:243-328` (`is_leap_year`, `Timestep`).
-/

namespace Verif.Calendar

/-- `is_leap_year`, `/repo/pywr/_core.pyx:243-245`:
`((year & 3) == 0 and ((year % 25) != 0 or (year & 15) == 0))`.  Years are natural numbers (pandas years are
positive). -/
def isLeapYear (year : Nat) : Bool :=
  (year &&& 3) == 0 && ((year % 25) != 0 || (year &&& 15) == 0)

/-- `dayofyear_index`, `/repo/pywr/_core.pyx:290-295`; `dayofyear` is pandas' one-based day of the year. -/
def dayofyearIndex (leap : Bool) (dayofyear : Nat) : Nat :=
  let i := dayofyear - 1
  if !leap then (if i > 58 then i + 1 else i) else i

/-- `week_index`, `/repo/pywr/_core.pyx:297-302`. -/
def weekIndex (dayofyearIndex : Nat) : Nat :=
  if dayofyearIndex ≥ 364 then 51 else dayofyearIndex / 7

/-- Nanoseconds per day (the literal `8.64e+13`, `/repo/pywr/_core.pyx:318,327`). -/
def nsPerDay : Int := 86400000000000

/-- The fields of a `Timestep` used by the year split: `period.start_time.value`, `period.end_time.value` (nanoseconds;
pandas: the last nanosecond of the period), `year`, `end_year` and `days`
(`/repo/pywr/_core.pyx:276-288`). -/
structure YearSplit where
  startNs : Int
  endNs : Int
  year : Int
  endYear : Int
  days : Rat

/-- `days_in_current_year`, `/repo/pywr/_core.pyx:311-319`. `newYear y` is the nanosecond value of
`pd.Timestamp("y-01-01")`. -/
def daysInCurrentYear (newYear : Int → Int) (t : YearSplit) : Rat :=
  if t.year ≠ t.endYear then ((newYear t.endYear - t.startNs : Int) : Rat) / (nsPerDay : Rat) else t.days

/-- `days_in_next_year`, `/repo/pywr/_core.pyx:321-328`. -/
def daysInNextYear (newYear : Int → Int) (t : YearSplit) : Rat :=
  if t.year ≠ t.endYear then ((t.endNs - newYear t.endYear : Int) : Rat) / (nsPerDay : Rat) else 0

end Verif.Calendar

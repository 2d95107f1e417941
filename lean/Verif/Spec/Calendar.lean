import Mathlib.Algebra.Order.Field.Rat
/-! # Specification: the Gregorian calendar -/

namespace Verif.Calendar

/-- The Gregorian leap year rule. -/
def Gregorian (y : Nat) : Prop := 4 ∣ y ∧ (¬ 100 ∣ y ∨ 400 ∣ y)

/-- Month lengths. -/
def monthLength (leap : Bool) (m : Nat) : Nat :=
  if m = 2 then (if leap then 29 else 28)
  else if m = 4 ∨ m = 6 ∨ m = 9 ∨ m = 11 then 30 else 31

/-- Days in the months before month `m`. -/
def daysBefore (leap : Bool) : Nat → Nat
  | 0 => 0
  | m + 1 => if m = 0 then 0 else daysBefore leap m + monthLength leap m

/-- `(m, d)` is a month and day of a year. -/
def ValidDate (leap : Bool) (m d : Nat) : Prop := 1 ≤ m ∧ m ≤ 12 ∧ 1 ≤ d ∧ d ≤ monthLength leap m

/-- One-based day of the year of a month and day. -/
def dayOfYear (leap : Bool) (m d : Nat) : Nat := daysBefore leap m + d

/-- Days from 0001-01-01 to the first of January of year `y` (proleptic Gregorian). -/
def daysToYear (y : Int) : Int := 365 * (y - 1) + (y - 1) / 4 - (y - 1) / 100 + (y - 1) / 400

/-- Nanoseconds since 1970 at the start of year `y`. -/
def newYearNs (y : Int) : Int := (daysToYear y - daysToYear 1970) * 86400000000000

/-- The year containing an instant. -/
def InYear (y t : Int) : Prop := newYearNs y ≤ t ∧ t < newYearNs (y + 1)

end Verif.Calendar

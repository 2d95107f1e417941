import Verif.Spec.Calendar
/-! # Specification: days since an annual reset -/

namespace Verif.Profiles

open Verif.Calendar

/-- Leap years. -/
def leap (y : Nat) : Bool := decide (4 ∣ y ∧ (¬ 100 ∣ y ∨ 400 ∣ y))

/-- Number of a day, counted from the first of January of year 1. -/
def ordinal (y m d : Nat) : Int := daysToYear y + dayOfYear (leap y) m d - 1

/-- The year of the last reset (on day `rd` of month `rm` of every year) on or before a date. -/
def resetYear (rm rd y m d : Nat) : Nat := if ordinal y rm rd ≤ ordinal y m d then y else y - 1

/-- Days since the last reset. -/
def sinceReset (rm rd y m d : Nat) : Int := ordinal y m d - ordinal (resetYear rm rd y m d) rm rd

/-- Days from the last reset to the next. -/
def periodLength (rm rd y m d : Nat) : Int :=
  ordinal (resetYear rm rd y m d + 1) rm rd - ordinal (resetYear rm rd y m d) rm rd

end Verif.Profiles

import Verif.Model.Periods
import Verif.Spec.Timestepper
import Verif.Spec.Calendar
/-! # Specification: the periods of a timestepper -/

namespace Verif.Timestepper

/-- The units follow each other without gaps, each is longer than half a second, and an instant is in the unit it is said to be in. -/
structure Units.Sane (u : Units) : Prop where
  long : ∀ o, u.begins o + 500000001 ≤ u.begins (o + 1)
  inside : ∀ t, u.begins (u.ordinal t) ≤ t ∧ t < u.begins (u.ordinal t + 1)

/-- The length of a timestep that was asked for, in nanoseconds, if it is a fixed one. -/
def Delta.asked : Delta → Option Int
  | .int n => some (n * 86400000000000)
  | .timedelta days rest => some (days * 86400000000000 + rest)
  | .text .second n => some (n * 1000000000)
  | .text .minute n => some (n * 60000000000)
  | .text .hour n => some (n * 3600000000000)
  | .text .day n => some (n * 86400000000000)
  | .text .month _ => none
  | .text .year _ => none

/-- A timestep of at least one unit of its base (for a `timedelta`: of a whole day). -/
def Delta.Positive : Delta → Prop
  | .int n => 0 < n
  | .timedelta days _ => 0 < days
  | .text _ n => 0 < n

/-- The base a timestep is counted in. -/
def Delta.base : Delta → Base
  | .text b _ => b
  | _ => .day

/-- Seconds, minutes, hours and days have their lengths. -/
structure Ticks (cal : Base → Units) : Prop where
  second : cal .second = .tick 1000000000
  minute : cal .minute = .tick 60000000000
  hour : cal .hour = .tick 3600000000000
  day : cal .day = .tick 86400000000000

/-- Where months begin: month `o` counted from January 1970. -/
def monthBegins (o : Int) : Int :=
  Calendar.newYearNs (1970 + o / 12) + (Calendar.daysBefore (decide (Calendar.newYearNs (1970 + o / 12 + 1) - Calendar.newYearNs (1970 + o / 12) = 366 * 86400000000000)) (o % 12).toNat.succ : Nat) * 86400000000000

end Verif.Timestepper

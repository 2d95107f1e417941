import Verif.Model.Calendar
/-!
# Annual profiles

Models the profile parameters of `/repo/pywr/parameters/_parameters.pyx`: `DailyProfileParameter` (`:615-641`), `WeeklyProfileParameter` (`:643-662`),
`MonthlyProfileParameter` (`:665-796`), the scenario profiles (`:799-909`), `UniformDrawdownProfileParameter` (`:912-982`), and the checks of the days of the year of
`RbfProfileParameter` (`:1111-1124`). Tables are lists of numbers; the conversion of the arguments by `np.squeeze(np.array(values))` is not modelled (a one-dimensional
table of floats). A read outside a table gives `none`: the code reads a typed memoryview there (an IndexError, or arbitrary memory when
bounds checks are off).
-/

namespace Verif.Profiles

open Verif.Calendar

/-- The calendar fields of a timestep that profiles read (`/repo/pywr/_core.pyx:276-302`): `year`, `month`, `dayofyear`. -/
structure Date where
  year : Nat
  month : Nat
  dayofyear : Nat

/-- `ts.dayofyear_index`. -/
def Date.index (t : Date) : Nat := dayofyearIndex (isLeapYear t.year) t.dayofyear

/-- `DailyProfileParameter.__init__` (`:627-634`); `none` is the ValueError. -/
def daily (values : List Rat) : Option (List Rat) := if values.length ≠ 366 then none else some values

/-- `DailyProfileParameter.value` (`:636-637`). -/
def dailyValue (table : List Rat) (t : Date) : Option Rat := table[t.index]?

/-- `WeeklyProfileParameter.__init__` (`:648-658`): 53 values are accepted with a warning. The truncated list is only used for the length check: the table keeps
all 53 values. -/
def weekly (values : List Rat) : Option (List Rat) :=
  let checked := if values.length = 53 then values.take 52 else values
  if checked.length ≠ 52 then none else some values

/-- `WeeklyProfileParameter.value` (`:660-661`). -/
def weeklyValue (table : List Rat) (t : Date) : Option Rat := table[weekIndex t.index]?

/-- `MonthlyProfileParameter.__init__`, length check (`:702-704`). -/
def monthly (values : List Rat) : Option (List Rat) := if values.length ≠ 12 then none else some values

/-- `MonthlyProfileParameter.value` with `interp_day is None` (`:768-769`). -/
def monthlyValue (table : List Rat) (t : Date) : Option Rat := table[t.month - 1]?

/-- `interp_day`. -/
inductive InterpDay
  | first
  | last

/-- `calendar.monthrange(2015, mth)[1]` for `mth` in 1..12. -/
def monthDays2015 : List Nat := [31, 28, 31, 30, 31, 30, 31, 31, 30, 31, 30, 31]

/-- The list `x` (`:740-742, 746-749`): start, then each entry adds the length of a month. -/
def knotDays (start : Nat) : List Nat → List Nat
  | [] => [start]
  | n :: ns => start :: knotDays (start + n) ns

/-- The lists `x`, `y` (`:737-751`). -/
def knots (d : InterpDay) (values : List Rat) : List Nat × List Rat :=
  match d with
  | .first => (knotDays 1 monthDays2015, values ++ [values.getD 0 0])
  | .last => (knotDays 0 monthDays2015, values.getD 11 0 :: values)

/-- `np.interp(t, x, y)` for one number `t`, from the knot `(x0, y0)` on: linear between knots, constant beyond the last. -/
def interpFrom (t : Nat) (x0 : Nat) (y0 : Rat) : List Nat → List Rat → Rat
  | x1 :: xs, y1 :: ys =>
    if t < x1 then y0 + (y1 - y0) / ((x1 : Rat) - x0) * ((t : Rat) - x0) else interpFrom t x1 y1 xs ys
  | _, _ => y0

/-- `np.interp`. -/
def interp (t : Nat) (x : List Nat) (y : List Rat) : Rat :=
  match x, y with
  | x0 :: xs, y0 :: ys => if t < x0 then y0 else interpFrom t x0 y0 xs ys
  | _, _ => 0

/-- One round of the loop that makes 366 values out of 365 (`:756-763`). -/
def spreadStep (values : Nat → Rat) (a : Nat → Rat) (i : Nat) : Nat → Rat :=
  if i < 58 then fun k => if k = i then values i else a k
  else if i = 58 then fun k => if k = i ∨ k = i + 1 then values i else a k
  else fun k => if k = i + 1 then values i else a k

/-- `_interp_values` (`:734, 754-763`), by index. -/
def spread (values : Nat → Rat) : Nat → Rat := (List.range 365).foldl (spreadStep values) fun _ => 0

/-- `_interpolate` (`:731-763`): the table of 366 values. -/
def interpolated (d : InterpDay) (values : List Rat) : List Rat :=
  let k := knots d values
  (List.range 366).map (spread fun i => interp (i + 1) k.1 k.2)

/-- `MonthlyProfileParameter.value` with interpolation (`:770-771`). -/
def interpolatedValue (d : InterpDay) (values : List Rat) (t : Date) : Option Rat := (interpolated d values)[t.index]?

/-- `get_daily_values` without interpolation (`:780-785`): `calendar.monthrange(2016, mth+1)[1]` repetitions of each monthly value. -/
def dailyValues (values : List Rat) : List Rat :=
  (([31, 29, 31, 30, 31, 30, 31, 31, 30, 31, 30, 31] : List Nat).zip values).flatMap fun p : Nat × Rat => List.replicate p.1 p.2

/-- The checks of the scenario profiles' constructors (`:811-817, 850-856, 894-900`): one row per scenario member, `n` columns. -/
def scenarioTable (n size : Nat) (rows : List (List Rat)) : Option (List (List Rat)) :=
  if size ≠ rows.length then none
  else if rows.any fun r => r.length ≠ n then none
  else some rows

/-- `self._values[scenario_index._indices[self._scenario_index], k]`. -/
def scenarioValue (table : List (List Rat)) (member k : Nat) : Option Rat := (table[member]?).bind fun r => r[k]?

/-! ## UniformDrawdownProfileParameter -/

/-- The number of days into the period (`value`, `:950-953, 967-973`), given `_reset_idoy`. -/
def daysInto (reset : Nat) (t : Date) : Int :=
  let d : Int := (t.index : Int) - reset
  if d < 0 then
    let d := d + 366
    if isLeapYear t.year = false ∧ t.index > 59 then d - 1 else d
  else d

/-- `total_days_in_period` (`:950-964`). -/
def totalDays (reset : Nat) (t : Date) : Nat :=
  let y := if (t.index : Int) - reset < 0 then t.year - 1 else t.year
  let y := if reset > 59 then y + 1 else y
  if isLeapYear y then 366 else 365

/-- `UniformDrawdownProfileParameter.value` (`:945-978`). -/
def drawdown (reset : Nat) (residual : Rat) (t : Date) : Rat :=
  let total : Rat := totalDays reset t
  let slope := (residual / total - 1) / total
  1 + slope * (daysInto reset t : Rat)

end Verif.Profiles

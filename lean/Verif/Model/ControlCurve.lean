import Mathlib.Algebra.Order.Field.Rat
/-!
# Control curves

Models `/repo/pywr/parameters/_control_curves.pyx:10-24` (`_interpolate`), `:171-214` (`ControlCurveInterpolatedParameter.value`), `:276-297`
(`ControlCurvePiecewiseInterpolatedParameter.value`), `:345-364` (`ControlCurveIndexParameter.index`), `:501-524` (`ControlCurveParameter.value`) and `:526-543`
(variables). The current values of the curves, of the value parameters and the current fraction of the storage are arguments; all are defined numbers
(a storage with zero maximum volume has a NaN fraction, which is not modelled here). Lists of values have the length checked by the constructors
(`:147-160, 248-257, 430-443`); reads outside them give 0 here and do not occur.
-/

namespace Verif.ControlCurve

/-- `_interpolate` (`:10-24`). -/
def interpolate (x lower upper lowerValue upperValue : Rat) : Rat :=
  if x < lower then lowerValue
  else if x > upper then upperValue
  else if upper = lower then lowerValue
  else lowerValue + (upperValue - lowerValue) * ((x - lower) / (upper - lower))

/-- The loop of `ControlCurveIndexParameter.index` (`:357-363`) from position `j`, `n` being `len(self.control_curves)`. -/
def indexLoop (pc : Rat) (n : Nat) : Nat → List Rat → Nat
  | _, [] => n
  | j, cc :: rest => if pc ≥ cc then j else indexLoop pc n (j + 1) rest

/-- `ControlCurveIndexParameter.index`. -/
def index (pc : Rat) (curves : List Rat) : Nat := indexLoop pc curves.length 0 curves

/-- The loop of `ControlCurveParameter.value` (`:510-524`). -/
def valueLoop (pc : Rat) (values : List Rat) : Nat → List Rat → Rat
  | _, [] => values.getLastD 0
  | j, cc :: rest => if pc ≥ cc then values.getD j 0 else valueLoop pc values (j + 1) rest

/-- `ControlCurveParameter.value` with `values` (with `parameters`: their current values). -/
def value (pc : Rat) (curves values : List Rat) : Rat := valueLoop pc values 0 curves

/-- The loop of `ControlCurveInterpolatedParameter.value` (`:190-214`); `m` is the number of values. -/
def interpolatedLoop (pc : Rat) (values : List Rat) : Rat → Nat → List Rat → Rat
  | prev, _, [] =>
    if prev - 0 = 0 then values.getD (values.length - 2) 0
    else
      let weight := (pc - 0) / (prev - 0)
      values.getD (values.length - 2) 0 * weight + values.getD (values.length - 1) 0 * (1 - weight)
  | prev, j, cc :: rest =>
    if pc ≥ cc then
      if prev - cc = 0 then values.getD (j + 1) 0
      else
        let weight := (pc - cc) / (prev - cc)
        values.getD j 0 * weight + values.getD (j + 1) 0 * (1 - weight)
    else interpolatedLoop pc values cc (j + 1) rest

/-- `ControlCurveInterpolatedParameter.value`: the first level is 100 %. -/
def interpolated (pc : Rat) (curves values : List Rat) : Rat := interpolatedLoop pc values 1 0 curves

/-- The loop of `ControlCurvePiecewiseInterpolatedParameter.value` (`:283-297`); a pair is (value at the top, value at the bottom). -/
def piecewiseLoop (pc minimum : Rat) (values : List (Rat × Rat)) : Rat → Nat → List Rat → Rat
  | prev, j, [] => interpolate pc minimum prev (values.getD j (0, 0)).2 (values.getD j (0, 0)).1
  | prev, j, cc :: rest =>
    if pc ≥ cc then interpolate pc cc prev (values.getD j (0, 0)).2 (values.getD j (0, 0)).1
    else piecewiseLoop pc minimum values cc (j + 1) rest

/-- `ControlCurvePiecewiseInterpolatedParameter.value`. -/
def piecewise (pc minimum maximum : Rat) (curves : List Rat) (values : List (Rat × Rat)) : Rat :=
  piecewiseLoop pc minimum values maximum 0 curves

/-- `set_double_variables` (`:526-535`): `none` is the ValueError. -/
def setVariables (indices : List Nat) (values new : List Rat) : Option (List Rat) :=
  if new.length ≠ indices.length then none
  else some ((indices.zip new).foldl (fun vs p => vs.set p.1 p.2) values)

/-- `get_double_variables` (`:537-543`). -/
def getVariables (indices : List Nat) (values : List Rat) : List Rat := indices.map fun i => values.getD i 0

end Verif.ControlCurve

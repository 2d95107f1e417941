import Verif.Model.Float64
import Verif.Model.VirtualStorage
/-!
# Recorders, virtual storages and control curves in double precision

The sums of recorders (`/repo/pywr/recorders/_recorders.pyx:1740-1802`), the use of virtual storages (`/repo/pywr/_core.pyx:1483-1493`) and the values of interpolating control curve parameters
(`/repo/pywr/parameters/_control_curves.pyx:10-24, 171-214`) as in `Model/Recorders.lean`, `Model/VirtualStorage.lean` and `Model/ControlCurve.lean`, but with every operation rounded to a double as
in `Model/Float64.lean`, for one scenario.  Results beyond the largest double are not limited.
-/

namespace Verif.Float64

open Verif.Bounds Verif.Storage

/-- `TotalFlowNodeRecorder` (`_recorders.pyx:1764-1776`) over timesteps with a flow and a number of days: `_values += _flow*factor*days`, from left to right. -/
def totalFlow (factor : Rat) (ts : List (Rat × Rat)) : Rat := ts.foldl (fun v t => fl (v + fl (fl (t.1 * factor) * t.2))) 0

/-- `TotalDeficitNodeRecorder` (`:1740-1753`) over timesteps with a maximum flow, a flow and a number of days. -/
def totalDeficit (ts : List (Rat × Rat × Rat)) : Rat := ts.foldl (fun v t => fl (v + fl (fl (t.1 - t.2.1) * t.2.2))) 0

/-- `MeanFlowNodeRecorder` (`:1779-1802`): the sum of the flows, divided by the index of the last timestep. -/
def meanFlow (factor : Rat) (flows : List Rat) (nt : Nat) : Rat := fl (flows.foldl (fun v q => fl (v + fl (q * factor))) 0 / nt)

/-- `_flow -= f*n._flow` for all nodes (`_core.pyx:1488-1491`). -/
def depletion (us : List VirtualStorage.Use) : Rat := us.foldl (fun acc u => fl (acc - fl (u.factor * u.flow))) 0

/-- A timestep of a virtual storage: whether it is active, the days, and the flows of its nodes. -/
structure Used where
  active : Bool
  days : Rat
  uses : List VirtualStorage.Use

/-- `VirtualStorage.after` (`_core.pyx:1483-1493`). -/
def virtualStep (mx mn : Rat) (s : State) (t : Used) : State := if t.active then after { s with flow := depletion t.uses } t.days mx mn none else s

/-- A run. -/
def virtualRun (mx mn : Rat) (s : State) (ts : List Used) : State := ts.foldl (virtualStep mx mn) s

/-- `_interpolate` (`_control_curves.pyx:10-24`). -/
def interpolate (x lower upper lowerValue upperValue : Rat) : Rat :=
  if x < lower then lowerValue
  else if x > upper then upperValue
  else if upper = lower then lowerValue
  else
    let factor := fl (fl (x - lower) / fl (upper - lower))
    fl (lowerValue + fl (fl (upperValue - lowerValue) * factor))

/-- `values[j]*weight + values[j+1]*(1.0 - weight)` with the weight of `pc` between the curves `cc` and `prev`, or `same` if the difference of the curves is zero (`:193-200, 206-214`). -/
def weighted (pc cc prev above below same : Rat) : Rat :=
  if fl (prev - cc) = 0 then same
  else
    let weight := fl (fl (pc - cc) / fl (prev - cc))
    fl (fl (above * weight) + fl (below * fl (1 - weight)))

/-- The loop of `ControlCurveInterpolatedParameter.value` (`:186-214`). -/
def interpolatedLoop (pc : Rat) (values : List Rat) : Rat → Nat → List Rat → Rat
  | prev, _, [] => weighted pc 0 prev (values.getD (values.length - 2) 0) (values.getD (values.length - 1) 0) (values.getD (values.length - 2) 0)
  | prev, j, cc :: rest =>
    if pc ≥ cc then weighted pc cc prev (values.getD j 0) (values.getD (j + 1) 0) (values.getD (j + 1) 0)
    else interpolatedLoop pc values cc (j + 1) rest

/-- `ControlCurveInterpolatedParameter.value`. -/
def interpolated (pc : Rat) (curves values : List Rat) : Rat := interpolatedLoop pc values 1 0 curves

end Verif.Float64

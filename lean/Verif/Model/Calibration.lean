import Mathlib.Algebra.Order.Field.Rat
import Mathlib.Analysis.Real.Sqrt
import Mathlib.Algebra.BigOperators.Group.List.Basic
/-!
# Comparison with observed flows

Models `/repo/pywr/recorders/calibration.py:20-92`.  The simulated flows are the columns of `data` (one per combination, see C40 for what they hold), the observed ones the columns of the data frame
aligned to the timesteps of the model (`align_and_resample_dataframe`, `/repo/pywr/dataframe_tools.py:20-105`, which is not modelled; it raises if a value is missing, `:102-103`).
Numbers are exact; square roots are real numbers.  Divisions by zero (infinite or not a number in numpy) are `none`.
-/

namespace Verif.Calibration

/-- Pairs of observed and simulated flows, timestep by timestep, of the columns that are compared: `obs - mod` of a data frame and an array.  Pandas wants the same number of columns or
one simulated column; anything else is a `ValueError` (`none`). -/
def compared (obs mod : List (List Rat)) : Option (List (List (Rat × Rat))) :=
  if obs.length = mod.length then some (List.zipWith List.zip obs mod)
  else match mod with
    | [m] => some (obs.map fun o => List.zip o m)
    | _ => none

/-- `np.mean(…, axis=0)` of one column. -/
def mean (l : List Rat) : Option Rat := if l = [] then none else some (l.sum / (l.length : Rat))

/-- A quotient of two columns' totals. -/
def quotient (a b : Rat) : Option Rat := if b = 0 then none else some (a / b)

/-- `MeanSquareErrorNodeRecorder.values` (`calibration.py:59-62`), one column. -/
def mse (c : List (Rat × Rat)) : Option Rat := mean (c.map fun x => (x.1 - x.2) ^ 2)

/-- `MeanAbsoluteErrorNodeRecorder.values` (`:50-53`). -/
def mae (c : List (Rat × Rat)) : Option Rat := mean (c.map fun x => |x.1 - x.2|)

/-- `RootMeanSquaredErrorNodeRecorder.values` (`:41-44`). -/
noncomputable def rmse (c : List (Rat × Rat)) : Option ℝ := (mse c).map fun x => Real.sqrt (x : ℝ)

/-- `PercentBiasNodeRecorder.values` (`:68-71`). -/
def percentBias (c : List (Rat × Rat)) : Option Rat := quotient ((c.map fun x => x.1 - x.2).sum * 100) (c.map Prod.fst).sum

/-- `np.std(obs, axis=0)` squared: the mean squared distance from the mean. -/
def variance (l : List Rat) : Option Rat := (mean l).bind fun m => mean (l.map fun x => (x - m) ^ 2)

/-- `RMSEStandardDeviationRatioNodeRecorder.values` (`:77-80`). -/
noncomputable def rsr (c : List (Rat × Rat)) : Option ℝ :=
  (rmse c).bind fun r => (variance (c.map Prod.fst)).bind fun v => if v = 0 then none else some (r / Real.sqrt (v : ℝ))

/-- `NashSutcliffeEfficiencyNodeRecorder.values` (`:86-92`). -/
def nse (c : List (Rat × Rat)) : Option Rat :=
  (mean (c.map Prod.fst)).bind fun m =>
  (quotient (c.map fun x => (x.1 - x.2) ^ 2).sum (c.map fun x => (x.1 - m) ^ 2).sum).map fun r => 1 - r

/-- `values`: the metric of every column. -/
def values {R : Type} (metric : List (Rat × Rat) → Option R) (obs mod : List (List Rat)) : Option (List (Option R)) :=
  (compared obs mod).map fun cs => cs.map metric

end Verif.Calibration

import Verif.Model.Recorders
import Verif.Model.ScenarioTables
import Mathlib.Data.Rat.Floor
/-!
# Duration curves

Models `FlowDurationCurveRecorder` (`/repo/pywr/recorders/_recorders.pyx:814-872`), `SeasonalFlowDurationCurveRecorder` (`:875-912`), `FlowDurationCurveDeviationRecorder`
(`:915-1103`), `StorageDurationCurveRecorder` (`:1243-1302`) and `np.percentile` with linear interpolation (numpy's default).  Flows, volumes and targets are finite numbers;
tables are lists of rows; a raised exception is `none`.  The aggregation of the curve to one value per scenario is the aggregator of C57.  Not modelled: reading targets from files.
-/

namespace Verif.DurationCurves

open Verif.Run Verif.Recorders Verif.Scenarios

/-- `np.percentile(values, q)`: percentiles outside 0-100 and empty arrays raise; otherwise sort, take the position `(n - 1) q / 100` and interpolate linearly between the neighbours. -/
def percentile (l : List Rat) (q : Rat) : Option Rat :=
  if q < 0 ∨ 100 < q then none
  else if l = [] then none
  else
    let s := l.mergeSort (fun a b => decide (a ≤ b))
    let position : Rat := ((l.length - 1 : Nat) : Rat) * q / 100
    let k := position.floor.toNat
    let lower := s.getD k 0
    let upper := s.getD (min (k + 1) (l.length - 1)) 0
    some (lower + (upper - lower) * (position - (k : Rat)))

/-- Column `i` of a table. -/
def column (data : List (List Rat)) (i : Nat) : List Rat := data.map fun r => r.getD i 0

/-- `np.percentile(data, percentiles, axis=0)`: a row per percentile, an entry per column. -/
def curve (ncomb : Nat) (qs : List Rat) (data : List (List Rat)) : Option (List (List Rat)) :=
  qs.mapM fun q => (List.range ncomb).mapM fun i => percentile (column data i) q

/-- State of the recorders: `_data` and `_fdc` (`_sdc`).  `_fdc` is `none` until it is computed (`reset` does not clear it, but nothing reads it before `finish`). -/
structure St where
  data : List (List Rat)
  fdc : Option (List (List Rat))

/-- An array recorder whose finish-hook computes the curve from the rows `pick` leaves (`:852-853`, `:1281-1282`). -/
def recorder {O : Type} (row : O → List Rat) (pick : List (List Rat) → List (List Rat)) (nts ncomb : Nat) (qs : List Rat) : Rec St O where
  init := ⟨List.replicate nts (List.replicate ncomb 0), none⟩
  after k o s := if k < s.data.length then some { s with data := s.data.set k (row o) } else none
  finish _ s := (curve ncomb qs (pick s.data)).map fun c => { s with fdc := some c }

/-- `FlowDurationCurveRecorder` (`:835-853`, with the after-hook of `NumpyArrayNodeRecorder` `:626-631`). -/
def flowCurve (factor : Rat) (nts ncomb : Nat) (qs : List Rat) : Rec St NodeView :=
  recorder (fun o => o.flow.map (· * factor)) id nts ncomb qs

/-- `StorageDurationCurveRecorder` (`:1263-1282`, with the after-hook of `NumpyArrayStorageRecorder` `:1175-1183`); observes volumes or proportional volumes. -/
def storageCurve (nts ncomb : Nat) (qs : List Rat) : Rec St (List Rat) := recorder id id nts ncomb qs

/-- `df.loc[mask, :]` with `mask = index.map(self.is_season)` (`:901-909`): the rows of the timesteps in a month of the season. -/
def inSeason (months : List Nat) (month : Nat → Nat) (data : List (List Rat)) : List (List Rat) :=
  (data.zipIdx.filter fun r => decide (month r.2 ∈ months)).map Prod.fst

/-- `SeasonalFlowDurationCurveRecorder` (`:897-909`); `month k` is the month of timestep `k`. -/
def seasonalCurve (factor : Rat) (months : List Nat) (month : Nat → Nat) (nts ncomb : Nat) (qs : List Rat) : Rec St NodeView :=
  recorder (fun o => o.flow.map (· * factor)) (inSeason months month) nts ncomb qs

/-! ## Deviations from target curves -/

/-- A target: a row per percentile, an entry per column.  A one-dimensional target has one column (`:957-968`). -/
abbrev Target := List (List Rat)

/-- A deviation recorder: its percentiles, targets and scenario (an object of the model). -/
structure Dev where
  qs : List Rat
  lower : Option Target
  upper : Option Target
  scenario : Option Nat

/-- `shape[1]`. -/
def width (t : Target) : Nat := (t.head?.getD []).length

/-- `__init__` (`:950-979`): at least one target; as many rows as percentiles; rows of equal length (otherwise `np.array` of doubles raises). -/
def Dev.init (qs : List Rat) (lower upper : Option Target) (scenario : Option Nat) : Option Dev :=
  if lower = none ∧ upper = none then none
  else if (∃ t ∈ lower, t.length ≠ qs.length ∨ ∃ r ∈ t, r.length ≠ width t) then none
  else if (∃ t ∈ upper, t.length ≠ qs.length ∨ ∃ r ∈ t, r.length ≠ width t) then none
  else some ⟨qs, lower, upper, scenario⟩

/-- The checks of a target in `setup` (`:985-1000`). -/
def wrongWidth (scenario : Option Nat) (size : Nat → Nat) (ncomb : Nat) (t : Target) : Bool :=
  match scenario with
  | some sc => decide (width t ≠ size sc)
  | none => decide (width t > 1 ∧ width t ≠ ncomb)

/-- `setup` (`:981-1000`): the number of columns must be the size of the scenario, or without scenario one or the number of combinations. -/
def Dev.setup (d : Dev) (size : Nat → Nat) (ncomb : Nat) : Option Dev :=
  if (∃ t ∈ d.lower, wrongWidth d.scenario size ncomb t = true) ∨ (∃ t ∈ d.upper, wrongWidth d.scenario size ncomb t = true) then none else some d

/-- The column of a target for a combination (`:1017-1040`): the member of the scenario, or the combination; the only one if there is one. -/
def targetColumn (t : Target) (j : Int) : Int := if width t = 1 then 0 else j

/-- The deviation of one point of a curve (`:1046-1062`); `none` is NaN (a target is zero). -/
def deviation (v : Rat) (lower upper : Option Rat) : Option Rat :=
  if lower = some 0 ∨ upper = some 0 then none
  else
    let udev : Rat := match upper with
      | some u => (v - u) / u
      | none => 0
    let ldev : Rat := match lower with
      | some l => (l - v) / l
      | none => 0
    some (max (max udev ldev) 0)

/-- `self._target[k, j]` of an optional target; outer `none` is the `IndexError`. -/
def targetAt (t : Option Target) (k : Nat) (j : Int) : Option (Option Rat) :=
  match t with
  | none => some none
  | some t => (t[k]?).bind fun r => (ScenarioTables.rowAt r (targetColumn t j)).map some

/-- `j` in `finish` (`:1010-1022`): the member of the scenario in this combination, or the number of the combination. -/
def memberOf (scenario : Option Nat) (objects : List Nat) (c : Index) : Option Int :=
  match scenario with
  | some sc => (ScenarioTables.scenarioIndex objects sc).bind fun p => c.2[p]?
  | none => some (c.1 : Int)

/-- The loop body of `finish` for combination number `i` and percentile number `k` (`:1014-1062`); outer `none` is an exception. -/
def Dev.at (d : Dev) (objects : List Nat) (fdc : List (List Rat)) (i k : Nat) (c : Index) : Option (Option Rat) :=
  (memberOf d.scenario objects c).bind fun j =>
  (targetAt d.lower k j).bind fun l => (targetAt d.upper k j).bind fun u =>
  ((fdc[k]?).bind fun r => r[i]?).map fun v => deviation v l u

/-- `finish` (`:1002-1062`): a row per percentile, an entry per combination. -/
def Dev.finish (d : Dev) (objects : List Nat) (combos : List Index) (fdc : List (List Rat)) : Option (List (List (Option Rat))) :=
  (List.range d.qs.length).mapM fun k => combos.zipIdx.mapM fun c => d.at objects fdc c.2 k c.1

/-- `load` (`:1087-1102`): the scenario of the document is looked up (`KeyError` if absent), but not given to the constructor. -/
def Dev.load (objects : List Nat) (qs : List Rat) (lower upper : Option Target) (scenario : Option Nat) : Option Dev :=
  if (∃ sc ∈ scenario, sc ∉ objects) then none else Dev.init qs lower upper none

end Verif.DurationCurves

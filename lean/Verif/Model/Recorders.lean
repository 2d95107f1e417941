import Mathlib.Algebra.Order.Field.Rat
import Verif.Model.Bounds
/-!
# Recorders

Models recorders of `/repo/pywr/recorders/_recorders.pyx`.

A recorder is given by the state its `reset` leaves, its after-hook and its finish-hook. What a hook reads from the rest
of the model (flows and maximum flows of its node, values or indices of its parameter, one entry per scenario combination,
in the order of the combinations) is an argument. Arrays over combinations are lists; the loops
`for scenario_index in combinations: … [scenario_index.global_id] …` are `List.zipWith` (the combinations are numbered
`0 … ncomb - 1`, see C04). The length in days and the calendar fields of timestep `k` are given as functions of `k`
(the timestepper shows timestep `k` while the hooks of timestep `k` run, see C50). Numbers are exact rationals.
-/

namespace Verif.Run

/-- What a recorder does: the state after `reset`, the after-hook of timestep `k` (from what it observes), the finish-hook
(from the timestep the timestepper shows); `none`: the hook raises. -/
structure Rec (S O : Type) where
  init : S
  after : Nat → O → S → Option S
  finish : Option Nat → S → Option S

end Verif.Run

namespace Verif.Recorders

open Verif.Run Verif.Bounds

/-- What a node recorder reads: `_node._flow` and `_node.get_max_flow(scenario_index)` for every combination. -/
structure NodeView where
  flow : List Rat
  maxFlow : List Rat

/-- `np.zeros(ncomb)`. -/
def zeros (n : Nat) : List Rat := List.replicate n 0

/-- `TotalFlowNodeRecorder` (`_recorders.pyx:1758-1776`; `reset` `:1730-1731`; `finish` of the base class does nothing). -/
def totalFlow (factor : Rat) (days : Nat → Rat) (ncomb : Nat) : Rec (List Rat) NodeView where
  init := zeros ncomb
  after k o s := some (List.zipWith (fun v q => v + q * factor * days k) s o.flow)
  finish _ s := some s

/-- `TotalDeficitNodeRecorder` (`:1740-1755`). Maximum flows are finite here. -/
def totalDeficit (days : Nat → Rat) (ncomb : Nat) : Rec (List Rat) NodeView where
  init := zeros ncomb
  after k o s := some (List.zipWith (fun v d => v + d * days k) s (List.zipWith (fun m q => m - q) o.maxFlow o.flow))
  finish _ s := some s

/-- The loop `for i: _values[i] /= nt` with `nt = timestepper.current.index` (`:1797-1801`, `:1818-1822`, `:2350-2354`).
`timestepper.current` is `None` before the first timestep: an exception. Division by zero is an exception (there is no
`cdivision` directive), unless there is nothing to divide. -/
def divideByIndex (current : Option Nat) (s : List Rat) : Option (List Rat) :=
  match current with
  | none => none
  | some nt => if nt = 0 ∧ s ≠ [] then none else some (s.map (· / (nt : Rat)))

/-- `MeanFlowNodeRecorder` (`:1779-1802`). -/
def meanFlow (factor : Rat) (ncomb : Nat) : Rec (List Rat) NodeView where
  init := zeros ncomb
  after _ o s := some (List.zipWith (fun v q => v + q * factor) s o.flow)
  finish cur s := divideByIndex cur s

/-- `DeficitFrequencyNodeRecorder` (`:1805-1823`): counts `abs(flow - max_flow) > 1e-6`. -/
def deficitFrequency (ncomb : Nat) : Rec (List Rat) NodeView where
  init := zeros ncomb
  after _ o s := some (List.zipWith (fun v d => if |d| > 1 / 1000000 then v + 1 else v) s
    (List.zipWith (fun q m => q - m) o.flow o.maxFlow))
  finish cur s := divideByIndex cur s

/-- `TotalParameterRecorder` (`:2274-2314`); observes `get_all_values()`. -/
def totalParameter (factor : Rat) (integrate : Bool) (days : Nat → Rat) (ncomb : Nat) : Rec (List Rat) (List Rat) where
  init := zeros ncomb
  after k o s :=
    let f := if integrate then factor * days k else factor
    some (List.zipWith (fun v x => v + x * f) s o)
  finish _ s := some s

/-- `MeanParameterRecorder` (`:2317-2355`). -/
def meanParameter (factor : Rat) (ncomb : Nat) : Rec (List Rat) (List Rat) where
  init := zeros ncomb
  after _ o s := some (List.zipWith (fun v x => v + x * factor) s o)
  finish cur s := divideByIndex cur s

/-- Recorders with a row per timestep: `_data = zeros((nts, ncomb))`, cleared by `reset`; the after-hook stores
`row k o` at row `ts.index` (an index beyond the array is an exception). -/
def arrayRecorder {O V : Type} (zero : V) (row : O → List V) (nts ncomb : Nat) : Rec (List (List V)) O where
  init := List.replicate nts (List.replicate ncomb zero)
  after k o s := if k < s.length then some (s.set k (row o)) else none
  finish _ s := some s

/-- `NumpyArrayNodeRecorder` (`:618-631`). -/
def arrayNode (factor : Rat) (nts ncomb : Nat) : Rec (List (List Rat)) NodeView :=
  arrayRecorder 0 (fun o => o.flow.map (· * factor)) nts ncomb

/-- `NumpyArrayNodeDeficitRecorder.after` (`:680-689`), `max_flow - flow`. -/
def deficitOf (maxFlow flow : Rat) : Rat := maxFlow - flow

/-- `NumpyArrayNodeSuppliedRatioRecorder.after` (`:720-731`): `flow / max_flow`, 1 on `ZeroDivisionError`. -/
def suppliedOf (maxFlow flow : Rat) : Rat := if maxFlow = 0 then 1 else flow / maxFlow

/-- `NumpyArrayNodeCurtailmentRatioRecorder.after` (`:765-778`): `1 - flow / max_flow`, 0 on `ZeroDivisionError`. -/
def curtailmentOf (maxFlow flow : Rat) : Rat := if maxFlow = 0 then 0 else 1 - flow / maxFlow

/-- `NumpyArrayNodeDeficitRecorder`. -/
def arrayDeficit (nts ncomb : Nat) : Rec (List (List Rat)) NodeView :=
  arrayRecorder 0 (fun o => List.zipWith deficitOf o.maxFlow o.flow) nts ncomb

/-- `NumpyArrayNodeSuppliedRatioRecorder`. -/
def arraySupplied (nts ncomb : Nat) : Rec (List (List Rat)) NodeView :=
  arrayRecorder 0 (fun o => List.zipWith suppliedOf o.maxFlow o.flow) nts ncomb

/-- `NumpyArrayNodeCurtailmentRatioRecorder`. -/
def arrayCurtailment (nts ncomb : Nat) : Rec (List (List Rat)) NodeView :=
  arrayRecorder 0 (fun o => List.zipWith curtailmentOf o.maxFlow o.flow) nts ncomb

/-- `NumpyArrayParameterRecorder` and `NumpyArrayIndexParameterRecorder` (`:1520-1534`): the values of the parameter. -/
def arrayParameter {V : Type} (zero : V) (nts ncomb : Nat) : Rec (List (List V)) (List V) :=
  arrayRecorder zero id nts ncomb

/-- `MinimumVolumeStorageRecorder` (`:1843-1853`): `reset` stores infinity (`none`), the after-hook the minimum of the
volume and the stored value; observes the volumes. -/
def minimumVolume (ncomb : Nat) : Rec (List (Option Rat)) (List Rat) where
  init := List.replicate ncomb none
  after _ o s := some (List.zipWith (fun v x => match v with | none => some x | some y => some (min x y)) s o)
  finish _ s := some s

/-- `MinimumThresholdVolumeStorageRecorder` (`:1855-1874`). -/
def minimumThreshold (threshold : Rat) (ncomb : Nat) : Rec (List Rat) (List Rat) where
  init := zeros ncomb
  after _ o s := some (List.zipWith (fun v x => if x ≤ threshold then 1 else v) s o)
  finish _ s := some s

/-- `TimestepCountIndexParameterRecorder` (`:1877-1914`); observes the indices. -/
def timestepCount (threshold : Int) (ncomb : Nat) : Rec (List Nat) (List Int) where
  init := List.replicate ncomb 0
  after _ o s := some (List.zipWith (fun v x => if x ≥ threshold then v + 1 else v) s o)
  finish _ s := some s

/-- State of `AnnualCountIndexParameterRecorder`; `year` is `_current_year` (−1 before the first timestep). -/
structure AnnualCount where
  count : List Nat
  currentMax : List Int
  year : Int

/-- `AnnualCountIndexParameterRecorder` (`:2153-2208`). -/
def annualCount (threshold : Int) (year : Nat → Int) (ncomb : Nat) : Rec AnnualCount (List Int) where
  init := ⟨List.replicate ncomb 0, List.replicate ncomb 0, -1⟩
  after k o s :=
    let s1 : AnnualCount :=
      if year k ≠ s.year then
        ⟨if s.year ≠ -1 then List.zipWith (fun c m => if m ≥ threshold then c + 1 else c) s.count s.currentMax else s.count,
          s.currentMax.map fun _ => 0, year k⟩
      else s
    some { s1 with currentMax := List.zipWith (fun m x => if x > m then x else m) s1.currentMax o }
  finish _ s :=
    some { s with count := List.zipWith (fun c m => if m ≥ threshold then c + 1 else c) s.count s.currentMax }

/-- The calendar fields of timestep `k` used by `AnnualCountIndexThresholdRecorder`. -/
structure Date where
  year : Int
  month : Nat
  dayOfYear : Nat

/-- Settings of `AnnualCountIndexThresholdRecorder`; `includeFrom y` and `includeTo y` are the days of the year `y` computed at
`:1995-2002` (1 and 366 if not given; a date missing in the year, 29 February, is an exception: `none`). -/
structure AnnualThreshold where
  threshold : Int
  excludeMonths : Option (List Nat)
  includeFrom : Int → Option Nat
  includeTo : Int → Option Nat
  startYear : Int
  numYears : Nat

/-- State of `AnnualCountIndexThresholdRecorder`: `_data` (a row per year), the counts of the current year and
`_current_year`. The code keeps a count per parameter and combination, and only ever uses their sum over the parameters
(`:1989`, `:2016`): the model keeps the sum. `reset` does not clear the counts of the current year, the first after-hook does
(no timestep has year −1); the model clears them in both. -/
structure AnnualCounts where
  data : List (List Nat)
  thisYear : List Nat
  year : Int

/-- Python's index: negative indices count from the end; `none`: `IndexError`. -/
def rowIndex (n : Nat) (i : Int) : Option Nat :=
  if 0 ≤ i then (if i < n then some i.toNat else none)
  else if 0 ≤ i + n then some (i + n).toNat else none

/-- `_data[idx, i] = sum(_data_this_year[:, i])` for all combinations (`:1987-1989`, `:2012-2016`). -/
def AnnualThreshold.flush (a : AnnualThreshold) (s : AnnualCounts) : Option AnnualCounts :=
  match rowIndex s.data.length (s.year - a.startYear) with
  | none => none
  | some i => some { s with data := s.data.set i s.thisYear }

/-- The timestep is one in which exceedances are counted (`:1991-2004`); `none`: an exception. -/
def AnnualThreshold.counts (a : AnnualThreshold) (d : Date) : Option Bool :=
  if (match a.excludeMonths with | none => false | some ms => decide (d.month ∈ ms)) then some false
  else match a.includeFrom d.year, a.includeTo d.year with
    | some lo, some hi => some (decide (lo ≤ d.dayOfYear ∧ d.dayOfYear ≤ hi))
    | _, _ => none

/-- `AnnualCountIndexThresholdRecorder` (`:1960-2016`); observes, for every combination, the indices of its parameters. -/
def annualThreshold (a : AnnualThreshold) (date : Nat → Date) (ncomb : Nat) : Rec AnnualCounts (List (List Int)) where
  init := ⟨List.replicate a.numYears (List.replicate ncomb 0), List.replicate ncomb 0, -1⟩
  after k o s :=
    let s1 : Option AnnualCounts :=
      if (date k).year ≠ s.year then
        (if s.year ≠ -1 then a.flush s else some s).map fun t =>
          { t with thisYear := t.thisYear.map fun _ => 0, year := (date k).year }
      else some s
    s1.bind fun t => (a.counts (date k)).map fun c =>
      let count (n : Nat) (indices : List Int) : Nat :=
        if indices.any (fun i => decide (i ≥ a.threshold)) then n + 1 else n
      if c then { t with thisYear := List.zipWith count t.thisYear o } else t
  finish _ s := a.flush s

/-- The parts of timestep `k` used by `AnnualTotalFlowRecorder`: `ts.year`, `ts.days`, `days_in_current_year()` and
`days_in_next_year()`. -/
structure Split where
  year : Int
  days : Rat
  current : Rat
  next : Rat

/-- Add `x` to the entry at row `i`. -/
def addAt (rows : List (List Rat)) (i : Nat) (x : List Rat) : List (List Rat) :=
  rows.set i (List.zipWith (· + ·) (rows.getD i []) x)

/-- `AnnualTotalFlowRecorder` (`:2098-2127`); observes, for every combination, the flows of its nodes. The inner loop over the nodes adds
`flow * days * factor` of each node; the model adds their sum at once. -/
def annualTotal (factors : List Rat) (split : Nat → Split) (startYear : Int) (numYears ncomb : Nat) :
    Rec (List (List Rat)) (List (List Rat)) where
  init := List.replicate numYears (List.replicate ncomb 0)
  after k o s :=
    let t := split k
    let total (d : Rat) : List Rat := o.map fun flows => (List.zipWith (fun q f => q * d * f) flows factors).sum
    match rowIndex s.length (t.year - startYear) with
    | none => none
    | some i =>
      let s1 := addAt s i (total t.current)
      if t.current ≠ t.days ∧ t.year - startYear + 1 < numYears then
        (rowIndex s.length (t.year - startYear + 1)).map fun j => addAt s1 j (total t.next)
      else some s1
  finish _ s := some s

end Verif.Recorders

import Verif.Model.Bounds
/-!
# Storage nodes

Models `/repo/pywr/_core.pyx:941-1039, 1130-1182, 1289-1361` and the storage rows of the LP
`/repo/pywr/solvers/cython_glpk.pyx:966-990` (route solver; the edge solver has the same text `:1790-1815`).

One scenario is modelled; the code runs the same statements for every scenario index independently.
-/

namespace Verif.Storage

open Verif.Bounds

/-- The literal `1e-6`. -/
def e6 : Rat := 1 / 1000000

/-- Per-scenario state of a storage: `_volume`, `_flow`, `_prev_flow`, `_current_pc` (`none` is NaN). -/
structure State where
  volume : Rat
  flow : Rat
  prevFlow : Rat
  pc : Option Rat
deriving DecidableEq

/-- `volume / max_volume`, or NaN on `ZeroDivisionError` (`_core.pyx:1357-1361`). -/
def fraction (volume mx : Rat) : Option Rat := if mx = 0 then none else some (volume / mx)

/-- `AbstractNode.before` (`_core.pyx:475-479`): the flow is cleared. -/
def State.before (s : State) : State := { s with flow := 0 }

/-- A commit by the solver: to one of the storage's `StorageInput` nodes (water leaves the store, `_core.pyx:941-944`), to one
of its `StorageOutput` nodes (water enters, `:975-978`), or to the storage object itself (`AbstractNode.commit`,
`:481-483`; the solver commits zero there). -/
inductive Commit
  | fromStore (v : Rat)
  | toStore (v : Rat)
  | direct (v : Rat)

/-- Effect of a commit on the storage's flow. -/
def State.commit (s : State) : Commit → State
  | .fromStore v => { s with flow := s.flow + -v }
  | .toStore v => { s with flow := s.flow + v }
  | .direct v => { s with flow := s.flow + v }

/-- Snapping to the bounds, `_core.pyx:1352-1355`. -/
def snap (mx mn v : Rat) : Rat :=
  let v1 := if |v - mx| < e6 then mx else v
  if |v1 - mn| < e6 then mn else v1

/-- `Storage.after`, `_core.pyx:1335-1361` (with `AbstractNode.after`, `:491-492`). -/
def State.after (s : State) (days mx mn : Rat) (adjustment : Option Rat) : State :=
  let v0 := s.volume + s.flow * days
  let v1 := match adjustment with
    | none => v0
    | some a => min mx (max mn (v0 + a))
  let v2 := snap mx mn v1
  { volume := v2, flow := s.flow, prevFlow := s.flow, pc := fraction v2 mx }

/-- One timestep seen by a storage: `before`, the solver's commits, `after`. -/
structure Step where
  days : Rat
  mx : Rat
  mn : Rat
  commits : List Commit

/-- Effect of a timestep. -/
def State.step (s : State) (t : Step) : State :=
  (t.commits.foldl State.commit s.before).after t.days t.mx t.mn none

/-- A run. -/
def State.run (s : State) (ts : List Step) : State := ts.foldl State.step s

/-- `AbstractStorage.get_current_pc`, `_core.pyx:1027-1039`. -/
def getCurrentPc (pc : Option Rat) : Rat :=
  match pc with
  | none => 1
  | some p => if p > 1 then 1 else if p < 0 then 0 else p

/-- The row of a storage in the LP, `cython_glpk.pyx:966-990`. -/
def storageRow (volume mx mn days : Rat) : Row :=
  if mx = mn then ⟨.fx, 0, 0⟩
  else
    let avail := max (volume - mn) 0
    let lb := -avail / days
    let ub := max (mx - volume) 0 / days
    let lb := if |lb| < e8 then 0 else lb
    let ub := if |ub| < e8 then 0 else ub
    ⟨constraintType lb ub, lb, ub⟩

/-! ## Initial volume -/

/-- `max_volume`: a number, a constant parameter, or a parameter that varies. -/
inductive MaxVolume
  | number (v : Rat)
  | constantParam (v : Rat)
  | varyingParam

/-- `initial_volume` and `initial_volume_pc`; `none` if not finite (NaN when the user gives `None`, `_core.pyx:1108-1128`). -/
structure Initial where
  volume : Option Rat
  pc : Option Rat
  mx : MaxVolume

/-- Exceptions. -/
inductive Err
  | runtimeError
deriving DecidableEq, Inhabited

/-- `get_initial_volume`, `_core.pyx:1130-1154`. -/
def getInitialVolume (i : Initial) : Except Err Rat :=
  match i.mx with
  | .varyingParam =>
    match i.pc, i.volume with
    | some _, some v => .ok v
    | _, _ => .error .runtimeError
  | .constantParam m | .number m =>
    match i.pc with
    | some p => .ok (p * m)
    | none => match i.volume with
      | some v => .ok v
      | none => .error .runtimeError

/-- `get_initial_pc`, `_core.pyx:1156-1182`; the result `none` is NaN. -/
def getInitialPc (i : Initial) : Except Err (Option Rat) :=
  match i.mx with
  | .varyingParam =>
    match i.pc, i.volume with
    | some p, some _ => .ok (some p)
    | _, _ => .error .runtimeError
  | .constantParam m | .number m =>
    match i.pc with
    | some p => .ok (some p)
    | none => match i.volume with
      | some v => .ok (fraction v m)
      | none => .error .runtimeError

/-- `_reset_storage_only(use_initial_volume)`, `_core.pyx:1294-1333`. `mxNow` is the current value of `max_volume` (the number, or
the value of the parameter), used when resetting to the maximum. -/
def resetStorageOnly (i : Initial) (useInitial : Bool) (mxNow : Rat) (s : State) : Except Err State :=
  if useInitial then
    match getInitialVolume i, getInitialPc i with
    | .ok v, .ok p => .ok { s with volume := v, pc := p }
    | _, _ => .error .runtimeError
  else .ok { s with volume := mxNow, pc := fraction mxNow mxNow }

/-- `Storage.reset`, `_core.pyx:1289-1292` and `AbstractNode.reset` (`:468-473`: flow and previous flow cleared). -/
def reset (i : Initial) (s : State) : Except Err State :=
  resetStorageOnly i true 0 { s with flow := 0, prevFlow := 0 }

end Verif.Storage

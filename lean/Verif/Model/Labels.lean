import Verif.Model.Scenarios
/-!
# Labels of results

Models how the columns of results are labelled (`ScenarioCollection.multiindex`, `/repo/pywr/_core.pyx:190-200`,
`Scenario.ensemble_names` `:60-72`) against the combinations the columns were computed for: `ScenarioCollection.setup`
(`:130-131`) keeps the combinations, `Model.run` (`/repo/pywr/_model.pyx:637-656`) sets the model up only when it is dirty,
and recorders take the labels when a data frame is asked for (`/repo/pywr/recorders/_recorders.pyx:634-645` and others).
-/

namespace Verif.Labels

open Verif.Scenarios

/-- A label: the number of an ensemble member or its user-defined name. -/
inductive Lab
  | num (i : Int)
  | str (s : String)
deriving DecidableEq

/-- Indexing a Python list: negative indices count from the end; `none` an `IndexError`. -/
def pyIndex {α : Type} (l : List α) (i : Int) : Option α :=
  if 0 ≤ i then l[i.toNat]? else if 0 ≤ i + l.length then l[(i + l.length).toNat]? else none

/-- `scenario.ensemble_names` (`_core.pyx:60-64`). `names` is `_ensemble_names`. -/
def ensembleNames (size : Nat) : Option (List String) → List Lab
  | none => (List.range size).map fun k : Nat => .num k
  | some l => l.map .str

/-- What is kept of a model: its scenarios and user-defined combinations, the names of the ensemble members of every
scenario, `dirty` (of the model or its timestepper), `scenarios.combinations`, and the members which the columns of the
results of the last run were computed for. -/
structure St where
  coll : Collection
  names : List (Option (List String))
  dirty : Bool
  combinations : Option (List Index)
  results : Option (List (List Int))

/-- A new model. -/
def St.new : St := ⟨⟨[], none⟩, [], true, none, none⟩

/-- What a user does. -/
inductive Op
  /-- `Scenario(model, name, size, slice, ensemble_names)` (`_core.pyx:42-50`, `160-164`). -/
  | add (size : Int) (slice : Option PySlice) (names : Option (List String))
  /-- `model.scenarios.user_combinations = …`. -/
  | setUser (t : TableArg)
  /-- `scenario.slice = …` of scenario `n` (a plain attribute). -/
  | setSlice (n : Nat) (slice : Option PySlice)
  /-- `scenario.ensemble_names = …` of scenario `n`. -/
  | setNames (n : Nat) (names : Option (List String))
  /-- Anything that makes the model or its timestepper dirty. -/
  | touch
  /-- `model.setup()`. -/
  | setup
  /-- `model.run()`; nothing but the scenarios raises. -/
  | run

/-- `ScenarioCollection.setup` in `Model.setup` (`_core.pyx:130-131`, `_model.pyx:697`). -/
def St.setup (s : St) : Except Err St :=
  match s.coll.getCombinations with
  | .error e => .error e
  | .ok l => .ok { s with combinations := some l, dirty := false }

/-- The effect of a run on what is kept: the columns are computed for `scenarios.combinations`. -/
def St.compute (s : St) : St := { s with results := s.combinations.map fun l => l.map Prod.snd }

/-- One action; an exception leaves the state as it was. -/
def St.step (s : St) : Op → Except Err St
  | .add size slice names =>
    if size < 1 then .error .valueError
    else if (∃ l, names = some l ∧ (l.length : Int) ≠ size) then .error .valueError
    else .ok { s with coll := { s.coll with scenarios := s.coll.scenarios ++ [⟨size.toNat, slice⟩] },
                      names := s.names ++ [names], dirty := true }
  | .setUser t => match s.coll.setUser t with
    | .error e => .error e
    | .ok c => .ok { s with coll := c }
  | .setSlice n slice =>
    .ok { s with coll := { s.coll with scenarios := s.coll.scenarios.modify n fun x => { x with slice := slice } } }
  | .setNames n names => match s.coll.scenarios[n]? with
    | none => .ok s
    | some sc =>
      if (∃ l, names = some l ∧ l.length ≠ sc.size) then .error .valueError
      else .ok { s with names := s.names.set n names }
  | .touch => .ok { s with dirty := true }
  | .setup => s.setup
  | .run => if s.dirty then (match s.setup with | .error e => .error e | .ok s1 => .ok s1.compute) else .ok s.compute

/-- The state after a history; actions that raise have no effect. -/
def St.exec (s : St) (ops : List Op) : St :=
  ops.foldl (fun s op => match s.step op with | .ok s' => s' | .error _ => s) s

/-- The label of a combination: `[ensemble_names[n][i] for n, i in enumerate(indices)]` (`_core.pyx:197`); `none` an
`IndexError`, or the `ValueError` of `MultiIndex.from_tuples(…, names=names)` (`:200`) for tuples of another length than the
list of scenarios. -/
def labelOf : List Scenario → List (Option (List String)) → List Int → Option (List Lab)
  | [], _, [] => some []
  | sc :: scs, nm :: nms, i :: is =>
    (pyIndex (ensembleNames sc.size nm) i).bind fun l => (labelOf scs nms is).map (l :: ·)
  | _, _, _ => none

/-- `ScenarioCollection.multiindex` (`_core.pyx:190-200`): the labels of the columns. -/
def St.multiindex (s : St) : Option (List (List Lab)) :=
  if s.coll.scenarios.length = 0 then some [[.num 0]]
  else match s.coll.getCombinations with
    | .error _ => none
    | .ok l => (l.map Prod.snd).mapM (labelOf s.coll.scenarios s.names)

end Verif.Labels

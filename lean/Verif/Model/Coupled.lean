import Mathlib.Algebra.Ring.Rat
import Verif.Model.Run
import Verif.Model.Scenarios
/-!
# Coupled models: loading, scenarios and values of another model

Models `/repo/pywr/model.py:24-166` (`MultiModel.add_model`, `load`, `load_from_dict`), `:174-205` (`_check_scenarios`),
`/repo/pywr/parameters/multi_model_parameters.py:4-108` (parameters which take their value from another model) and the
`before` hooks of `ShadowStorage` and `ShadowNode` (`/repo/pywr/_core.pyx:1539-1596`).

Simplifications: files are read by an arbitrary `loader`; the directory of the document has already been worked out
(`model.py:122-124`); the document is given as a dictionary (`model.py:87`).
-/

namespace Verif.Coupled

open Verif.Scenarios

/-! ## Loading -/

/-- Where the document of a sub-model comes from: a file or the document itself. -/
inductive Source (Data : Type)
  | file (name : String)
  | data (d : Data)
deriving DecidableEq

/-- A sub-model as far as `load_from_dict` touches it: what it was loaded from, the dates and the length of the timesteps of
its timestepper (`timestepper.py:112-151`), and any further attribute which was set on the timestepper object. -/
structure SubModel (Data : Type) where
  source : Source Data
  path : Option String
  solver : Option String
  start : Int
  stop : Int
  delta : Int
  extra : Option Int
deriving DecidableEq

/-- The timestepper settings a document carries. -/
structure Times where
  start : Int
  stop : Int
  timestep : Int
deriving DecidableEq

/-- An entry of `data["models"]`, `model.py:127-132`. -/
structure Definition (Data : Type) where
  name : String
  filename : Option String
  data : Option Data
  solver : Option String
  path : Option String
deriving DecidableEq

/-- The document of a coupled model. -/
structure Document (Data : Type) where
  times : Times
  models : List (Definition Data)
deriving DecidableEq

/-- Errors: both or neither of `filename` and `data` (`model.py:134-137, 156-159`), or the sub-model can not be loaded. -/
inductive Err
  | both
  | neither
  | sub
deriving DecidableEq, Repr

/-- What `Model.load(source, path=…, solver=…)` makes of a document: its own timestepper settings, or an exception.
`join` is `os.path.join`. -/
structure Files (Data : Type) where
  own : Source Data → Option Times
  join : String → String → String

variable {Data : Type}

/-- `Model.load(source, path=path, solver=solver)`. -/
def Files.load (f : Files Data) (s : Source Data) (path solver : Option String) : Except Err (SubModel Data) :=
  match f.own s with
  | none => .error .sub
  | some t => .ok ⟨s, path, solver, t.start, t.stop, t.timestep, none⟩

/-- The body of the loop over the sub-models up to the loaded object, `model.py:128-159`. -/
def loadSub (f : Files Data) (dir solver : Option String) (d : Definition Data) : Except Err (SubModel Data) :=
  let s := d.solver.orElse fun _ => solver
  match d.filename, d.data with
  | some _, some _ => .error .both
  | some n, none =>
    f.load (.file (match dir with | some p => f.join p n | none => n)) d.path s
  | none, some x => f.load (.data x) (d.path.orElse fun _ => dir) s
  | none, none => .error .neither

/-- `sub_model.timestepper.start = …; .end = …; .timestep = …`, `model.py:161-163`.  The timestepper has setters for `start`
and `end` (`timestepper.py:116-142`); the length of the timesteps is its attribute `delta` (`:144-151`), and `timestep` is
no property of it: the assignment creates a new attribute. -/
def SubModel.apply (m : SubModel Data) (t : Times) : SubModel Data :=
  { m with start := t.start, stop := t.stop, extra := some t.timestep }

/-- `self.models[name] = model` of an ordered dictionary, `model.py:26`: an existing key keeps its place. -/
def put (ms : List (String × SubModel Data)) (n : String) (m : SubModel Data) : List (String × SubModel Data) :=
  if ms.any (fun p => p.1 == n) then ms.map fun p => if p.1 == n then (n, m) else p else ms ++ [(n, m)]

/-- The loop of `load_from_dict`, `model.py:127-164`. -/
def loadSubs (f : Files Data) (dir solver : Option String) (t : Times) :
    List (Definition Data) → List (String × SubModel Data) → Except Err (List (String × SubModel Data))
  | [], ms => .ok ms
  | d :: ds, ms =>
    match loadSub f dir solver d with
    | .error e => .error e
    | .ok m => loadSubs f dir solver t ds (put ms d.name (m.apply t))

/-- `MultiModel.load_from_dict(data, path=dir, solver=solver)`, `model.py:97-166` (no existing model given). -/
def loadFromDict (f : Files Data) (doc : Document Data) (dir solver : Option String) :
    Except Err (List (String × SubModel Data)) :=
  loadSubs f dir solver doc.times doc.models []

/-- `MultiModel.load(data, path=dir, solver=solver)` of a dictionary, `model.py:43-87`; files end here as well, through
`loads`.  The last line passes `solver=None`. -/
def load (f : Files Data) (doc : Document Data) (dir _solver : Option String) :
    Except Err (List (String × SubModel Data)) :=
  loadFromDict f doc dir none

/-! ## Scenarios of the sub-models -/

/-- What `_check_scenarios` extracts of a model, `model.py:180-188`. -/
structure Extract where
  sizes : List Nat
  names : List String
  combinations : List (List Int)
deriving DecidableEq

/-- The scenarios of a sub-model: the collection and the names of its scenarios. -/
structure Named where
  coll : Collection
  names : List String

/-- The exceptions of `_check_scenarios`; `select` comes from `get_combinations` (`_core.pyx:126-127`). -/
inductive CheckErr
  | select
  | sizes
  | combinations
deriving DecidableEq, Repr

/-- `sizes.append(…)`, `names.append(…)`, `combinations.append(…)` for all models, `model.py:183-188`. -/
def extractAll : List Named → Except CheckErr (List Extract)
  | [] => .ok []
  | m :: ms =>
    match m.coll.getCombinations with
    | .error _ => .error .select
    | .ok l =>
      match extractAll ms with
      | .error e => .error e
      | .ok es => .ok (⟨m.coll.scenarios.map Scenario.size, m.names, l.map Prod.snd⟩ :: es)

/-- `MultiModel._check_scenarios`, `model.py:174-205`: the number of warnings about names, or an exception. -/
def checkScenarios (ms : List Named) : Except CheckErr Nat :=
  match extractAll ms with
  | .error e => .error e
  | .ok [] => .ok 0
  | .ok (e :: es) =>
    if (e :: es).any (fun x => x.sizes != e.sizes) then .error .sizes
    else if (e :: es).any (fun x => x.combinations != e.combinations) then .error .combinations
    else .ok ((e :: es).filter fun x => x.names != e.names).length

/-! ## Values of another model -/

open Verif.Run Verif.Timestepper

/-- The value arrays of the parameters of all models: of component `c` of model `id`, one value per scenario combination.
`none`: memory which was never written (`np.empty`, `/repo/pywr/parameters/_parameters.pyx:65`). -/
abbrev Values := Nat → Nat → List (Option ℚ)

/-- Assign the array of one component. -/
def Values.set (v : Values) (id c : Nat) (x : List (Option ℚ)) : Values :=
  fun i d => if i = id ∧ d = c then x else v i d

/-- `calc_values` of a parameter which takes its value from parameter `p` of model `other`
(`multi_model_parameters.py:22-23`, called for all combinations by `_parameters.pyx:70-75`): entry `global_id` of its own
array becomes entry `global_id` of the other's.  `n` is the number of scenario combinations; reading past the end of the
other array raises. -/
def calcOther (n other p id c : Nat) (v : Values) : Option Nat × Values :=
  if n ≤ (v other p).length then (none, v.set id c ((v other p).take n)) else (some 0, v)

end Verif.Coupled

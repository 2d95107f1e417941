import Verif.Model.Scenarios

/-!
# Parameters that look values up in a table with one column per ensemble member

Models `DataFrameParameter` (`/repo/pywr/parameters/_parameters.pyx:192-280`), `ArrayIndexedScenarioParameter`
(`302-335`) and `TablesArrayParameter` (`338-512`).  The alignment and resampling of a data frame
(`align_and_resample_dataframe`, pandas) is not modelled: `frame` is its result.  Reading from an HDF file is not
modelled: `node` is the content of the array.  Cell values are of an arbitrary type, so the conversions between 32 and
64 bit numbers and between integers and floats are left out.
-/

namespace Verif.DataFrame

open Verif.Scenarios

/-- The exceptions that can be raised. -/
inductive Err
  | value
  | type
  | index
deriving Repr, DecidableEq

/-- A two dimensional array. -/
structure Frame (α : Type) where
  rows : Nat
  cols : Nat
  cell : Nat → Nat → α

/-- Python's (and Cython's, with the default directives `boundscheck=True`, `wraparound=True` of
`/repo/setup.py:8-11`) resolution of a possibly negative index; `none` is the `IndexError`. -/
def resolve (n : Nat) (i : Int) : Option Nat :=
  if 0 ≤ i ∧ i < n then some i.toNat
  else if i < 0 ∧ 0 ≤ i + n then some (i + n).toNat
  else none

/-- `a[i, j]`. -/
def Frame.get {α : Type} (f : Frame α) (i j : Int) : Except Err α :=
  match resolve f.rows i, resolve f.cols j with
  | some r, some c => .ok (f.cell r c)
  | _, _ => .error .index

/-- Resolve a list of column indices, `none` if one of them is out of bounds. -/
def resolveAll (n : Nat) : List Int → Option (List Nat)
  | [] => some []
  | i :: is => match resolve n i, resolveAll n is with
    | some k, some ks => some (k :: ks)
    | _, _ => none

/-- `frame.iloc[:, indices]` (`_parameters.pyx:252`). -/
def Frame.columns {α : Type} (f : Frame α) (idx : List Int) : Except Err (Frame α) :=
  match resolveAll f.cols idx with
  | some ks => .ok ⟨f.rows, ks.length, fun r n => f.cell r (ks.getD n 0)⟩
  | none => .error .index

/-- `node[:steps, ...]` keeps the first `steps` rows. -/
def Frame.firstRows {α : Type} (f : Frame α) (steps : Nat) : Frame α := { f with rows := min steps f.rows }

/-- Insertion into a strictly increasing list. -/
def insertSorted (x : Int) : List Int → List Int
  | [] => [x]
  | y :: ys => if x < y then x :: y :: ys else if x = y then y :: ys else y :: insertSorted x ys

/-- `sorted(list(set(l)))`. -/
def sortedSet : List Int → List Int
  | [] => []
  | x :: xs => insertSorted x (sortedSet xs)

/-- `range(*s.indices(s.stop))` (`_parameters.pyx:244, 432`).  `indices(None)` raises `TypeError`, `indices` of a
negative length and a zero step raise `ValueError`. -/
def stopIndices (s : PySlice) : Except Err (List Int) :=
  match s.stop with
  | none => .error .type
  | some b =>
    if b < 0 then .error .value
    else match sliceRange b.toNat s with
      | none => .error .value
      | some l => .ok l

/-- The ensemble members whose columns are loaded, `none` for all (`_parameters.pyx:237-247, 425-435`).  The user
combinations are a memoryview, true when it has at least one row. -/
def scenarioIndices (c : Collection) (k : Nat) (s : Scenario) : Except Err (Option (List Int)) :=
  match c.user with
  | some (r :: rs) => .ok (some (sortedSet ((r :: rs).map (fun row => row.getD k 0))))
  | _ => match s.slice with
    | some sl => match stopIndices sl with
      | .ok l => .ok (some l)
      | .error e => .error e
    | none => .ok none

/-- `for n, i in enumerate(scenario_indices): self._scenario_ids[i] = n`, from the `n`-th element on
(`_parameters.pyx:250-251, 439-440`). -/
def assignIds (ids : List Nat) : Nat → List Int → Except Err (List Nat)
  | _, [] => .ok ids
  | n, i :: is => match resolve ids.length i with
    | none => .error .index
    | some p => assignIds (ids.set p n) (n + 1) is

/-- `np.ones(size) * size` filled by the loop (`_parameters.pyx:235, 250-251`). -/
def scenarioIds (size : Nat) (idx : List Int) : Except Err (List Nat) :=
  assignIds (List.replicate size size) 0 idx

/-- The private attributes after `setup()`: the loaded values, the position of the scenario in the model and the
look-up of ensemble member to loaded column. -/
structure State (α : Type) where
  values : Frame α
  scenario : Option Nat
  ids : Option (List Nat)

/-- `DataFrameParameter.setup` (`_parameters.pyx:212-254`).  `steps` is the number of timesteps of the model,
`scenario` the position of the parameter's scenario in the collection. -/
def setup {α : Type} (c : Collection) (steps : Nat) (scenario : Option Nat) (frame : Frame α) :
    Except Err (State α) :=
  if frame.rows ≠ steps then .error .value
  else match scenario with
    | none => if frame.cols > 1 then .error .value else .ok ⟨frame, none, none⟩
    | some k => match c.scenarios[k]? with
      | none => .error .value
      | some s =>
        if frame.cols > 1 ∧ s.size ≠ frame.cols then .error .value
        else match scenarioIndices c k s with
          | .error e => .error e
          | .ok none => .ok ⟨frame, some k, none⟩
          | .ok (some idx) => match scenarioIds s.size idx with
            | .error e => .error e
            | .ok ids => match frame.columns idx with
              | .error e => .error e
              | .ok loaded => .ok ⟨loaded, some k, some ids⟩

/-- `min(max(index + offset, 0), rows - 1)` (`_parameters.pyx:258`). -/
def rowIndex (rows index : Nat) (offset : Int) : Int := min (max (index + offset) 0) ((rows : Int) - 1)

/-- The column looked up for a combination (`_parameters.pyx:261-265`). -/
def State.column {α : Type} (st : State α) (combo : List Int) : Except Err Int :=
  match st.scenario with
  | none => .ok 0
  | some k => match combo[k]? with
    | none => .error .index
    | some m => match st.ids with
      | none => .ok m
      | some ids => match resolve ids.length m with
        | none => .error .index
        | some p => .ok (ids.getD p 0)

/-- `DataFrameParameter.value` (`_parameters.pyx:256-268`) and `TablesArrayParameter.value`/`index`
(`_parameters.pyx:459-489`). -/
def State.value {α : Type} (st : State α) (index : Nat) (offset : Int) (combo : List Int) : Except Err α :=
  match st.column combo with
  | .error e => .error e
  | .ok j => st.values.get (rowIndex st.values.rows index offset) j

/-- `ArrayIndexedScenarioParameter.__init__` (`_parameters.pyx:307-319`): the columns must be the members. -/
def arrayInit {α : Type} (s : Scenario) (values : Frame α) : Except Err (Frame α) :=
  if s.size ≠ values.cols then .error .value else .ok values

/-- `ArrayIndexedScenarioParameter.value` (`_parameters.pyx:327-333`). -/
def arrayValue {α : Type} (values : Frame α) (k index : Nat) (combo : List Int) : Except Err α :=
  match combo[k]? with
  | none => .error .index
  | some m => values.get index m

/-- `np.all(np.isfinite(values))`. -/
def Frame.all {α : Type} (f : Frame α) (p : α → Bool) : Bool :=
  (List.range f.rows).all fun r => (List.range f.cols).all fun c => p (f.cell r c)

/-- The final check of `TablesArrayParameter.setup` (`_parameters.pyx:447-454`). -/
def checkFinite {α : Type} (finite : α → Bool) (st : State α) : Except Err (State α) :=
  if st.values.all finite then .ok st else .error .value

/-- `TablesArrayParameter.setup` (`_parameters.pyx:380-457`); for integer data `finite` is constantly true. -/
def tablesSetup {α : Type} (finite : α → Bool) (c : Collection) (steps : Nat) (scenario : Option Nat)
    (node : Frame α) : Except Err (State α) :=
  match scenario with
  | none => if node.rows < steps then .error .index else checkFinite finite ⟨node, none, none⟩
  | some k => match c.scenarios[k]? with
    | none => .error .value
    | some s =>
      if node.cols < s.size then .error .index
      else if node.rows < steps then .error .index
      else match scenarioIndices c k s with
        | .error e => .error e
        | .ok none => checkFinite finite ⟨node, some k, none⟩
        | .ok (some idx) => match scenarioIds s.size idx with
          | .error e => .error e
          | .ok ids => match (node.firstRows steps).columns idx with
            | .error e => .error e
            | .ok loaded => checkFinite finite ⟨loaded, some k, some ids⟩

end Verif.DataFrame

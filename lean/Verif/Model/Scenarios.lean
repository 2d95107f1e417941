/-!
# Scenarios and scenario combinations

Models `/repo/pywr/_core.pyx:42-208` (`Scenario`, `ScenarioCollection`).
-/

namespace Verif.Scenarios

/-- A Python `slice` object with optional integer fields. -/
structure PySlice where
  start : Option Int
  stop : Option Int
  step : Option Int
deriving Repr, DecidableEq

/-- CPython's index adjustment (`PySlice_AdjustIndices`) for one bound. -/
def adjust (n : Int) (positive : Bool) (default : Int) : Option Int → Int
  | none => default
  | some i =>
    let lo := if positive then 0 else -1
    let hi := if positive then n else n - 1
    if i < 0 then (if i + n < 0 then lo else i + n)
    else if i ≥ n then hi else i

/-- `list(range(n)[s])`: the ensemble members selected by a slice. `none` models the `ValueError` for a zero step.
(`range.__getitem__` with a slice, CPython documented behaviour.) -/
def sliceRange (n : Nat) (s : PySlice) : Option (List Int) :=
  let step := s.step.getD 1
  if step = 0 then none
  else if step > 0 then
    let a := adjust n true 0 s.start
    let b := adjust n true n s.stop
    let len := if a < b then ((b - a - 1) / step + 1).toNat else 0
    some ((List.range len).map (fun k : Nat => a + (k : Int) * step))
  else
    let a := adjust n false (n - 1) s.start
    let b := adjust n false (-1) s.stop
    let len := if b < a then ((a - b - 1) / (-step) + 1).toNat else 0
    some ((List.range len).map (fun k : Nat => a + (k : Int) * step))

/-- `Scenario` (`/repo/pywr/_core.pyx:42-50`), reduced to size and slice. -/
structure Scenario where
  size : Nat
  slice : Option PySlice
deriving Repr, DecidableEq

/-- Errors. -/
inductive Err
  | valueError
deriving Repr, DecidableEq

/-- `range(scenario._size)[scenario.slice] if scenario.slice else range(scenario._size)`,
`/repo/pywr/_core.pyx:122-124`. -/
def Scenario.selection (s : Scenario) : Except Err (List Int) :=
  match s.slice with
  | some sl => match sliceRange s.size sl with
    | some l => .ok l
    | none => .error .valueError
  | none => .ok ((List.range s.size).map Int.ofNat)

/-- `itertools.product(*lists)` (documented: rightmost element advances fastest). -/
def product : List (List Int) → List (List Int)
  | [] => [[]]
  | l :: ls => l.flatMap fun x => (product ls).map (x :: ·)

/-- Collect the selections, the first error aborts. -/
def selections : List Scenario → Except Err (List (List Int))
  | [] => .ok []
  | s :: ss => match s.selection with
    | .error e => .error e
    | .ok l => match selections ss with
      | .error e => .error e
      | .ok ls => .ok (l :: ls)

/-- `ScenarioCollection` state: the scenarios and the optional table of user combinations (rows). -/
structure Collection where
  scenarios : List Scenario
  user : Option (List (List Int))
deriving Repr, DecidableEq

/-- `ScenarioIndex(global_id, indices)`. -/
abbrev Index := Nat × List Int

/-- `[ScenarioIndex(i, x) for i, x in enumerate(rows)]`. -/
def enumerate (rows : List (List Int)) : List Index := rows.zipIdx.map (fun p => (p.2, p.1))

/-- `ScenarioCollection.get_combinations`, `/repo/pywr/_core.pyx:108-128`. -/
def Collection.getCombinations (c : Collection) : Except Err (List Index) :=
  let combos : Except Err (List Index) :=
    if c.scenarios.length = 0 then .ok [(0, [0])]
    else match c.user with
      | some rows => .ok (enumerate rows)
      | none => match selections c.scenarios with
        | .error e => .error e
        | .ok ls => .ok (enumerate (product ls))
  match combos with
  | .error e => .error e
  | .ok l => if l.isEmpty then .error .valueError else .ok l

/-- `ScenarioCollection.shape`, `/repo/pywr/_core.pyx:181-188`. -/
def Collection.shape (c : Collection) : Except Err (List Nat) :=
  match c.user with
  | some rows => .ok [rows.length]
  | none =>
    if c.scenarios.length = 0 then .ok [1]
    else match selections c.scenarios with
      | .error e => .error e
      | .ok ls => .ok (ls.map List.length)

/-- `numpy.ravel_multi_index(indices, dims)` (C order, `mode='raise'`); `none` models the `ValueError` for an index out
of bounds or a length mismatch. -/
def ravelMultiIndex : List Int → List Nat → Option Nat
  | [], [] => some 0
  | i :: is, d :: ds =>
    if 0 ≤ i ∧ i < d then
      (ravelMultiIndex is ds).map (fun r => i.toNat * ds.prod + r)
    else none
  | _, _ => none

/-- `ScenarioCollection.ravel_indices`, `/repo/pywr/_core.pyx:202-208` (argument not `None`). -/
def Collection.ravelIndices (c : Collection) (indices : List Int) : Except Err Nat :=
  if indices.length = 0 then .ok 0
  else match c.shape with
    | .error e => .error e
    | .ok dims => match ravelMultiIndex indices dims with
      | some r => .ok r
      | none => .error .valueError

/-- A value offered as user combinations: what `np.asarray(values, dtype=np.int32)` makes of it. -/
inductive TableArg
  /-- `None`. -/
  | none
  /-- A two dimensional integer array with `cols` columns (every row has that length). -/
  | twoD (cols : Nat) (rows : List (List Int))
  /-- Any array with another number of dimensions. -/
  | otherDim
deriving Repr, DecidableEq

/-- The setter of `ScenarioCollection.user_combinations`, `/repo/pywr/_core.pyx:137-154`.  `values.max(axis=0)` of an
array without rows but with columns raises `ValueError` in numpy. -/
def Collection.setUser (c : Collection) : TableArg → Except Err Collection
  | .none => .ok { c with user := .none }
  | .otherDim => .error .valueError
  | .twoD cols rows =>
    if cols ≠ c.scenarios.length then .error .valueError
    else if rows = [] ∧ cols ≠ 0 then .error .valueError
    else if rows.any (fun r => (r.zip c.scenarios).any (fun p => p.1 ≥ p.2.size)) then .error .valueError
    else if rows.any (fun r => r.any (fun v => v < 0)) then .error .valueError
    else .ok { c with user := some rows }

/-- `Scenario.__init__` + `ScenarioCollection.add_scenario`, `/repo/pywr/_core.pyx:42-50, 160-164` (a new object, so
never already present). -/
def Collection.addScenario (c : Collection) (size : Int) (slice : Option PySlice) : Except Err Collection :=
  if size < 1 then .error .valueError
  else .ok { c with scenarios := c.scenarios ++ [⟨size.toNat, slice⟩] }

/-- Operations on a collection. -/
inductive Op
  | add (size : Int) (slice : Option PySlice)
  | setUser (t : TableArg)
deriving Repr, DecidableEq

/-- A failing operation leaves the collection unchanged (all checks precede the assignment). -/
def Collection.step (c : Collection) : Op → Collection
  | .add n s => match c.addScenario n s with | .ok c' => c' | .error _ => c
  | .setUser t => match c.setUser t with | .ok c' => c' | .error _ => c

/-- A history from the empty collection. -/
def run (ops : List Op) : Collection := ops.foldl Collection.step ⟨[], .none⟩

end Verif.Scenarios

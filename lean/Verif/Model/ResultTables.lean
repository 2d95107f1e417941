import Mathlib.Algebra.Order.Field.Rat
/-!
# Tables of results

`Model.to_dataframe` (`/repo/pywr/_model.pyx:874-881`), `ModelResult.to_dict` and `.to_dataframe` (`:1067-1105`), `align_series` (`/repo/pywr/notebook/figures.py:17-56`) and the profiler
(`/repo/pywr/profiler.py:12-77`).  What pandas does with tables is written out: `concat(axis=1)` puts columns side by side and matches rows by their labels.
-/

namespace Verif.ResultTables

/-! ## Tables of all recorders -/

/-- Labels of rows and columns. -/
abbrev Label := List Char

/-- A table of a recorder: the number of levels of its columns, labels of rows and columns (one string per level), and cells. -/
structure Frame (α : Type) where
  levels : Nat
  index : List Label
  columns : List (List Label)
  cell : Nat → Nat → α

/-- A recorder; `none` if its class has no `to_dataframe`. -/
structure Rec (α : Type) where
  name : Label
  frame : Option (Frame α)

/-- The joined table: a missing cell is NaN. -/
structure Table (α : Type) where
  index : List Label
  columns : List (Label × List Label)
  cell : Nat → Nat → Option α

inductive Err
  | noObjects
  | levels
  | duplicates
deriving DecidableEq

/-- Assignment to a key of a dictionary (Python keeps the place of the first assignment). -/
def put {κ β : Type} [DecidableEq κ] (d : List (κ × β)) (k : κ) (v : β) : List (κ × β) :=
  if d.any (fun p => p.1 = k) then d.map fun p => if p.1 = k then (k, v) else p else d ++ [(k, v)]

/-- `{r.name: r.to_dataframe() for r in self.recorders if hasattr(r, 'to_dataframe')}` (`_model.pyx:878`). -/
def frames {α : Type} (rs : List (Rec α)) : List (Label × Frame α) :=
  rs.foldl (fun d r => match r.frame with | none => d | some f => put d r.name f) []

/-- The labels of the rows, each once, in the order of their first appearance (pandas may sort them; the order is not used below). -/
def union {α : Type} : List (Label × Frame α) → List Label
  | [] => []
  | (_, f) :: fs => f.index ++ (union fs).filter fun l => l ∉ f.index

/-- The place of the column `j` of the joined table: which table and which of its columns. -/
def place {α : Type} : List (Label × Frame α) → Nat → Option (Frame α × Nat)
  | [], _ => none
  | (_, f) :: fs, j => if j < f.columns.length then some (f, j) else place fs (j - f.columns.length)

/-- `pandas.concat(dfs, axis=1)` (`_model.pyx:879`): tables with the same rows are put side by side, otherwise rows are matched by label, for which the labels of each table must be distinct; tables whose columns differ must have the
same number of levels. -/
def concat {α : Type} (fs : List (Label × Frame α)) : Except Err (Table α) :=
  match fs with
  | [] => .error .noObjects
  | (_, f0) :: _ =>
    let columns := fs.flatMap fun p => p.2.columns.map fun c => (p.1, c)
    if ¬ fs.all (fun p => p.2.columns = f0.columns) ∧ ¬ fs.all (fun p => p.2.levels = f0.levels) then .error .levels
    else if fs.all fun p => p.2.index = f0.index then
      .ok ⟨f0.index, columns, fun i j => match place fs j with
        | none => none
        | some (f, c) => if i < f0.index.length then some (f.cell i c) else none⟩
    else if fs.all fun p => p.2.index.Nodup then
      .ok ⟨union fs, columns, fun i j => match place fs j, (union fs)[i]? with
        | some (f, c), some l => if l ∈ f.index then some (f.cell (f.index.idxOf l) c) else none
        | _, _ => none⟩
    else .error .duplicates

/-- `Model.to_dataframe` (`_model.pyx:874-881`). -/
def toDataframe {α : Type} (rs : List (Rec α)) : Except Err (Table α) := concat (frames rs)

/-! ## Results of a run -/

/-- Values in the result: the timestep, its date, or something else. -/
inductive Value (β : Type)
  | timestep (date : Int)
  | date (d : Int)
  | other (x : β)
deriving DecidableEq

/-- A result (`ModelResult.__init__`, `_model.pyx:1068-1081`): the attributes apart from the timestep and the two dictionaries, with their names, in the order of assignment after the timestep. -/
structure Result (β : Type) where
  timestep : Int
  attributes : List (Label × β)
  settings : List (Label × β)
  stats : List (Label × β)

/-- The names of the attributes other than the timestep and the two dictionaries (`:1071-1081`). -/
def attributeNames : List Label := ["timesteps", "time_taken", "time_taken_before", "time_taken_after", "time_taken_with_overhead", "speed", "num_scenarios", "solver_name", "version"].map String.toList

/-- `"solver_settings."` and `"solver_stats."`. -/
def settingsPrefix : Label := ['s', 'o', 'l', 'v', 'e', 'r', '_', 's', 'e', 't', 't', 'i', 'n', 'g', 's', '.']
def statsPrefix : Label := ['s', 'o', 'l', 'v', 'e', 'r', '_', 's', 't', 'a', 't', 's', '.']

/-- `ModelResult.to_dataframe` (`:1086-1099`): the attributes with the date of the timestep, then the entries of the two dictionaries under prefixed names; one row for every key. -/
def Result.table {β : Type} (r : Result β) : List (Label × Value β) :=
  let d : List (Label × Value β) := ("timestep".toList, .date r.timestep) :: r.attributes.map fun a => (a.1, .other a.2)
  let d := r.settings.foldl (fun d p => put d (settingsPrefix ++ p.1) (.other p.2)) d
  r.stats.foldl (fun d p => put d (statsPrefix ++ p.1) (.other p.2)) d

/-! ## Aligned series -/

/-- A `pandas.Series`: its name and its times and values. -/
structure Series (α : Type) where
  name : Label
  rows : List (Int × α)

/-- What `df[name]` gives: a series, or a table of both columns if both have this name. -/
inductive Picked (α : Type)
  | series (rows : List (Int × α))
  | both (rows : List (Int × α × α))

inductive AlignErr
  | length
  | empty
deriving DecidableEq

/-- `pandas.concat([A, B], join="inner", axis=1)`: the times in both series. -/
def inner {α : Type} (a b : List (Int × α)) : List (Int × α × α) := a.filterMap fun p => (b.find? fun q => q.1 = p.1).map fun q => (p.1, p.2, q.2)

/-- `align_series` (`figures.py:17-56`): the common times, clipped to `start` and `end`.  The names must be two; `df.index[0]` of an empty table is an `IndexError`.  Times are in order, so that the slice of the table keeps those between
the ends. -/
def alignSeries {α : Type} (a b : Series α) (names : Option (List Label)) (start stop : Option Int) : Except AlignErr (Picked α × Picked α) :=
  let df := inner a.rows b.rows
  let ns := names.getD [a.name, b.name]
  match ns with
  | [n0, n1] => match df.head?, df.getLast? with
    | some first, some last =>
      let lo := start.getD first.1
      let hi := stop.getD last.1
      let df := if start.isSome ∨ stop.isSome then df.filter fun r => lo ≤ r.1 ∧ r.1 ≤ hi else df
      if n0 = n1 then .ok (.both df, .both df) else .ok (.series (df.map fun r => (r.1, r.2.1)), .series (df.map fun r => (r.1, r.2.2)))
    | _, _ => .error .empty
  | _ => .error .length

/-! ## Profiler -/

/-- `ProfilerEntry` (`profiler.py:22-28`). -/
structure Entry where
  phase : String
  className : String
  name : String
  time : Rat
  memory : Option Rat

/-- The profiler (`:31-48`). -/
structure Profiler where
  entries : List Entry
  lastTime : Rat
  lastMemory : Option Rat

/-- `checkpoint` (`:50-71`): the clock and the memory are read once for the entry and again by `reset`. `memory_usage()` is `None` on machines without the module `resource`. -/
def Profiler.checkpoint (p : Profiler) (phase className name : String) (time : Rat) (memory : Option Rat) (time' : Rat) (memory' : Option Rat) : Profiler :=
  let delta := match memory, p.lastMemory with
    | some m, some l => some (m - l)
    | _, _ => none
  { entries := p.entries ++ [⟨phase, className, name, time - p.lastTime, delta⟩], lastTime := time', lastMemory := memory' }

/-- A call with the readings it makes. -/
structure Call where
  phase : String
  className : String
  name : String
  time : Rat
  memory : Option Rat
  time' : Rat
  memory' : Option Rat

/-- A profiler created with the readings `t` and `m`, after some calls. -/
def profile (t : Rat) (m : Option Rat) (cs : List Call) : Profiler := cs.foldl (fun p c => p.checkpoint c.phase c.className c.name c.time c.memory c.time' c.memory') ⟨[], t, m⟩

end Verif.ResultTables

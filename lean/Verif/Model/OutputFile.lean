import Mathlib.Data.List.Infix
import Verif.Model.Tables
/-!
# The arrays and tables of output files

Models where `TablesRecorder` (`/repo/pywr/recorders/recorders.py:225-727`, "version 1") and `TablesRecorder2` (`/repo/pywr/recorders/_tables_recorders.pyx`, "version 2") put what they record: the paths
of the items, the arrays and tables made by `setup` and `reset`, the dictionary from items to arrays used by `after`, the tables of scenarios, the names given by `generate_dataframes`, and the
parameters recorded.  The rows of one array and its buffer are in `Model/Tables.lean`; here the content of an array is abstract and each call of the after-hook (or flush of a buffer) is any
function of it.

PyTables is modelled as a tree: nodes at paths, a node is a group or a leaf; `create_carray` and `create_table` with `createparents=True` make missing groups and raise if there is a node at the path
already or a leaf on the way; `remove_node` raises for a group with children.  Paths are lists of parts; names with "/" are names of several parts.  Simplified: empty parts (`//`, a slash at the
end) do not occur, and attributes of nodes are left out.
-/

namespace Verif.OutputFile

/-- A part of a path. -/
abbrev Part := List Char

/-- A path from the root of the file. -/
abbrev Path := List Part

variable {α : Type}

/-- A node of the file. -/
inductive Entry (α : Type)
  | group
  | leaf (a : α)
deriving DecidableEq

/-- A file: its nodes but the root. -/
abbrev File (α : Type) := List (Path × Entry α)

/-- The node at a path. -/
def File.at (f : File α) (p : Path) : Option (Entry α) := if p = [] then some .group else f.lookup p

/-- There is a leaf at the path. -/
def File.isLeaf (f : File α) (p : Path) : Bool := match f.at p with
  | some (.leaf _) => true
  | _ => false

/-- `file.create_carray(group, name, ..., createparents=True)`, `file.create_table(...)`; `none` is an exception. -/
def create (f : File α) (p : Path) (a : α) : Option (File α) :=
  if p = [] ∨ p.dropLast.inits.any f.isLeaf ∨ (f.at p).isSome then none
  else some (f ++ (p.dropLast.inits.filter fun q => (f.at q).isNone).map (fun q => (q, .group)) ++ [(p, .leaf a)])

/-- Several, one after the other. -/
def createAll (f : File α) : List (Path × α) → Option (File α)
  | [] => some f
  | (p, a) :: l => (create f p a).bind fun f => createAll f l

/-- Change the content of the leaf at a path. -/
def modify (f : File α) (p : Path) (g : α → α) : File α :=
  f.map fun e => if e.1 = p then (e.1, match e.2 with
    | .leaf a => .leaf (g a)
    | .group => .group) else e

/-- `remove_node`, `NoSuchNodeError` ignored, then (`finally`) `create_table` (`recorders.py:567-574, 589-596, 609-619`, `_tables_recorders.pyx:439-446, 461-468, 481-491`).  A group has children (groups are
made for leaves only), so that it is not removed and the creation raises. -/
def remake (f : File α) (p : Path) (a : α) : Option (File α) :=
  match f.at p with
  | some (.leaf _) => some (modify f p fun _ => a)
  | some .group => none
  | none => create f p a

/-- Several, one after the other. -/
def remakeAll (f : File α) : List (Path × α) → Option (File α)
  | [] => some f
  | (p, a) :: l => (remake f p a).bind fun f => remakeAll f l

/-- A recorder: the items with their paths (`self._nodes`; in version 2 the four lists of items), the arrays of an item relative to its path, the tables made by `setup` (scenarios), and the
tables and arrays made by `reset` (time, flows of routes, routes), in order. `blank` is the content of a new array. -/
structure Conf (α : Type) where
  items : List (Path × Nat)
  arrays : Nat → List Path
  fixed : List (Path × α)
  remade : List (Path × α)
  blank : α

/-- The arrays of all items. -/
def Conf.itemPaths (c : Conf α) : List Path := c.items.flatMap fun e => (c.arrays e.2).map (e.1 ++ ·)

/-- The file left by `setup` with mode "w" (`recorders.py:459-545`, `_tables_recorders.pyx:276-379`). -/
def setup (c : Conf α) : Option (File α) := createAll [] (c.itemPaths.map (fun p => (p, c.blank)) ++ c.fixed)

/-- `dict[key] = value`. -/
def assign (d : List (Nat × Path)) (x : Nat) (p : Path) : List (Nat × Path) :=
  if d.any (fun e => e.1 == x) then d.map fun e => if e.1 == x then (x, p) else e else d ++ [(x, p)]

/-- `self._arrays` as left by `reset` (`recorders.py:552-554`; in version 2 a dictionary per kind of item, `_tables_recorders.pyx:395-426`; no item is of two kinds). -/
def handles (items : List (Path × Nat)) : List (Nat × Path) := items.foldl (fun d e => assign d e.2 e.1) []

/-- `reset`: the arrays are looked up (`handles`), then the tables are made again. -/
def reset (c : Conf α) (f : File α) : Option (File α) := remakeAll f c.remade

/-- One call of the after-hook that changes the array `s` of item `x` by `w x s` (`recorders.py:656-672`, `_tables_recorders.pyx:535-579`).  An array that was removed for a table in `reset` cannot be
written to any more: `none`. -/
def after (c : Conf α) (w : Nat → Path → α → α) (f : File α) : Option (File α) :=
  if (handles c.items).any (fun e => (c.arrays e.1).any fun s => (c.remade.map Prod.fst).contains (e.2 ++ s)) then none
  else some ((handles c.items).foldl (fun f e => (c.arrays e.1).foldl (fun f s => modify f (e.2 ++ s) (w e.1 s)) f) f)

/-- What happens to the file after `setup`. -/
inductive Ev (α : Type)
  | reset
  | after (w : Nat → Path → α → α)

/-- One of them. -/
def step (c : Conf α) (f : File α) : Ev α → Option (File α)
  | .reset => reset c f
  | .after w => after c w f

/-- A history. -/
def run (c : Conf α) (f : File α) : List (Ev α) → Option (File α)
  | [] => some f
  | e :: es => (step c f e).bind fun f => run c f es

/-! ## Items -/

/-- What is recorded. -/
inductive Kind
  | storage
  | node
  | index
  | parameter
deriving DecidableEq

/-- `_node_attribute` (`_tables_recorders.pyx:189-204`). -/
def attributes : Kind → List String
  | .storage => ["max_volume", "volume", "min_volume"]
  | .node => ["max_flow", "flow", "min_flow"]
  | .index => ["parameter_index"]
  | .parameter => ["parameter"]

/-- The arrays of an item relative to its path: the path itself (`recorders.py:466-471`), or an array for every attribute (`_tables_recorders.pyx:281-290`). -/
def arraysOf (version : Nat) (k : Kind) : List Path :=
  if version = 1 then [[]] else (attributes k).map fun a => [a.toList]

/-- The default path of a node (`recorders.py:433-454`, `_tables_recorders.pyx:236, 246`). -/
def nodePath (root : Path) (name : List Part) : Path := root ++ name

/-- `name.replace("/", "_")`. -/
def underscores (name : List Part) : Part := List.intercalate ['_'] name

/-- The default path of a parameter (`_add_parameter`, `recorders.py:344-368`). -/
def parameterPath (root : Path) (name : List Part) : Path := root ++ [underscores name]

/-- The parameters recorded and the children of the recorder. -/
structure Params where
  recorded : List (Path × Nat)
  children : List Nat
deriving DecidableEq

/-- `_add_parameter`; `children` is a set. -/
def Params.add (s : Params) (p : Path) (x : Nat) : Params := ⟨s.recorded ++ [(p, x)], if s.children.contains x then s.children else s.children ++ [x]⟩

/-- The last position of a parameter. -/
def lastIndex (x : Nat) (l : List (Path × Nat)) : Option Nat :=
  (l.zipIdx.foldl (fun r e => if e.1.2 = x then some e.2 else r) none)

/-- `_remove_parameter` (`recorders.py:370-380`); `none` is the `KeyError`s: not recorded, or not among the children (`self.children.remove`). -/
def Params.remove (s : Params) (x : Nat) : Option Params :=
  match lastIndex x s.recorded with
  | none => none
  | some i => if s.children.contains x then some ⟨s.recorded.eraseIdx i, s.children.filter (· != x)⟩ else none

/-! ## Tables of scenarios -/

/-- A row of the table of slices: `entry["start"] = scenario.slice.start` and so on (`recorders.py:532-543`, `_tables_recorders.pyx:367-377`); assigning `None` raises. -/
def sliceRow (s : Scenarios.PySlice) : Option (Int × Int × Int) :=
  match s.start, s.stop with
  | some a, some b => some (a, b, if s.step.getD 0 ≠ 0 then s.step.getD 0 else 1)
  | _, _ => none

/-- The rows, with the number of the scenario in place of its name. -/
def sliceRows (ss : List Scenarios.Scenario) : Option (List (Nat × Int × Int × Int)) :=
  (ss.zipIdx.filterMap fun e => e.1.slice.map fun s => (e.2, s)).mapM fun e => (sliceRow e.2).map fun r => (e.1, r)

/-- `ensemble_names[n][i]`: a Python index. -/
def pick (names : List String) (i : Int) : Option String :=
  if 0 ≤ i then names[i.toNat]? else if 0 ≤ i + names.length then names[(i + names.length).toNat]? else none

/-- The rows of `/scenario_ensemble_names` (`_tables_recorders.pyx:330-343`). -/
def ensembleRows (names : List (List String)) (combinations : List Scenarios.Index) : Option (List (List String)) :=
  combinations.mapM fun c => c.2.zipIdx.mapM fun e => (names[e.2]?).bind fun l => pick l e.1

/-! ## Data frames -/

/-- The name of the data frame of an array (`recorders.py:727`, `_tables_recorders.pyx:681`); the name of the root group is "/". -/
def frameName (version : Nat) (p : Path) : List Char :=
  if version = 1 then p.getLastD []
  else p.dropLast.getLastD ['/'] ++ '.' :: p.getLastD []

/-- The number of columns of the array of route flows when it is made into a data frame: `data.reshape((data.shape[0], -1))` (`recorders.py:723-726`). -/
def routeColumns (routes : Nat) (shape : List Nat) : Nat := (routes :: shape).prod

end Verif.OutputFile

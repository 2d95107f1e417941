import Verif.Model.VirtualStorage
import Verif.Model.Routes
/-!
# The linear programmes

Models the problems built by the two GLPK solvers: `/repo/pywr/solvers/cython_glpk.pyx:388-750, 838-1093`
(`CythonGLPKSolver`, one column per route) and `:1145-1540, 1646-1918` (`CythonGLPKEdgeSolver`, one column per edge).

A problem is the list of its rows: matrix entries (column, coefficient) and bounds. What GLPK computes is not modelled. One scenario, one
timestep. The options `set_fixed_*_once` (default off) are the subject of `Model/FixedOnce.lean`; the basis handling is not modelled;
`use_unsafe_api` is off (default).
-/

namespace Verif.Lp

open Verif Verif.Bounds

/-- What the solvers distinguish by `isinstance`: `BaseInput`, `BaseLink`, `BaseOutput`, anything else. -/
inductive Kind
  | input | link | output | other
deriving DecidableEq, Repr

/-- A storage: the ids of its `inputs` and `outputs` nodes, and its volumes. -/
structure StorageData where
  inputs : List Nat
  outputs : List Nat
  volume : Rat
  mx : Rat
  mn : Rat

/-- A virtual storage. -/
structure VirtualData where
  nodes : List Nat
  factors : List Rat
  active : Bool
  volume : Rat
  mx : Rat
  mn : Rat

/-- An aggregated node (`flow_weights`, `factors`, limits). -/
structure AggData where
  nodes : List Nat
  weights : Option (List Rat)
  factors : Option (List Rat)
  minFlow : F
  maxFlow : F

/-- The data of one solve: values returned by the `get_*` methods of the nodes in this timestep and scenario. -/
structure Data where
  kind : Nat → Kind
  /-- `all_nodes`. -/
  nodes : List Nat
  minFlow : Nat → F
  maxFlow : Nat → F
  cost : Nat → Rat
  storages : List StorageData
  virtuals : List VirtualData
  aggs : List AggData
  /-- `cross_domain_cols` before columns are looked up: an output and the inputs it is connected to, with conversion factors. -/
  cross : List (Nat × List (Nat × Rat))
  days : Rat

/-- Exceptions. -/
inductive Err
  | modelStructure
  | glpk
  | zeroDivision
deriving DecidableEq, Inhabited

/-- Matrix entries of a row: zero-based column and coefficient. -/
abbrev Entries := List (Nat × Rat)

/-- A row of the problem. -/
structure LpRow where
  entries : Entries
  bounds : Row

/-- `set_mat_row_safe` (`cython_glpk.pyx:321-335`): a row without entries is refused, and GLPK refuses duplicate column indices in a row. -/
def setMatRow (e : Entries) : Except Err Entries :=
  if e = [] then .error .glpk
  else if (e.map (·.1)).Nodup then .ok e else .error .glpk

/-- Value of a row expression under column values `x`. -/
def rowVal (x : List Rat) (e : Entries) : Rat := (e.map fun p => p.2 * x.getD p.1 0).sum

/-- Run a row constructor over a list, stopping at the first exception. -/
def collect {α β : Type} (f : α → Except Err β) : List α → Except Err (List β)
  | [] => .ok []
  | a :: as => match f a with
    | .error e => .error e
    | .ok b => match collect f as with
      | .error e => .error e
      | .ok bs => .ok (b :: bs)

/-- Matrix entries and a row from flow limits (`cython_glpk.pyx:931-959`). -/
def limitRow (e : Entries) (mn mx : F) : Except Err LpRow :=
  match setMatRow e, flowRow true mn mx with
  | .ok e, .stored r => .ok ⟨e, r⟩
  | .error e, _ => .error e
  | _, _ => .error .glpk

/-- A row `expression = 0`. -/
def zeroRow (e : Entries) : Except Err LpRow :=
  match setMatRow e with
  | .ok e => .ok ⟨e, ⟨.fx, 0, 0⟩⟩
  | .error e => .error e

/-- A row with given bounds. -/
def boundRow (e : Entries) (r : Row) : Except Err LpRow :=
  match setMatRow e with
  | .ok e => .ok ⟨e, r⟩
  | .error e => .error e

/-- `AggregatedNode.get_factors_norm` (`/repo/pywr/_core.pyx:921-939`): `f0 / f` for every factor. -/
def factorsNorm (fs : List Rat) : Except Err (List Rat) :=
  if fs.any (fun f => f == 0) then .error .zeroDivision
  else .ok (fs.map fun f => fs.headD 0 / f)

/-! ## Columns are routes -/

/-- `[n for n, route in enumerate(routes) if p(route)]`. -/
def colsOf {α : Type} (p : α → Bool) (routes : List α) : List Nat :=
  routes.zipIdx.filterMap fun q => if p q.1 then some q.2 else none

/-- Entries with the same coefficient. -/
def const (v : Rat) (cols : List Nat) : Entries := cols.map fun c => (c, v)

/-- The columns of a node's flow row, `cython_glpk.pyx:515-526`. -/
def nodeCols (k : Kind) (n : Nat) (routes : List (List Nat)) : List Nat :=
  match k with
  | .input => colsOf (fun r => r.head? == some n) routes
  | .output => colsOf (fun r => r.getLast? == some n) routes
  | _ => colsOf (fun r => r.contains n) routes

/-- Flow row of a node, `cython_glpk.pyx:514-550, 931-945`. -/
def nodeRow (d : Data) (routes : List (List Nat)) (n : Nat) : Except Err LpRow :=
  let cols := nodeCols (d.kind n) n routes
  if cols = [] then .error .modelStructure
  else limitRow (const 1 cols) (d.minFlow n) (d.maxFlow n)

/-- Cross-domain row of an output, `cython_glpk.pyx:474-487, 552-575`. -/
def crossRow (d : Data) (routes : List (List Nat)) (c : Nat × List (Nat × Rat)) : Except Err LpRow :=
  if c.2.any (fun i => i.2 == 0) then .error .zeroDivision
  else zeroRow (const (-1) (nodeCols (d.kind c.1) c.1 routes) ++
    c.2.flatMap fun i => const (1 / i.2) (colsOf (fun r => r.head? == some i.1) routes))

/-- `x in l` for an optional node. -/
def inList (o : Option Nat) (l : List Nat) : Bool := match o with | some n => l.contains n | none => false

/-- Storage row, `cython_glpk.pyx:577-601, 964-988`. -/
def storageRowR (d : Data) (routes : List (List Nat)) (s : StorageData) : Except Err LpRow :=
  boundRow
    (const 1 (colsOf (fun r => inList r.getLast? s.outputs && !inList r.head? s.inputs) routes) ++
     const (-1) (colsOf (fun r => inList r.head? s.inputs && !inList r.getLast? s.outputs) routes))
    (Storage.storageRow s.volume s.mx s.mn d.days)

/-- The factors a route collects: for every node on it, the factor at the first position of that node in `storage.nodes`
(`cython_glpk.pyx:603-620`; an index beyond `factors`, an `IndexError` in the code, counts as no factor here). -/
def routeFactors (v : VirtualData) (r : List Nat) : List Rat :=
  r.filterMap fun n => (v.nodes.idxOf? n).bind fun i => v.factors[i]?

/-- Virtual storage row, `cython_glpk.pyx:603-635, 990-1018`. -/
def virtualRowR (d : Data) (routes : List (List Nat)) (v : VirtualData) : Except Err LpRow :=
  boundRow (routes.zipIdx.filterMap fun q =>
      if routeFactors v q.1 = [] then none else some (q.2, -(routeFactors v q.1).sum))
    (VirtualStorage.vRow v.active v.volume v.mx v.mn d.days)

/-- Factor rows of an aggregated node, `cython_glpk.pyx:637-673, 903-926`: one row per member after the first. With less than two members,
`glp_add_rows` (`:644`) is called with a number below one, which is an error in GLPK; since that call is not guarded, the error hook (`:106-111`) jumps to a
place that is no longer valid, so that anything may happen: it counts as an exception here. There are as many factors as members; with less, the code reads
beyond the array. -/
def factorRowsR (routes : List (List Nat)) (a : AggData) : Except Err (List LpRow) :=
  match a.factors with
  | none => .ok []
  | some fs => match a.nodes with
    | [] => .error .glpk
    | n0 :: rest =>
      if rest = [] then .error .glpk
      else match factorsNorm fs with
      | .error e => .error e
      | .ok norm =>
        collect (fun p : Nat × Rat =>
          zeroRow (const 1 (colsOf (fun r => r.contains n0) routes) ++ const (-p.2) (colsOf (fun r => r.contains p.1) routes)))
          (rest.zip norm.tail)

/-- `flow_weights`, or ones. -/
def AggData.weightList (a : AggData) : List Rat := a.weights.getD (List.replicate a.nodes.length 1)

/-- The weight left in the dictionary for a column: assignments in member order, the last member present wins
(`matrix[n] = w`, `cython_glpk.pyx:686-690`). -/
def lastWeight (a : AggData) (present : Nat → Bool) : Option Rat :=
  (((a.nodes.zip a.weightList).filter fun p => present p.1).getLast?).map (·.2)

/-- Minimum/maximum flow row of an aggregated node, `cython_glpk.pyx:675-706, 947-959`. -/
def aggRowR (routes : List (List Nat)) (a : AggData) : Except Err LpRow :=
  limitRow (routes.zipIdx.filterMap fun q => (lastWeight a fun n => q.1.contains n).map fun w => (q.2, w))
    a.minFlow a.maxFlow

/-- Concatenate the results of row constructors. -/
def concat : List (Except Err (List LpRow)) → Except Err (List LpRow)
  | [] => .ok []
  | r :: rs => match r with
    | .error e => .error e
    | .ok l => match concat rs with
      | .error e => .error e
      | .ok ls => .ok (l ++ ls)

/-- `non_storages`. -/
def Data.nonStorages (d : Data) : List Nat := d.nodes.filter fun n => d.kind n != .other

/-- The whole route problem. -/
def routeRows (d : Data) (routes : List (List Nat)) : Except Err (List LpRow) :=
  if d.nodes = [] ∨ routes = [] ∨ d.nonStorages = [] then .error .modelStructure
  else concat
    ([collect (nodeRow d routes) d.nonStorages,
      collect (crossRow d routes) d.cross,
      collect (storageRowR d routes) d.storages,
      collect (virtualRowR d routes) d.virtuals] ++
      d.aggs.map (factorRowsR routes) ++
      [collect (aggRowR routes) d.aggs])

/-- An assignment of the columns that satisfies a list of rows (columns are non-negative, `cython_glpk.pyx:489-491`). -/
def Satisfies (rows : List LpRow) (ncols : Nat) (x : List Rat) : Prop :=
  x.length = ncols ∧ (∀ v ∈ x, 0 ≤ v) ∧ ∀ r ∈ rows, r.bounds.Admits (rowVal x r.entries)

/-- A feasible solution of the route problem. -/
def RouteFeasible (d : Data) (routes : List (List Nat)) (x : List Rat) : Prop :=
  ∃ rows, routeRows d routes = .ok rows ∧ Satisfies rows routes.length x

/-- `abs(cost) < 1e-8 → 0`. -/
def roundCost (c : Rat) : Rat := if |c| < e8 then 0 else c

/-- Cost of a route, `cython_glpk.pyx:708-719, 885-892`: first node, links in the middle, last node. -/
def routeCost (d : Data) (r : List Nat) : Rat :=
  ((r.head?.toList ++ (r.tail.dropLast.filter fun n => d.kind n == .link) ++ r.getLast?.toList).map d.cost).sum

/-- The objective. -/
def routeObjective (d : Data) (routes : List (List Nat)) (x : List Rat) : Rat :=
  (routes.zipIdx.map fun q => roundCost (routeCost d q.1) * x.getD q.2 0).sum

/-- Flow collected for a node, `cython_glpk.pyx:1077-1088`. -/
def routeNodeFlow (d : Data) (routes : List (List Nat)) (x : List Rat) (n : Nat) : Rat :=
  (routes.zipIdx.map fun q =>
    let flow := x.getD q.2 0
    if flow = 0 then 0
    else (q.1.zipIdx.map fun p =>
      if p.1 = n ∧ (p.2 = 0 ∨ p.2 = q.1.length - 1 ∨ d.kind p.1 = .link) then flow else 0).sum).sum

/-- Flow of a storage after the commits: its `outputs` add, its `inputs` subtract (`/repo/pywr/_core.pyx:941-944, 975-978`); the storage
object itself is on no route. -/
def storageFlow (flow : Nat → Rat) (s : StorageData) : Rat :=
  (s.outputs.map flow).sum - (s.inputs.map flow).sum

/-- Flow of an aggregated node, `AggregatedNode.after` (`/repo/pywr/_core.pyx:762-776`). -/
def aggFlow (flow : Nat → Rat) (a : AggData) : Rat :=
  ((a.nodes.zip a.weightList).map fun p => flow p.1 * p.2).sum

/-! ## Columns are edges -/

/-- The graph's edges and the domain of every node. -/
structure Graph where
  edges : List (Nat × Nat)
  domain : Nat → Nat

/-- `in_edges` / `out_edges` (`cython_glpk.pyx:1234-1239`): edges inside one domain. -/
def inEdges (g : Graph) (n : Nat) : List Nat := colsOf (fun e => e.2 == n && g.domain e.1 == g.domain e.2) g.edges

/-- See `inEdges`. -/
def outEdges (g : Graph) (n : Nat) : List Nat := colsOf (fun e => e.1 == n && g.domain e.1 == g.domain e.2) g.edges

/-- `in_edges` for outputs, `out_edges` otherwise. -/
def flowEdges (d : Data) (g : Graph) (n : Nat) : List Nat := if d.kind n = .output then inEdges g n else outEdges g n

/-- Flow row of a node, `cython_glpk.pyx:1293-1330`. -/
def nodeRowE (d : Data) (g : Graph) (n : Nat) : Except Err LpRow :=
  if d.kind n = .input ∧ inEdges g n ≠ [] then .error .modelStructure
  else if d.kind n = .output ∧ outEdges g n ≠ [] then .error .modelStructure
  else if flowEdges d g n = [] then .error .modelStructure
  else limitRow (const 1 (flowEdges d g n)) (d.minFlow n) (d.maxFlow n)

/-- Cross-domain row, `cython_glpk.pyx:1241-1254, 1339-1361`. -/
def crossRowE (d : Data) (g : Graph) (c : Nat × List (Nat × Rat)) : Except Err LpRow :=
  if c.2.any (fun i => i.2 == 0) then .error .zeroDivision
  else zeroRow (const (-1) (flowEdges d g c.1) ++ c.2.flatMap fun i => const (1 / i.2) (outEdges g i.1))

/-- Mass balance of a link, `cython_glpk.pyx:1363-1388`. -/
def balanceRow (g : Graph) (n : Nat) : Except Err LpRow :=
  zeroRow (const 1 (inEdges g n) ++ const (-1) (outEdges g n))

/-- Storage row, `cython_glpk.pyx:1390-1419`. -/
def storageRowE (d : Data) (g : Graph) (s : StorageData) : Except Err LpRow :=
  boundRow (const 1 (s.outputs.flatMap (inEdges g)) ++ const (-1) (s.inputs.flatMap (outEdges g)))
    (Storage.storageRow s.volume s.mx s.mn d.days)

/-- The factors a column collects: those of all members having the edge among their columns (`cython_glpk.pyx:1421-1439`). -/
def edgeFactors (d : Data) (g : Graph) (v : VirtualData) (col : Nat) : List Rat :=
  ((v.nodes.zip v.factors).filter fun p => (flowEdges d g p.1).contains col).map (·.2)

/-- Virtual storage row, `cython_glpk.pyx:1421-1454`. -/
def virtualRowE (d : Data) (g : Graph) (v : VirtualData) : Except Err LpRow :=
  boundRow ((List.range g.edges.length).filterMap fun c =>
      if edgeFactors d g v c = [] then none else some (c, -(edgeFactors d g v c).sum))
    (VirtualStorage.vRow v.active v.volume v.mx v.mn d.days)

/-- Factor rows, `cython_glpk.pyx:1456-1499, 1727-1750`; less than two members as in `factorRowsR` (`:1463`). -/
def factorRowsE (d : Data) (g : Graph) (a : AggData) : Except Err (List LpRow) :=
  match a.factors with
  | none => .ok []
  | some fs => match a.nodes with
    | [] => .error .glpk
    | n0 :: rest =>
      if rest = [] then .error .glpk
      else match factorsNorm fs with
      | .error e => .error e
      | .ok norm =>
        collect (fun p : Nat × Rat => zeroRow (const 1 (flowEdges d g n0) ++ const (-p.2) (flowEdges d g p.1)))
          (rest.zip norm.tail)

/-- Minimum/maximum flow row of an aggregated node, `cython_glpk.pyx:1501-1538`. -/
def aggRowE (d : Data) (g : Graph) (a : AggData) : Except Err LpRow :=
  limitRow ((List.range g.edges.length).filterMap fun c =>
      (lastWeight a fun n => (flowEdges d g n).contains c).map fun w => (c, w))
    a.minFlow a.maxFlow

/-- The whole edge problem. -/
def edgeRows (d : Data) (g : Graph) : Except Err (List LpRow) :=
  if d.nodes = [] ∨ g.edges = [] ∨ d.nonStorages = [] then .error .modelStructure
  else concat
    ([collect (nodeRowE d g) d.nonStorages,
      collect (crossRowE d g) d.cross,
      collect (balanceRow g) (d.nodes.filter fun n => d.kind n == .link),
      collect (storageRowE d g) d.storages,
      collect (virtualRowE d g) d.virtuals] ++
      d.aggs.map (factorRowsE d g) ++
      [collect (aggRowE d g) d.aggs])

/-- A feasible solution of the edge problem. -/
def EdgeFeasible (d : Data) (g : Graph) (y : List Rat) : Prop :=
  ∃ rows, edgeRows d g = .ok rows ∧ Satisfies rows g.edges.length y

/-- Cost of a column, `cython_glpk.pyx:1695-1721`: every node adds its cost (half of it for links) to all its edges inside the domain. The
nodes of an edge are nodes of the model. -/
def edgeCost (d : Data) (g : Graph) (c : Nat) : Rat :=
  (d.nodes.map fun n =>
    let cost := if d.kind n = .link then d.cost n / 2 else d.cost n
    (((inEdges g n).filter fun k => k == c).map fun _ => cost).sum +
    (((outEdges g n).filter fun k => k == c).map fun _ => cost).sum).sum

/-- The objective of the edge problem. -/
def edgeObjective (d : Data) (g : Graph) (y : List Rat) : Rat :=
  ((List.range g.edges.length).map fun c => edgeCost d g c * y.getD c 0).sum

/-- Flow collected for a node, `cython_glpk.pyx:1896-1911` (all edges, also those between domains). -/
def edgeNodeFlow (d : Data) (g : Graph) (y : List Rat) (n : Nat) : Rat :=
  (g.edges.zipIdx.map fun q =>
    let flow := y.getD q.2 0
    if flow = 0 then 0
    else
      let part := fun m : Nat => if m = n then (if d.kind m = .link then flow / 2 else flow) else 0
      part q.1.1 + part q.1.2).sum

end Verif.Lp

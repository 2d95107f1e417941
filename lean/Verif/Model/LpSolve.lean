import Verif.Model.Lp
/-!
# The lp_solve solver

Models `/repo/pywr/solvers/cython_lpsolve.pyx` (`CythonLPSolveSolver`), the third solver: one column per route and one per output.

The data are those of `Model/Lp.lean`. Calls into lp_solve are read by its documentation: `set_row_bnds` (`:68-89`) leaves a row with the two
bounds it is given, `set_bounds` a column with the two bounds it is given, and values of `DBL_MAX` are infinite for lp_solve. What lp_solve
computes is not modelled, nor what it makes of a row that names a column twice or has its bounds crossed (the theorems that compare it with
GLPK exclude both).
-/

namespace Verif.LpSolve

open Verif Verif.Bounds Verif.Lp

/-- Exceptions of `setup`. -/
inductive Err
  | modelStructure
  | value
  | type
  | assertion
  | zeroDivision
deriving DecidableEq, Inhabited

/-- A `ConstantParameter` (`/repo/pywr/parameters/_parameters.pyx:146-172`). -/
structure Constant where
  value : Rat
  scale : Rat
  offset : Rat

/-- `ConstantParameter.get_constant_value`, `_parameters.pyx:165-166`: what `get_value` returns (`:158-163`). -/
def Constant.get (c : Constant) : Rat := c.offset + c.value * c.scale

/-- `factors` of an aggregated node as `setup` sees them: all of them constant parameters (`has_fixed_factors`, `/repo/pywr/_core.pyx:805-809`), or not. -/
inductive Factors
  | none
  | fixed (l : List Constant)
  | dynamic

/-- An aggregated node as `setup` sees it: members, weights and limits, whether one of the limits is a `Parameter`, and its factors. -/
structure Agg where
  nodes : List Nat
  weights : Option (List Rat)
  factors : Factors
  minFlow : F
  maxFlow : F
  paramLimit : Bool

/-- The same node in the vocabulary of `Model/Lp.lean`, with no factors. -/
def Agg.bare (a : Agg) : AggData := ⟨a.nodes, a.weights, .none, a.minFlow, a.maxFlow⟩

/-- A row: matrix entries and bounds (`none`: one of the bounds is NaN). -/
structure Row where
  entries : Entries
  bounds : Option Bounds.Row

/-- `inf_to_dbl_max`, `cython_lpsolve.pyx:100-105`; NaN is `none`. -/
def toDouble : F → Option Rat
  | .fin q => some q
  | .posInf => some dblMax
  | .negInf => some (-dblMax)
  | .nan => none

/-- `set_row_bnds`, `cython_lpsolve.pyx:68-89`, in the vocabulary of `Model/Bounds.lean`. -/
def rowBnds (a b : Rat) : Bounds.Row :=
  if a = b then ⟨.fx, a, b⟩
  else if b = dblMax then (if a = -dblMax then ⟨.fr, a, b⟩ else ⟨.lo, a, b⟩)
  else if a = -dblMax then ⟨.up, a, b⟩
  else ⟨.db, a, b⟩

/-- Flow limits as a row, `cython_lpsolve.pyx:421-422, 441, 517-521`. -/
def limits (mn mx : F) : Option Bounds.Row :=
  match toDouble mn, toDouble mx with
  | some a, some b => some (rowBnds a b)
  | _, _ => none

/-- `supplys`, `cython_lpsolve.pyx:182-183`. -/
def supplys (d : Data) : List Nat := d.nodes.filter fun n => d.kind n == .input || d.kind n == .link

/-- `demands`, `cython_lpsolve.pyx:184-185`. -/
def demands (d : Data) : List Nat := d.nodes.filter fun n => d.kind n == .output

/-- `some_node.min_flow > -inf or some_node.max_flow < inf`, `cython_lpsolve.pyx:199-201`. NaN compares false. -/
def hasLimit (a : Agg) : Bool :=
  (match a.minFlow with | .fin _ => true | .posInf => true | _ => false) || (match a.maxFlow with | .fin _ => true | .negInf => true | _ => false)

/-- The comparison of that line raises for a parameter: at once for `min_flow`, and for `max_flow` if the first comparison is false. A number
for `min_flow` and a parameter for `max_flow` pass it and raise at the assignment to a C double (`cython_lpsolve.pyx:415-416`); both are TypeErrors.
The two are not distinguished here: a parameter limit fails in the loop. -/
def aggCheck (a : Agg) : Option Err :=
  match a.factors with
  | .dynamic => some .value
  | _ => if a.paramLimit then some .type else none

/-- Errors of the factor rows of an aggregated node, `cython_lpsolve.pyx:373-389`. -/
def factorCheck (a : Agg) : Option Err :=
  match a.factors with
  | .fixed cs =>
    if a.nodes.length ≠ cs.length then some .assertion
    else if cs.any (fun c => c.value == 0) then some .zeroDivision
    else none
  | _ => none

/-- The checks of `setup`, `cython_lpsolve.pyx:168-405`, in their order. -/
def setup (d : Data) (aggs : List Agg) (routes : List (List Nat)) : Except Err Unit :=
  if d.nodes = [] then .error .modelStructure
  else match aggs.findSome? aggCheck with
  | some e => .error e
  | none =>
    if routes = [] then .error .modelStructure
    else if supplys d = [] ∧ demands d = [] then .error .modelStructure
    else if (supplys d ++ demands d).any (fun n => decide (nodeCols (d.kind n) n routes = [])) then .error .modelStructure
    else if d.cross.any (fun c => (demands d).contains c.1 && c.2.any fun i => i.2 == 0 && decide (colsOf (fun r => r.head? == some i.1) routes ≠ [])) then .error .zeroDivision
    else match aggs.findSome? factorCheck with
    | some e => .error e
    | none => .ok ()

/-- Rows of the inputs and links, `cython_lpsolve.pyx:254-278, 517-521`. -/
def supplyRow (d : Data) (routes : List (List Nat)) (n : Nat) : Row := ⟨const 1 (nodeCols (d.kind n) n routes), limits (d.minFlow n) (d.maxFlow n)⟩

/-- The row that links a demand's column to its routes, `cython_lpsolve.pyx:287-302`. `q` is the output and its position. -/
def demandRow (d : Data) (routes : List (List Nat)) (q : Nat × Nat) : Row :=
  ⟨const 1 (nodeCols (d.kind q.1) q.1 routes) ++ [(routes.length + q.2, -1)], some ⟨.fx, 0, 0⟩⟩

/-- Cross-domain row of an output, `cython_lpsolve.pyx:231-244, 304-319`. -/
def crossRow (d : Data) (routes : List (List Nat)) (q : Nat × Nat) : Option Row :=
  (d.cross.find? fun c => c.1 == q.1).map fun c =>
    ⟨(c.2.flatMap fun i => const (1 / i.2) (colsOf (fun r => r.head? == some i.1) routes)) ++ [(routes.length + q.2, -1)], some ⟨.fx, 0, 0⟩⟩

/-- Bounds of a storage row, `cython_lpsolve.pyx:534-542`: the upper one may be negative. -/
def volumeBnds (volume mx mn days : Rat) : Bounds.Row := rowBnds (-(max (volume - mn) 0) / days) ((mx - volume) / days)

/-- Storage row, `cython_lpsolve.pyx:321-338, 534-542`: columns of demands and of routes. -/
def storageRow (d : Data) (routes : List (List Nat)) (s : StorageData) : Row :=
  ⟨((demands d).zipIdx.filterMap fun q => if s.outputs.contains q.1 then some (routes.length + q.2, 1) else none) ++
    const (-1) (colsOf (fun r => inList r.head? s.inputs) routes), some (volumeBnds s.volume s.mx s.mn d.days)⟩

/-- Virtual storage row, `cython_lpsolve.pyx:340-367, 544-555`. -/
def virtualRow (d : Data) (routes : List (List Nat)) (v : VirtualData) : Row :=
  ⟨routes.zipIdx.filterMap fun q => if routeFactors v q.1 = [] then none else some (q.2, -(routeFactors v q.1).sum),
    some (if v.active then volumeBnds v.volume v.mx v.mn d.days else rowBnds (-dblMax) dblMax)⟩

/-- Factor rows of an aggregated node, `cython_lpsolve.pyx:369-405`: written by `setup` only, from `get_double_variables()[0]`, which is the value of the
constant parameter without its scale and offset (`_parameters.pyx:171-172`). -/
def factorRows (routes : List (List Nat)) (a : Agg) : List Row :=
  match a.factors, a.nodes with
  | .fixed cs, n0 :: rest =>
    let fs := cs.map (·.value)
    (rest.zip ((fs.map fun f => fs.headD 0 / f).tail)).map fun p =>
      ⟨const 1 (colsOf (fun r => r.contains n0) routes) ++ const (-p.2) (colsOf (fun r => r.contains p.1) routes), some ⟨.fx, 0, 0⟩⟩
  | _, _ => []

/-- Limits of an aggregated node, `cython_lpsolve.pyx:407-443`: written by `setup` only. -/
def aggRow (routes : List (List Nat)) (a : Agg) : Row :=
  ⟨routes.zipIdx.filterMap fun q => (lastWeight a.bare fun n => q.1.contains n).map fun w => (q.2, w), limits a.minFlow a.maxFlow⟩

/-- All rows. The aggregated nodes are as they were when `setup` ran, everything else as in the current timestep. -/
def rows (d : Data) (aggs : List Agg) (routes : List (List Nat)) : List Row :=
  (supplys d).map (supplyRow d routes) ++ (demands d).zipIdx.map (demandRow d routes) ++ (demands d).zipIdx.filterMap (crossRow d routes) ++
  d.storages.map (storageRow d routes) ++ d.virtuals.map (virtualRow d routes) ++ aggs.flatMap (factorRows routes) ++
  (aggs.filter hasLimit).map (aggRow routes)

/-- A row is satisfied (never, if one of its bounds is NaN). -/
def Row.Holds (r : Row) (z : List Rat) : Prop := match r.bounds with
  | some b => b.Admits (rowVal z r.entries)
  | none => False

instance (r : Row) (z : List Rat) : Decidable (r.Holds z) := by unfold Row.Holds; split <;> infer_instance

/-- Bounds of a demand's column, `cython_lpsolve.pyx:523-529`. -/
def ColHolds (mn mx : F) (v : Rat) : Prop :=
  match toDouble mn, toDouble mx with
  | some a, some b => (a = -dblMax ∨ a ≤ v) ∧ (b = dblMax ∨ v ≤ b)
  | _, _ => False

instance (mn mx : F) (v : Rat) : Decidable (ColHolds mn mx v) := by unfold ColHolds; split <;> infer_instance

/-- A feasible solution: `setup` succeeded, route columns are non-negative (`cython_lpsolve.pyx:246-252`), demand columns within their bounds, all
rows satisfied. -/
def Feasible (d : Data) (aggs : List Agg) (routes : List (List Nat)) (z : List Rat) : Prop :=
  setup d aggs routes = .ok () ∧ z.length = routes.length + (demands d).length ∧ (∀ v ∈ z.take routes.length, 0 ≤ v) ∧
  (∀ q ∈ (demands d).zipIdx, ColHolds (d.minFlow q.1) (d.maxFlow q.1) (z.getD (routes.length + q.2) 0)) ∧ ∀ r ∈ rows d aggs routes, r.Holds z

/-- Cost of a route's column, `cython_lpsolve.pyx:506-512`: first node and links in the middle. -/
def colCost (d : Data) (r : List Nat) : Rat := ((r.head?.toList ++ (r.tail.dropLast.filter fun n => d.kind n == .link)).map d.cost).sum

/-- The objective, `cython_lpsolve.pyx:506-529`. -/
def objective (d : Data) (routes : List (List Nat)) (z : List Rat) : Rat :=
  (routes.zipIdx.map fun q => colCost d q.1 * z.getD q.2 0).sum + ((demands d).zipIdx.map fun q => d.cost q.1 * z.getD (routes.length + q.2) 0).sum

/-- Flow committed to a node, `cython_lpsolve.pyx:580-594`. -/
def nodeFlow (d : Data) (routes : List (List Nat)) (z : List Rat) (n : Nat) : Rat :=
  (routes.zipIdx.map fun q =>
    ((q.1.head?.toList ++ q.1.getLast?.toList ++ q.1.tail.dropLast.filter fun m => d.kind m == .link).map fun m =>
      if m = n then z.getD q.2 0 else 0).sum).sum

end Verif.LpSolve

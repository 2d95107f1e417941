import Verif.Model.Lp
/-!
# Values written once

Models the options `set_fixed_costs_once`, `set_fixed_flows_once` and `set_fixed_factors_once` of the two GLPK solvers
(`/repo/pywr/solvers/cython_glpk.pyx:499-512, 546-550, 669-673, 756-826, 880-945` and `:1266-1290, 1333-1337, 1495-1499, 1569-1628,
1692-1790`): which costs, flow limits and factors are written at setup, at reset and before every solve, and the properties of nodes that
decide this (`/repo/pywr/_core.pyx:532-680, 806-812, 906-939, 951-995`).

The problem in memory is seen through the values its rows and objective are computed from (`Model/Lp.lean`).  The structure (nodes, kinds,
which aggregated nodes have factors) is that of the last setup: changes to it make the model dirty.  The limits of aggregated nodes and
everything about storages is written before every solve and not repeated here.  Arrays that are allocated but not filled have arbitrary content.
-/

namespace Verif.Once

open Verif.Bounds Verif.Lp

/-- A limit or factor: a number, or a parameter with its constant value (if `is_constant`) and its current values by scenario. -/
inductive Attr (α : Type)
  | lit (v : α)
  | par (constant : Option α) (values : Nat → α)

/-- `get_min_flow`, `get_max_flow`, `Parameter.get_value` (`_core.pyx:611-616, 674-679`, `_parameters.pyx:76-77`). -/
def Attr.get {α : Type} : Attr α → Nat → α
  | .lit v, _ => v
  | .par _ vs, s => vs s

/-- A number or the value of a constant parameter; `none` if it is neither (`_core.pyx:603-609, 666-672`: NaN; factors: an exception). -/
def Attr.constant {α : Type} : Attr α → Option α
  | .lit v => some v
  | .par c _ => c

/-- A cost (for the nodes of a storage: that of the storage, negated for its inputs, `_core.pyx:951-995`). -/
inductive Cost
  | lit (v : Rat)
  | par (values : Nat → Rat)

/-- `get_cost`, `_core.pyx:559-564`. -/
def Cost.get : Cost → Nat → Rat
  | .lit v, _ => v
  | .par vs, s => vs s

/-- `has_fixed_cost`, `_core.pyx:554-557`. -/
def Cost.fixed : Cost → Bool
  | .lit _ => true
  | .par _ => false

/-- The options. -/
structure Options where
  costs : Bool
  flows : Bool
  factors : Bool

/-- The structure of the model: `all_nodes`, what they are, the number of aggregated nodes and which of them have factors; the edges. -/
structure Shape where
  kind : Nat → Kind
  nodes : List Nat
  aggs : Nat
  hasFactors : Nat → Bool
  graph : Graph

/-- `non_storages`. -/
def Shape.nonStorages (sh : Shape) : List Nat := sh.nodes.filter fun n => sh.kind n != .other

/-- The costs, limits and factors the model has at some moment. -/
structure Conf where
  cost : Nat → Cost
  mn : Nat → Attr F
  mx : Nat → Attr F
  factors : Nat → List (Attr Rat)

/-- What the solver keeps: its lists of nodes, and the values last written. -/
structure St where
  constBounds : List Nat
  dynBounds : List Nat
  dynCost : List Nat
  aggConst : List Nat
  aggDyn : List Nat
  bounds : Nat → F × F
  costs : Nat → Rat
  edgeFixed : Nat → Rat
  factors : Nat → List Rat

/-- Write the entries of the nodes in `l`. -/
def write {α : Type} (f : Nat → α) (l : List Nat) (g : Nat → α) : Nat → α := fun n => if n ∈ l then g n else f n

/-- `has_constant_flows`, `_core.pyx:654-658`. -/
def Conf.constFlows (c : Conf) (n : Nat) : Bool := (c.mx n).constant.isSome && (c.mn n).constant.isSome

/-- `has_constant_factors`, `_core.pyx:809-812`. -/
def Conf.constFactors (c : Conf) (i : Nat) : Bool := (c.factors i).all fun p => p.constant.isSome

/-- A node's contribution to the cost of an edge, `cython_glpk.pyx:1280-1289, 1703-1717`. -/
def edgePart (sh : Shape) (cost : Rat) (n col : Nat) : Rat :=
  let cost := if sh.kind n = .link then cost / 2 else cost
  (((inEdges sh.graph n).filter fun k => k == col).map fun _ => cost).sum +
    (((outEdges sh.graph n).filter fun k => k == col).map fun _ => cost).sum

/-- The part of `setup` that concerns the options: the lists, the fixed costs; all flow rows are fixed at zero, and the array of costs is
not filled (`junk`). -/
def setup (o : Options) (sh : Shape) (junk : Nat → Rat) (c : Conf) : St where
  constBounds := sh.nonStorages.filter fun n => o.flows && c.constFlows n
  dynBounds := sh.nonStorages.filter fun n => !(o.flows && c.constFlows n)
  dynCost := sh.nodes.filter fun n => !(o.costs && (c.cost n).fixed)
  aggConst := (List.range sh.aggs).filter fun i => sh.hasFactors i && (o.factors && c.constFactors i)
  aggDyn := (List.range sh.aggs).filter fun i => sh.hasFactors i && !(o.factors && c.constFactors i)
  bounds := fun _ => (.fin 0, .fin 0)
  costs := write junk (sh.nodes.filter fun n => o.costs && (c.cost n).fixed) fun n => (c.cost n).get 0
  edgeFixed := fun col => ((sh.nodes.filter fun n => o.costs && (c.cost n).fixed).map fun n => edgePart sh ((c.cost n).get 0) n col).sum
  factors := fun _ => []

/-- The row accepts these limits. -/
def rowAccepts (b : F × F) : Bool := match flowRow true b.1 b.2 with
  | .stored _ => true
  | _ => false

/-- Limits as `_update_nonstorage_constant_bounds` reads them. -/
def Conf.constBound (c : Conf) (n : Nat) : F × F := ((c.mn n).constant.getD .nan, (c.mx n).constant.getD .nan)

/-- `get_constant_factors`, `_core.pyx:913-919`; `none` is the NotImplementedError. -/
def Conf.constFactorList (c : Conf) (i : Nat) : Option (List Rat) := (c.factors i).mapM Attr.constant

/-- Factors that can be normalised, `_core.pyx:921-939`. -/
def factorsOk (l : Option (List Rat)) : Bool := match l with
  | none => false
  | some fs => match factorsNorm fs with
    | .ok _ => true
    | .error _ => false

/-- `reset`, `cython_glpk.pyx:756-826`; `none` is an exception. -/
def reset (c : Conf) (st : St) : Option St :=
  if st.constBounds.all (fun n => rowAccepts (c.constBound n)) && st.aggConst.all (fun i => factorsOk (c.constFactorList i)) then
    some { st with
      bounds := write st.bounds st.constBounds c.constBound
      factors := write st.factors st.aggConst fun i => (c.constFactorList i).getD [] }
  else none

/-- The writes before the solve of scenario `s`, `cython_glpk.pyx:880-945` (an exception there is one of `routeRows`, `edgeRows`). -/
def solve (c : Conf) (s : Nat) (st : St) : St :=
  { st with
    costs := write st.costs st.dynCost fun n => (c.cost n).get s
    bounds := write st.bounds st.dynBounds fun n => ((c.mn n).get s, (c.mx n).get s)
    factors := write st.factors st.aggDyn fun i => (c.factors i).map fun p => p.get s }

/-- The cost of a column of the edge problem before the solve, `cython_glpk.pyx:1692-1724`. -/
def St.edgeCost (sh : Shape) (st : St) (c : Conf) (s col : Nat) : Rat :=
  st.edgeFixed col + (st.dynCost.map fun n => edgePart sh ((c.cost n).get s) n col).sum

/-- The problem in memory: `d` for everything not concerned. -/
def St.data (sh : Shape) (st : St) (d : Data) : Data :=
  { d with
    minFlow := fun n => (st.bounds n).1
    maxFlow := fun n => (st.bounds n).2
    cost := st.costs
    aggs := d.aggs.zipIdx.map fun q => { q.1 with factors := if sh.hasFactors q.2 then some (st.factors q.2) else none } }

/-- What happens to a solver: setups, resets, solves, each with what the model has at that moment. -/
inductive Ev
  | setup (junk : Nat → Rat) (c : Conf)
  | reset (c : Conf)
  | solve (c : Conf) (s : Nat)

/-- A history; `none`: an exception stopped it. -/
def runs (o : Options) (sh : Shape) : St → List Ev → Option St
  | st, [] => some st
  | _, .setup junk c :: es => runs o sh (setup o sh junk c) es
  | st, .reset c :: es => (reset c st).bind fun st => runs o sh st es
  | st, .solve c s :: es => runs o sh (solve c s st) es

end Verif.Once

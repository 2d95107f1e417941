import Verif.Model.Routes
import Verif.Model.Components
import Verif.Model.Lp
/-!
# Checking a model

Models `/repo/pywr/_model.pyx:163-188` (`Model.check`, `check_graph`), `:906-925` (`find_orphaned_parameters`), the `components` of a node (`/repo/pywr/_core.pyx:360-375`, with the lists `component_attrs`
`:531, 752, 1065`) and `check` of virtual storages (`/repo/pywr/nodes.py:484-489, 574-579`). Nodes and components are numbers, as in `Model/Routes.lean` and `Model/Components.lean`.
-/

namespace Verif.Checks

open Verif Verif.Routes

/-- The value of an attribute of a node: nothing (or the attribute does not exist), a number, a component, or a list of components (`AggregatedNode.factors`, `_core.pyx:778-801`). -/
inductive Attr
  | none
  | number (x : Rat)
  | component (c : Nat)
  | list (cs : List Nat)
deriving DecidableEq

/-- What the checks look at: the graph with the classes of its nodes, `allow_isolated`, the nodes without parent, the attributes in `component_attrs`, and the cost of the virtual storages. -/
structure Net where
  graph : Digraph
  info : NodeInfo
  isInput : Nat → Bool
  isOutput : Nat → Bool
  isLink : Nat → Bool
  allowIsolated : Nat → Bool
  hasParent : Nat → Bool
  attrs : Nat → List Attr
  virtualCost : Nat → Option Attr

/-- `find_all_routes(BaseInput, BaseOutput, valid=(BaseLink, BaseInput, BaseOutput))` (`_model.pyx:179`); the solvers ask for the same routes. -/
def Net.routes (N : Net) : Except String (List (List Nat)) :=
  findAllRoutes N.graph N.info (.cls N.isInput) (.cls N.isOutput) (some fun n => N.isLink n || N.isInput n || N.isOutput n) none .strict

/-- The nodes `check_graph` objects to (`:178-188`); the code raises for the first of them in the order of a set. -/
def Net.objections (N : Net) : Except String (List Nat) :=
  match N.routes with
  | .error e => .error e
  | .ok routes =>
    let seen := routes.flatten
    .ok ((N.graph.nodes.filter (fun n => !seen.contains n) ++ seen.filter (fun n => !N.graph.nodes.contains n)).filter fun n => N.allowIsolated n == false)

/-- `node.components` (`_core.pyx:361-375`). -/
def components : List Attr → List Nat
  | [] => []
  | .component c :: as => c :: components as
  | _ :: as => components as

/-- `find_orphaned_parameters` (`:906-925`): `cg` is the component graph. -/
def Net.orphans (N : Net) (cg : Digraph) (isParameter : Nat → Bool) : List Nat :=
  let all := (cg.nodes.filter (· != Components.root)).filter isParameter
  let visited := (cg.nodes.filter (· != Components.root)).filter fun c => (cg.adj c).length != 0
  let used := N.graph.nodes.flatMap fun n => components (N.attrs n)
  all.filter fun p => !(visited ++ used).contains p

/-- `VirtualStorage.check`, `RollingVirtualStorage.check`: `cost not in (0.0, None)` raises; other nodes pass. -/
def Net.nodeOk (N : Net) (n : Nat) : Bool :=
  match N.virtualCost n with
  | some .none => true
  | some (.number x) => decide (x = 0)
  | some _ => false
  | none => true

/-- Exceptions of `check`. -/
inductive Err
  | notImplemented
  | structure
  | other
deriving DecidableEq

/-- `Model.check` (`:163-174`): the number in the warning, if it gets there. `self.nodes` hides the nodes with a parent. -/
def Net.check (N : Net) (cg : Digraph) (isParameter : Nat → Bool) : Except Err Nat :=
  if (N.graph.nodes.filter fun n => !N.hasParent n).any (fun n => !N.nodeOk n) then .error .notImplemented
  else match N.objections with
    | .error _ => .error .other
    | .ok l => if l = [] then .ok (N.orphans cg isParameter).length else .error .structure

end Verif.Checks

import Mathlib.Data.Finset.Card
import Mathlib.Data.Finset.Dedup
import Verif.Model.Digraph

/-!
# Component graph and evaluation order

Models `/repo/pywr/_component.pyx:10-91` (`GraphInterface`, `Component.__init__`),
`/repo/pywr/_model.pyx:883-904` (`flatten_component_tree`) and the phase loops of
`/repo/pywr/_model.pyx:684-872` (`setup`, `reset`, `before`, `after`, `finish`).
-/

namespace Verif.Components

open Verif

/-- `ROOT_NODE = "root"`, `/repo/pywr/_component.pyx:7`. -/
def root : Nat := 0

/-- What user code can do to the component graph before a run. Components are non-zero numbers. -/
inductive Op
  /-- `Component.__init__`: `model.component_graph.add_edge(ROOT_NODE, self)`, `/repo/pywr/_component.pyx:89`. -/
  | create (c : Nat)
  /-- `x.children.add(d)` or `d.parents.add(x)` with `d` a component: edge `d → x`,
  `/repo/pywr/_component.pyx:18-24`. -/
  | addDep (x d : Nat)
  /-- `x.children.add(obj)` where `obj` is not a `Component` (e.g. a list): silently returns,
  `/repo/pywr/_component.pyx:19-20`. -/
  | addOther (x : Nat)
  /-- `x.children.remove(d)`, `/repo/pywr/_component.pyx:26-32`. -/
  | removeDep (x d : Nat)
deriving Repr, DecidableEq

/-- Effect of one operation. `none`: the operation is impossible (component id reused, component not yet created:
no Python object to pass) or raises (removing an absent edge). -/
def applyOp (g : Digraph) : Op → Option Digraph
  | .create c => if c = root ∨ c ∈ g.nodes then none else some (g.addEdge root c)
  | .addDep x d =>
    if x ∈ g.nodes ∧ d ∈ g.nodes ∧ x ≠ root ∧ d ≠ root then some (g.addEdge d x) else none
  | .addOther x => if x ∈ g.nodes ∧ x ≠ root then some g else none
  | .removeDep x d => if d = root then none else g.removeEdge d x

/-- `self.component_graph = nx.DiGraph(); self.component_graph.add_node(ROOT_NODE)`,
`/repo/pywr/_model.pyx:112-113`, followed by a construction history. -/
def build (ops : List Op) : Option Digraph :=
  ops.foldlM applyOp (Digraph.empty.addNode root)

/-- Measure for the termination of the depth-first search: nodes that can still be discovered. -/
def undiscovered (g : Digraph) (vis : List Nat) (stack : List (Nat × List Nat)) : Finset Nat :=
  (g.edges.map (·.2) ++ stack.flatMap (·.2)).toFinset \ vis.toFinset

/-- Second component of the termination measure. -/
def pendingSize (stack : List (Nat × List Nat)) : Nat :=
  (stack.map (fun f => f.2.length + 1)).sum

/-- `networkx.dfs_postorder_nodes` (via `dfs_labeled_edges`): iterative depth-first search with a stack of
(node, iterator over its successors); nodes are emitted when their iterator is exhausted. -/
def dfsLoop (g : Digraph) (vis : List Nat) (stack : List (Nat × List Nat)) (out : List Nat) : List Nat :=
  match stack with
  | [] => out
  | (p, []) :: rest => dfsLoop g vis rest (out ++ [p])
  | (p, c :: cs) :: rest =>
    if c ∈ vis then dfsLoop g vis ((p, cs) :: rest) out
    else dfsLoop g (c :: vis) ((c, g.adj c) :: (p, cs) :: rest) out
termination_by ((undiscovered g vis stack).card, pendingSize stack)
decreasing_by
  · have hs : undiscovered g vis ((p, []) :: rest) = undiscovered g vis rest := by
      simp [undiscovered]
    rw [hs]
    apply Prod.Lex.right
    simp [pendingSize]
  · have hs : (undiscovered g vis ((p, cs) :: rest)).card ≤ (undiscovered g vis ((p, c :: cs) :: rest)).card := by
      apply Finset.card_le_card
      intro x
      simp only [undiscovered, Finset.mem_sdiff, List.mem_toFinset, List.mem_append, List.mem_flatMap,
        List.mem_cons]
      grind
    rcases Nat.lt_or_eq_of_le hs with h | h
    · exact Prod.Lex.left _ _ h
    · rw [h]; apply Prod.Lex.right; simp [pendingSize]
  · rename_i hc
    apply Prod.Lex.left
    apply Finset.card_lt_card
    rw [Finset.ssubset_iff_of_subset]
    · refine ⟨c, ?_, ?_⟩
      · simp [undiscovered, hc]
      · simp [undiscovered]
    · intro x
      simp only [undiscovered, Finset.mem_sdiff, List.mem_toFinset, List.mem_append, List.mem_flatMap,
        List.mem_cons, List.mem_map, Digraph.adj, Prod.exists]
      grind

/-- `list(nx.dfs_postorder_nodes(G, source))`. -/
def dfsPostorder (g : Digraph) (source : Nat) : List Nat :=
  dfsLoop g [source] [(source, g.adj source)] []

/-- Errors of this part of the code. -/
inductive Err
  /-- `ModelStructureError` for cycles and self loops, `/repo/pywr/_model.pyx:891-895`. -/
  | modelStructure
deriving Repr, DecidableEq

/-- `Model.flatten_component_tree(rebuild=True)`, `/repo/pywr/_model.pyx:883-904`. -/
def flatten (g : Digraph) : Except Err (List Nat) :=
  if g.hasCycle then .error .modelStructure
  else if g.edges.any (fun e => e.1 == e.2) then .error .modelStructure
  else .ok ((dfsPostorder g root).filter (· != root)).reverse

/-- The value-calculation loop of `Model.before`, `/repo/pywr/_model.pyx:843-847`: every component of the order
in turn recomputes its stored value (`Parameter.calc_values`, `/repo/pywr/parameters/_parameters.pyx:70-78`) from
the values currently stored by all components.  `f c v` is the value component `c` computes when the stored values
are `v`. (One scenario; components that are not parameters can be given a constant value.) -/
def calcValues {β : Type} (f : Nat → (Nat → β) → β) (order : List Nat) (stored : Nat → β) : Nat → β :=
  order.foldl (fun v c => fun x => if x = c then f c v else v x) stored

/-- `MultipleThresholdIndexParameter.__init__` / `MultipleThresholdParameterIndexParameter.__init__`,
`/repo/pywr/parameters/_thresholds.pyx:198-212, 250-265`, for threshold *parameters* that already exist: creates the
component and then, for each threshold, calls `self.children.add(thresholds)` with the whole list. -/
def multipleThresholdInit (self : Nat) (thresholds : List Nat) : List Op :=
  Op.create self :: thresholds.map (fun _ => Op.addOther self)

/-- The constructor pattern used by the other parameters (e.g. `AggregatedParameter.__init__`,
`/repo/pywr/parameters/_parameters.pyx:1455-1460`): creates the component and registers every child. -/
def registeringInit (self : Nat) (children : List Nat) : List Op :=
  Op.create self :: children.map (fun d => Op.addDep self d)

/-- `MultipleThresholdParameterIndexParameter.index`, `/repo/pywr/parameters/_thresholds.pyx:266-284`: first
threshold that the value is at or above, else the number of thresholds. -/
def multipleThresholdIndex (value : Int) : List Int → Nat
  | [] => 0
  | t :: ts => if value ≥ t then 0 else multipleThresholdIndex value ts + 1

end Verif.Components

import Mathlib.Data.List.Chain
import Mathlib.Logic.Relation
import Verif.Model.Digraph

/-! # Specification vocabulary for directed graphs -/

namespace Verif.Digraph

/-- There is an edge from `u` to `v`. -/
def Edge (g : Digraph) (u v : Nat) : Prop := (u, v) ∈ g.edges

/-- `p` is a directed walk without repeated nodes from `s` to `t` (as a list of nodes). -/
def IsSimplePath (g : Digraph) (s t : Nat) (p : List Nat) : Prop :=
  p.head? = some s ∧ p.getLast? = some t ∧ p.IsChain g.Edge ∧ p.Nodup

/-- Some node can be reached from itself by a non-empty walk. -/
def Cyclic (g : Digraph) : Prop := ∃ u, Relation.TransGen g.Edge u u

/-- Both ends of every edge are nodes of the graph (networkx maintains this; see `wf_addEdge` etc.). -/
def WF (g : Digraph) : Prop :=
  g.nodes.Nodup ∧ g.edges.Nodup ∧ ∀ u v, g.Edge u v → u ∈ g.nodes ∧ v ∈ g.nodes

end Verif.Digraph

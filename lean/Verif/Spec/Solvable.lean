import Verif.Spec.Simulation
import Verif.Spec.Composite
import Verif.Spec.Domains
import Verif.Spec.Relaxing
/-! # Vocabulary for models that can be solved in every timestep -/

namespace Verif.Lp

open Verif Verif.Bounds

/-- The flow of the node has a finite maximum. -/
def Capped (d : Data) (n : Nat) : Prop := LowerLimit (d.minFlow n) ∧ ∃ q, d.maxFlow n = .fin q ∧ OrdinaryDouble q

/-- Whatever earns something has a finite maximum: every route passes a node with a finite maximum flow, or no node with a negative cost. -/
def CappedRewards (d : Data) (routes : List (List Nat)) : Prop :=
  ∀ r ∈ routes, (∃ n ∈ r, Carries d r n ∧ Capped d n) ∨ ∀ n ∈ r, Carries d r n → 0 ≤ d.cost n

/-- The same for the edges: one of the two nodes has a finite maximum flow, or neither has a negative cost. -/
def CappedEdges (d : Data) (g : Graph) : Prop :=
  ∀ e ∈ g.edges, g.domain e.1 = g.domain e.2 → Capped d e.1 ∨ Capped d e.2 ∨ (0 ≤ d.cost e.1 ∧ 0 ≤ d.cost e.2)

/-- Nothing has to flow: the limits of all nodes and aggregated nodes include zero. -/
structure Undemanding (d : Data) : Prop where
  days : 0 < d.days
  nodes : ∀ n ∈ d.nodes, d.kind n ≠ .other → Optional d n
  aggs : ∀ a ∈ d.aggs, LowerLimit a.minFlow ∧ UpperLimit a.maxFlow ∧ LimitLe a.minFlow (.fin 0) ∧ LimitLe (.fin 0) a.maxFlow

end Verif.Lp

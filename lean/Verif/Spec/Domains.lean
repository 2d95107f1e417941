import Verif.Spec.Lp
/-! # Vocabulary for edge problems of models with several domains -/

namespace Verif.Lp

open Verif

/-- All edges connect inputs, links and outputs of the model (in one domain or between domains). -/
def Connects (d : Data) (g : Graph) : Prop :=
  ∀ e ∈ g.edges, e.1 ∈ d.nodes ∧ e.2 ∈ d.nodes ∧ d.kind e.1 ≠ .other ∧ d.kind e.2 ≠ .other

/-- No value is given to the columns of edges between domains. -/
def Idle (g : Graph) (y : List Rat) : Prop :=
  ∀ c, (h : c < g.edges.length) → g.domain g.edges[c].1 ≠ g.domain g.edges[c].2 → y.getD c 0 = 0

/-- A basic solution, as computed by the simplex method: a corner of the set of feasible solutions, i.e. a feasible solution that is not the midpoint of two
different ones. -/
def BasicSolution (d : Data) (g : Graph) (y : List Rat) : Prop :=
  EdgeFeasible d g y ∧ ∀ y₁ y₂, EdgeFeasible d g y₁ → EdgeFeasible d g y₂ →
    (∀ c, y₁.getD c 0 + y₂.getD c 0 = 2 * y.getD c 0) → y₁ = y₂

/-- No feasible solution of the edge problem is cheaper. -/
def EdgeOptimal (d : Data) (g : Graph) (y : List Rat) : Prop :=
  EdgeFeasible d g y ∧ ∀ z, EdgeFeasible d g z → edgeObjective d g y ≤ edgeObjective d g z

/-- The connections inside domains. -/
def Graph.within (g : Graph) : List (Nat × Nat) := g.edges.filter fun e => g.domain e.1 == g.domain e.2

/-- A model with any number of domains that both solvers treat alike: no cycles inside domains, supply routes found by `find_all_routes`, connections between domains
from outputs to inputs, each node once in every virtual storage, and no route passing two members of an aggregated node. -/
structure ComparableDomains (d : Data) (g : Graph) (routes : List (List Nat)) : Prop where
  connects : Connects d g
  nodes : d.nodes.Nodup
  edges : g.edges.Nodup
  cross : ∀ c ∈ d.cross, (c.1 ∈ d.nodes ∧ d.kind c.1 = .output) ∧ ∀ i ∈ c.2, i.1 ∈ d.nodes ∧ d.kind i.1 = .input
  found : ∃ info : Routes.NodeInfo, info.domain = g.domain ∧
    Routes.findAllRoutes ⟨d.nodes, g.edges⟩ info (.cls fun n => d.kind n == .input) (.cls fun n => d.kind n == .output)
      (some fun n => d.kind n != .other) none .strict = .ok routes
  storages : ∀ s ∈ d.storages, s.inputs.Nodup ∧ s.outputs.Nodup ∧ (∀ n ∈ s.inputs, n ∈ d.nodes ∧ d.kind n = .input) ∧
    ∀ n ∈ s.outputs, n ∈ d.nodes ∧ d.kind n = .output
  acyclic : ¬ Digraph.Cyclic ⟨d.nodes, g.within⟩
  virtuals : ∀ v ∈ d.virtuals, v.nodes.Nodup ∧ ∀ n ∈ v.nodes, n ∈ d.nodes ∧ d.kind n ≠ .other
  aggs : ∀ a ∈ d.aggs, (∀ n ∈ a.nodes, n ∈ d.nodes ∧ d.kind n ≠ .other) ∧
    ∀ r ∈ routes, ((a.nodes.zip a.weightList).filter fun p => r.contains p.1).length ≤ 1

end Verif.Lp

import Verif.Model.Lp
import Verif.Spec.Bounds
import Verif.Spec.Digraph
/-! # Vocabulary for statements about solver answers -/

namespace Verif.Lp

open Verif Verif.Bounds

/-- Routes as delivered by `find_all_routes` for the solver: simple paths from an input to an output over inputs, links and
outputs (see `wellRouted_of_findAllRoutes`). -/
def WellRouted (d : Data) (routes : List (List Nat)) : Prop :=
  ∀ r ∈ routes, r.Nodup ∧ (∃ s, r.head? = some s ∧ d.kind s = .input) ∧
    (∃ t, r.getLast? = some t ∧ d.kind t = .output) ∧ ∀ n ∈ r, d.kind n ≠ .other ∧ n ∈ d.nodes

/-- The limits hold for `x`, with the documented tolerance: limits below 1e-8 in magnitude count as zero, and limits
closer than 1e-8 to each other fix the flow at the lower one. -/
def Limited (a b : F) (x : Rat) : Prop :=
  (a.effective.AtLeast x ∧ b.effective.AtMost x) ∨ (Close a.effective b.effective ∧ a.effective = .fin x)

/-- An ordinary lower limit: minus infinity or a finite number (not one of the two extreme doubles). -/
def LowerLimit (a : F) : Prop := a = .negInf ∨ ∃ p, a = .fin p ∧ OrdinaryDouble p

/-- An ordinary upper limit. -/
def UpperLimit (b : F) : Prop := b = .posInf ∨ ∃ q, b = .fin q ∧ OrdinaryDouble q

/-- Water on route `r` is flow of node `n`. -/
def Carries (d : Data) (r : List Nat) (n : Nat) : Prop :=
  match d.kind n with
  | .input => r.head? = some n
  | .output => r.getLast? = some n
  | .link => n ∈ r
  | .other => False

instance (d : Data) (r : List Nat) (n : Nat) : Decidable (Carries d r n) := by
  unfold Carries; split <;> infer_instance

/-- Every route through `n` carries flow of `n` (fails only for an input in the middle of a route, or an output there). -/
def NoPassThrough (d : Data) (routes : List (List Nat)) (n : Nat) : Prop := ∀ r ∈ routes, n ∈ r → Carries d r n

/-- All edges connect inputs, links and outputs of the model, inside one domain. -/
def OneDomain (d : Data) (g : Graph) : Prop :=
  ∀ e ∈ g.edges, g.domain e.1 = g.domain e.2 ∧ e.1 ∈ d.nodes ∧ e.2 ∈ d.nodes ∧ d.kind e.1 ≠ .other ∧ d.kind e.2 ≠ .other

/-- A model both solvers treat alike: one domain, no cycles, supply routes found by `find_all_routes`, each node once in every virtual storage, and no
route passing two members of an aggregated node. -/
structure Comparable (d : Data) (g : Graph) (routes : List (List Nat)) : Prop where
  one : OneDomain d g
  nodes : d.nodes.Nodup
  edges : g.edges.Nodup
  cross : d.cross = []
  found : ∃ info : Routes.NodeInfo, info.domain = g.domain ∧
    Routes.findAllRoutes ⟨d.nodes, g.edges⟩ info (.cls fun n => d.kind n == .input) (.cls fun n => d.kind n == .output)
      (some fun n => d.kind n != .other) none .strict = .ok routes
  storages : ∀ s ∈ d.storages, s.inputs.Nodup ∧ s.outputs.Nodup ∧ (∀ n ∈ s.inputs, n ∈ d.nodes ∧ d.kind n = .input) ∧
    ∀ n ∈ s.outputs, n ∈ d.nodes ∧ d.kind n = .output
  acyclic : ¬ Digraph.Cyclic ⟨d.nodes, g.edges⟩
  virtuals : ∀ v ∈ d.virtuals, v.nodes.Nodup ∧ ∀ n ∈ v.nodes, n ∈ d.nodes ∧ d.kind n ≠ .other
  aggs : ∀ a ∈ d.aggs, (∀ n ∈ a.nodes, n ∈ d.nodes ∧ d.kind n ≠ .other) ∧
    ∀ r ∈ routes, ((a.nodes.zip a.weightList).filter fun p => r.contains p.1).length ≤ 1

end Verif.Lp

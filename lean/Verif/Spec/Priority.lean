import Verif.Spec.Composite
import Verif.Spec.Domains
/-! # Vocabulary for statements about the order in which demands are met and supplies are used -/

namespace Verif.Priority

open Verif Verif.Lp Verif.Bounds

/-- A change of a solution: more flow along one route (if given), and as much less along another (if given). -/
structure Change where
  more : Option (List Nat)
  less : Option (List Nat)

/-- How much a quantity grows per unit of change, if a unit along route `r` adds `f r` to it. -/
def Change.of (c : Change) (f : List Nat → Rat) : Rat := (c.more.map f).getD 0 - (c.less.map f).getD 0

/-- One of the two routes has the property and the other has not (or is not given). -/
def Change.Differ (c : Change) (p : List Nat → Prop) : Prop := ¬ ((∃ r, c.more = some r ∧ p r) ↔ ∃ r, c.less = some r ∧ p r)

/-- The limits leave no room at all, or the flow is at the upper one. -/
def NoMore (mn mx : F) (u : Rat) : Prop := Close mn.effective mx.effective ∨ mx.effective = .fin u

/-- The limits leave no room at all, or the flow is at the lower one. -/
def NoLess (mn mx : F) (u : Rat) : Prop := Close mn.effective mx.effective ∨ mn.effective = .fin u

/-- The volume reaches its maximum at the end of the timestep (up to 2e-8 per day), or is fixed. -/
def Full (volume mx mn net days : Rat) : Prop := mx = mn ∨ mx ≤ volume + (net + 2 / 100000000) * days

/-- The volume reaches its minimum at the end of the timestep (up to 2e-8 per day), or is fixed. -/
def Empty (volume mx mn net days : Rat) : Prop := mx = mn ∨ volume + (net - 2 / 100000000) * days ≤ mn

/-- What a unit along a route brings to a storage. -/
def brings (s : StorageData) (r : List Nat) : Rat :=
  (if ∃ n ∈ s.outputs, r.getLast? = some n then 1 else 0) - (if ∃ n ∈ s.inputs, r.head? = some n then 1 else 0)

/-- What a unit along a route counts for, given nodes with weights. -/
def counts (ws : List (Nat × Rat)) (r : List Nat) : Rat := (ws.map fun p => if p.1 ∈ r then p.2 else 0).sum

/-- Each node of the virtual storage is given once, and is no input or output in the middle of a route (see C54). -/
def PlainVirtual (d : Data) (routes : List (List Nat)) (v : VirtualData) : Prop := v.nodes.Nodup ∧ ∀ n ∈ v.nodes, NoPassThrough d routes n

/-- No route passes two members of the aggregated node, and none is an input or output in the middle of a route (see C20). -/
def PlainAgg (d : Data) (routes : List (List Nat)) (a : AggData) : Prop :=
  (∀ n ∈ a.nodes, NoPassThrough d routes n) ∧ ∀ r ∈ routes, ((a.nodes.zip a.weightList).filter fun p => r.contains p.1).length ≤ 1

/-- Why a change of the solution `x` is not possible. -/
inductive Obstacle (d : Data) (routes : List (List Nat)) (x : List Rat) (c : Change) : Prop
  /-- A node that would carry more is at its maximum. -/
  | most (n : Nat) (hn : n ∈ d.nodes) (hc : 0 < c.of fun r => if Carries d r n then 1 else 0) (h : NoMore (d.minFlow n) (d.maxFlow n) (routeNodeFlow d routes x n))
  /-- A node that would carry less is at its minimum. -/
  | least (n : Nat) (hn : n ∈ d.nodes) (hc : (c.of fun r => if Carries d r n then 1 else 0) < 0) (h : NoLess (d.minFlow n) (d.maxFlow n) (routeNodeFlow d routes x n))
  /-- A storage that would get more (or give less) is full. -/
  | full (s : StorageData) (hs : s ∈ d.storages) (hc : 0 < c.of (brings s)) (h : Full s.volume s.mx s.mn (storageFlow (routeNodeFlow d routes x) s) d.days)
  /-- A storage that would give more (or get less) is empty. -/
  | empty (s : StorageData) (hs : s ∈ d.storages) (hc : c.of (brings s) < 0) (h : Empty s.volume s.mx s.mn (storageFlow (routeNodeFlow d routes x) s) d.days)
  /-- A virtual storage is used by one of the routes only; if it is plain it is used up and would be used more, or it is full and would be used less. -/
  | virtual (v : VirtualData) (hv : v ∈ d.virtuals) (ht : ∃ n ∈ v.nodes, c.Differ (n ∈ ·)) (ha : v.active = true ∨ v.mx = v.mn)
      (h : PlainVirtual d routes v →
        (0 < c.of (counts (v.nodes.zip v.factors)) ∧ Empty v.volume v.mx v.mn (-((v.nodes.zip v.factors).map fun p => p.2 * routeNodeFlow d routes x p.1).sum) d.days) ∨
        (c.of (counts (v.nodes.zip v.factors)) < 0 ∧ Full v.volume v.mx v.mn (-((v.nodes.zip v.factors).map fun p => p.2 * routeNodeFlow d routes x p.1).sum) d.days))
  /-- An aggregated node is passed by one of the routes only; if it is plain it is at one of its limits, and would have to pass it. -/
  | group (a : AggData) (ha : a ∈ d.aggs) (ht : ∃ n ∈ a.nodes, c.Differ (n ∈ ·))
      (h : PlainAgg d routes a →
        (0 < c.of (counts (a.nodes.zip a.weightList)) ∧ NoMore a.minFlow a.maxFlow (aggFlow (routeNodeFlow d routes x) a)) ∨
        (c.of (counts (a.nodes.zip a.weightList)) < 0 ∧ NoLess a.minFlow a.maxFlow (aggFlow (routeNodeFlow d routes x) a)))
  /-- There is a fixed ratio between the flows of some nodes, one of which is on one of the routes only. -/
  | ratio (a : AggData) (ha : a ∈ d.aggs) (hf : a.factors ≠ none) (ht : ∃ n ∈ a.nodes, c.Differ (n ∈ ·))
  /-- One of the routes only passes a connection between two domains. -/
  | border (b : Nat × List (Nat × Rat)) (hb : b ∈ d.cross) (ht : c.Differ (·.getLast? = some b.1) ∨ ∃ i ∈ b.2, c.Differ (·.head? = some i.1))

/-- What is asked of the network: limits are numbers or infinite, the nodes of storages are inputs and outputs, those of connections between domains are outputs, and the timestep has a length. -/
structure Sound (d : Data) (routes : List (List Nat)) : Prop where
  routed : WellRouted d routes
  limits : ∀ n ∈ d.nodes, LowerLimit (d.minFlow n) ∧ UpperLimit (d.maxFlow n)
  groups : ∀ a ∈ d.aggs, LowerLimit a.minFlow ∧ UpperLimit a.maxFlow
  storages : ∀ s ∈ d.storages, s.inputs.Nodup ∧ s.outputs.Nodup ∧ (∀ n ∈ s.inputs, d.kind n = .input) ∧ ∀ n ∈ s.outputs, d.kind n = .output
  cross : ∀ b ∈ d.cross, d.kind b.1 = .output
  days : 0 < d.days

/-- The cost of a unit along a route: the sum of the costs of the nodes that carry it. -/
def unitCost (d : Data) (r : List Nat) : Rat := ((r.filter fun n => decide (Carries d r n)).map d.cost).sum

/-- Nothing but its own limits (and the volume of a storage) restricts the flow of the node. -/
structure Free (d : Data) (n : Nat) : Prop where
  virtuals : ∀ v ∈ d.virtuals, n ∉ v.nodes
  aggs : ∀ a ∈ d.aggs, n ∉ a.nodes
  cross : ∀ b ∈ d.cross, n ≠ b.1 ∧ ∀ i ∈ b.2, n ≠ i.1

end Verif.Priority

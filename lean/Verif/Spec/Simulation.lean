import Verif.Model.Simulation
import Verif.Spec.Domains
/-! # Specification: whole simulations -/

namespace Verif.Simulation

open Verif Verif.Lp Verif.Bounds

/-- The edge solver returns any solution without value on the columns between domains (as every basic solution is, `C22_idle`). -/
def edgeAnswer (N : Net) (d : Data) (flow : Nat → Rat) : Prop := ∃ y, EdgeFeasible d N.graph y ∧ Idle N.graph y ∧ flow = N.commit (edgeNodeFlow d N.graph y)

/-- The edge solver returns such a solution of least cost. -/
def edgeBest (N : Net) (d : Data) (flow : Nat → Rat) : Prop :=
  ∃ y, EdgeFeasible d N.graph y ∧ Idle N.graph y ∧ (∀ y', EdgeFeasible d N.graph y' → edgeObjective d N.graph y ≤ edgeObjective d N.graph y') ∧
    flow = N.commit (edgeNodeFlow d N.graph y)

/-- The network is well-formed: ids are distinct, every storage has its own inputs and outputs, edges join nodes that carry flow, routes are supply routes. -/
structure Net.Ok (N : Net) : Prop where
  nodes : N.nodes.Nodup
  inputs : (N.stores.flatMap (·.1)).Nodup
  outputs : (N.stores.flatMap (·.2)).Nodup
  inputKinds : ∀ s ∈ N.stores, ∀ n ∈ s.1, n ∈ N.nodes ∧ N.kind n = .input
  outputKinds : ∀ s ∈ N.stores, ∀ n ∈ s.2, n ∈ N.nodes ∧ N.kind n = .output
  routes : ∀ r ∈ N.routes, r.Nodup ∧ (∃ s, r.head? = some s ∧ N.kind s = .input) ∧ (∃ t, r.getLast? = some t ∧ N.kind t = .output) ∧
    ∀ n ∈ r, N.kind n ≠ .other ∧ n ∈ N.nodes
  edges : ∀ e ∈ N.graph.edges, e.1 ∈ N.nodes ∧ e.2 ∈ N.nodes ∧ N.kind e.1 ≠ .other ∧ N.kind e.2 ≠ .other

/-- Water that entered the network in a timestep through inputs that belong to no storage. -/
def Net.inflow (N : Net) (t : Done) : Rat :=
  ((N.nodes.filter fun n => N.kind n == .input && !(N.stores.flatMap (·.1)).contains n).map t.flow).sum * t.values.days

/-- Water that left through outputs that belong to no storage. -/
def Net.outflow (N : Net) (t : Done) : Rat :=
  ((N.nodes.filter fun n => N.kind n == .output && !(N.stores.flatMap (·.2)).contains n).map t.flow).sum * t.values.days

/-- Water in all storages. -/
def Net.stored (N : Net) (m : Moment) : Rat := (N.stores.zipIdx.map fun q => (m.stores q.2).volume).sum

/-- What should be left of a licence: in every timestep it is first set to the volume of a refill, if there is one, and then, if it is active, falls by what its nodes used. -/
def left (i : Nat) (s : List Nat × List Rat) (start : Rat) (h : List Done) : Rat :=
  h.foldl (fun e t => (t.values.refill i).getD e - if t.values.active i then ((s.1.zip s.2).map fun p => p.2 * t.flow p.1).sum * t.values.days else 0) start

end Verif.Simulation

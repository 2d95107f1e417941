import Verif.Model.Simulation
/-! # Specification: whole runs with nodes and components in another order -/

namespace Verif.Simulation

open Verif Verif.Lp Verif.Bounds

/-- The same network with everything in another order: at position `i` is the storage that was at `σ i`, and the licence that was at `τ i`. -/
structure Net.SameBut (σ τ : Equiv.Perm Nat) (N N' : Net) : Prop where
  kind : N'.kind = N.kind
  nodes : N'.nodes.Perm N.nodes
  stores : ∀ i : Nat, N'.stores[i]? = N.stores[σ i]?
  virtuals : ∀ i : Nat, N'.virtuals[i]? = N.virtuals[τ i]?
  routes : N'.routes.Perm N.routes
  edges : N'.graph.edges.Perm N.graph.edges
  domain : N'.graph.domain = N.graph.domain

/-- The same values of parameters, for the nodes and components in the other order. -/
structure Values.SameBut (σ τ : Equiv.Perm Nat) (v v' : Values) : Prop where
  flows : v'.minFlow = v.minFlow ∧ v'.maxFlow = v.maxFlow
  cost : v'.cost = v.cost
  limits : ∀ i, v'.limits i = v.limits (σ i)
  vlimits : ∀ i, v'.vlimits i = v.vlimits (τ i)
  active : ∀ i, v'.active i = v.active (τ i)
  refill : ∀ i, v'.refill i = v.refill (τ i)
  aggs : v'.aggs.Perm v.aggs
  cross : v'.cross.Perm v.cross
  days : v'.days = v.days

/-- The same state of storages and licences, in the other order. -/
def Moment.inOrder (σ τ : Equiv.Perm Nat) (m : Moment) : Moment := ⟨fun i => m.stores (σ i), fun i => m.virtuals (τ i)⟩

/-- The same values and the same flows of all nodes. -/
def LikeInOrder (σ τ : Equiv.Perm Nat) (t t' : Done) : Prop := t.values.SameBut σ τ t'.values ∧ t'.flow = t.flow

/-- To every run of one model there is a run of the other with the same values and flows that leads to the same state. -/
def RunsInOrder (σ τ : Equiv.Perm Nat) (answer : Net → Data → (Nat → Rat) → Prop) (N N' : Net) (params params' : List Done → Values) (start : Moment) : Prop :=
  (∀ h m, Runs N (answer N) params start h m → ∃ h', List.Forall₂ (LikeInOrder σ τ) h h' ∧ Runs N' (answer N') params' (start.inOrder σ τ) h' (m.inOrder σ τ)) ∧
  ∀ h' m', Runs N' (answer N') params' (start.inOrder σ τ) h' m' → ∃ h m, List.Forall₂ (LikeInOrder σ τ) h h' ∧ Runs N (answer N) params start h m ∧ m' = m.inOrder σ τ

end Verif.Simulation

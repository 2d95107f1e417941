import Verif.Spec.Through
import Verif.Spec.Wording
import Verif.Spec.Twins
import Verif.Spec.Simulation
/-! # Specification: runs of a model and of the same model in other words -/

namespace Verif.Simulation

open Verif Verif.Lp Verif.Bounds

/-- The runs of the two models correspond: to every run of one there is a run of the other that leads to the same volumes, and whose timesteps are, one by one, in the relation `like`. -/
def RunsAlike (like : Done → Done → Prop) (answer : Net → Data → (Nat → Rat) → Prop) (N N' : Net) (params params' : List Done → Values) (start : Moment) : Prop :=
  (∀ h m, Runs N (answer N) params start h m → ∃ h', List.Forall₂ like h h' ∧ Runs N' (answer N') params' start h' m) ∧
  ∀ h' m, Runs N' (answer N') params' start h' m → ∃ h, List.Forall₂ like h h' ∧ Runs N (answer N) params start h m

/-- The model with the link `l` between `a` and `b`: the routes that take the connection lead through it. -/
def Net.withLink (N : Net) (a b l : Nat) : Net :=
  { N with nodes := N.nodes ++ [l], routes := N.routes.map (through a b l), graph := N.graph.split a b l }

/-- `l` is a link that is not in the model yet, and no storage refers to it. -/
structure Net.NewLink (N : Net) (l : Nat) : Prop where
  kind : N.kind l = .link
  new : l ∉ N.nodes
  stores : ∀ s ∈ N.stores, l ∉ s.1 ∧ l ∉ s.2
  virtuals : ∀ s ∈ N.virtuals, l ∉ s.1

/-- `l` has neither limits nor costs, and is in no aggregated node and no connection between domains. -/
structure Values.Plain (v : Values) (l : Nat) : Prop where
  minFlow : v.minFlow l = .fin 0
  maxFlow : v.maxFlow l = .posInf
  cost : v.cost l = 0
  aggs : ∀ a ∈ v.aggs, l ∉ a.nodes
  cross : ∀ c ∈ v.cross, c.1 ≠ l ∧ ∀ i ∈ c.2, i.1 ≠ l

/-- The same values and the same flows of all nodes but `l`. -/
def LikeBut (l : Nat) (t t' : Done) : Prop := t'.values = t.values ∧ ∀ n, n ≠ l → t'.flow n = t.flow n

/-- The limits of the node given to an aggregated node with that one member. -/
def Values.grouped (v : Values) (n : Nat) : Values :=
  { v with
    minFlow := fun m => if m = n then .fin 0 else v.minFlow m
    maxFlow := fun m => if m = n then .posInf else v.maxFlow m
    aggs := v.aggs ++ [⟨[n], none, none, v.minFlow n, v.maxFlow n⟩] }

/-- The same flows, with the limits of the node in the aggregated node. -/
def LikeGrouped (n : Nat) (t t' : Done) : Prop := t'.values = t.values.grouped n ∧ t'.flow = t.flow

/-- The same values and the same flows. -/
def LikeAll (t t' : Done) : Prop := t'.values = t.values ∧ t'.flow = t.flow

/-- `N'` is `N` with further nodes, and routes and connections that may use them. -/
structure Adds (new : List Nat) (N N' : Net) : Prop where
  kind : N'.kind = N.kind
  nodes : N'.nodes = N.nodes ++ new
  fresh : ∀ n ∈ new, n ∉ N.nodes
  stores : N'.stores = N.stores
  virtuals : N'.virtuals = N.virtuals
  routes : N.routes = N'.routes.filter (avoids new)
  graph : N.graph = ⟨N'.graph.edges.filter (avoidsE new), N'.graph.domain⟩

/-- Both limits together. -/
def sumLimit : F → F → F
  | .fin A, .fin B => .fin (A + B)
  | x, _ => x

/-- The limits of the two supplies together at the first. -/
def Values.joined (v : Values) (a b : Nat) : Values := { v with maxFlow := fun n => if n = a then sumLimit (v.maxFlow a) (v.maxFlow b) else v.maxFlow n }

/-- The model without the second supply and its routes and connections. -/
def Net.joined (N : Net) (a b : Nat) (rest T : List (List Nat)) (edges : List (Nat × Nat)) (ends : List Nat) : Net :=
  { N with nodes := N.nodes.filter (· ≠ b), routes := rest ++ T.map (a :: ·), graph := ⟨edges ++ ends.map (a, ·), N.graph.domain⟩ }

/-- The same values but for the limits, the first supply gives what both gave, and all other nodes have the same flows. -/
def LikeJoined (a b : Nat) (t t' : Done) : Prop := t'.values = t.values.joined a b ∧ t'.flow a = t.flow a + t.flow b ∧ ∀ n, n ≠ a → n ≠ b → t'.flow n = t.flow n

end Verif.Simulation

import Verif.Model.Simulation
import Verif.Spec.Parts
/-! # Specification: parts of a model simulated apart -/

namespace Verif.Simulation

open Verif Verif.Lp Verif.Bounds

/-- The positions in a list of the entries that satisfy `q`. -/
def positions {α : Type} (q : α → Bool) (l : List α) : List Nat := (l.zipIdx.filter fun p => q p.1).map (·.2)

/-- A storage belongs to the part that has its inputs and outputs. -/
def Net.storeOn (side : Nat → Bool) (b : Bool) (s : List Nat × List Nat) : Bool := onSide side b (s.1 ++ s.2)

/-- A virtual storage belongs to the part that has its nodes. -/
def Net.virtualOn (side : Nat → Bool) (b : Bool) (s : List Nat × List Rat) : Bool := onSide side b s.1

/-- One part as a model of its own: its nodes, storages and virtual storages, its routes and connections. -/
def Net.part (side : Nat → Bool) (b : Bool) (N : Net) : Net where
  kind := N.kind
  nodes := N.nodes.filter fun n => side n == b
  stores := N.stores.filter (Net.storeOn side b)
  virtuals := N.virtuals.filter (Net.virtualOn side b)
  routes := routesOf side b N.routes
  graph := N.graph.part side b

/-- The number in the whole model of the `i`-th storage of a part. -/
def Net.store (side : Nat → Bool) (b : Bool) (N : Net) (i : Nat) : Nat := (positions (Net.storeOn side b) N.stores).getD i N.stores.length

/-- The number in the whole model of the `i`-th virtual storage of a part. -/
def Net.licence (side : Nat → Bool) (b : Bool) (N : Net) (i : Nat) : Nat := (positions (Net.virtualOn side b) N.virtuals).getD i N.virtuals.length

/-- What the parameters say about one part. -/
def Values.part (side : Nat → Bool) (b : Bool) (N : Net) (v : Values) : Values where
  minFlow n := if side n = b then v.minFlow n else .fin 0
  maxFlow n := if side n = b then v.maxFlow n else .fin 0
  cost n := if side n = b then v.cost n else 0
  limits i := v.limits (N.store side b i)
  vlimits i := v.vlimits (N.licence side b i)
  active i := v.active (N.licence side b i)
  refill i := v.refill (N.licence side b i)
  aggs := v.aggs.filter fun a => onSide side b a.nodes
  cross := v.cross.filter fun c => side c.1 == b
  days := v.days

/-- The storages of one part. -/
def Moment.part (side : Nat → Bool) (b : Bool) (N : Net) (m : Moment) : Moment where
  stores i := m.stores (N.store side b i)
  virtuals i := m.virtuals (N.licence side b i)

/-- The flows of one part. -/
def flowsOf (side : Nat → Bool) (b : Bool) (flow : Nat → Rat) : Nat → Rat := fun n => if side n = b then flow n else 0

/-- What happened in one part. -/
def Done.part (side : Nat → Bool) (b : Bool) (N : Net) (t : Done) : Done := ⟨t.values.part side b N, flowsOf side b t.flow⟩

/-- The network consists of two parts: no storage, virtual storage, route or connection joins the sides, and both have nodes. -/
structure Net.Apart (side : Nat → Bool) (N : Net) : Prop where
  stores : ∀ s ∈ N.stores, ∃ b, ∀ n ∈ s.1 ++ s.2, side n = b
  virtuals : ∀ s ∈ N.virtuals, ∃ b, ∀ n ∈ s.1, side n = b
  both : ∀ b, ∃ n ∈ N.nodes, N.kind n ≠ .other ∧ side n = b
  routes : RoutesApart side N.routes
  edges : EdgesApart side N.graph.edges

/-- Neither do aggregated nodes or the connections between domains. -/
structure Values.Apart (side : Nat → Bool) (v : Values) : Prop where
  aggs : ∀ a ∈ v.aggs, ∃ b, ∀ n ∈ a.nodes, side n = b
  cross : ∀ c ∈ v.cross, ∀ i ∈ c.2, side i.1 = side c.1

/-- The runs of the parts, as long as each other, make up a run of the whole. -/
def Together (side : Nat → Bool) (N : Net) (answer : Net → Data → (Nat → Rat) → Prop) (params : List Done → Values) (own : Bool → List Done → Values) (start : Moment) : Prop :=
  ∀ (hs : Bool → List Done) (ms : Bool → Moment), (hs true).length = (hs false).length →
    (∀ b, Runs (N.part side b) (answer (N.part side b)) (own b) (start.part side b N) (hs b) (ms b)) →
    ∃ h m, Runs N (answer N) params start h m ∧ ∀ b, h.map (Done.part side b N) = hs b ∧ m.part side b N = ms b

end Verif.Simulation

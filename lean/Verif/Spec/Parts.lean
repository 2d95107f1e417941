import Verif.Spec.Composite
import Verif.Spec.Domains
/-! # Vocabulary for models made of parts that are not connected -/

namespace Verif.Lp

open Verif

/-- All nodes are on side `b`. -/
def onSide (side : Nat → Bool) (b : Bool) (l : List Nat) : Bool := l.all fun n => side n == b

/-- The nodes and components on one side, as a model of its own. -/
def part (side : Nat → Bool) (b : Bool) (d : Data) : Data :=
  { d with
    nodes := d.nodes.filter fun n => side n == b
    storages := d.storages.filter fun s => onSide side b (s.inputs ++ s.outputs)
    virtuals := d.virtuals.filter fun v => onSide side b v.nodes
    aggs := d.aggs.filter fun a => onSide side b a.nodes
    cross := d.cross.filter fun c => side c.1 == b }

/-- No component refers to nodes of both sides, and both sides have nodes. -/
structure Separate (side : Nat → Bool) (d : Data) : Prop where
  storages : ∀ s ∈ d.storages, ∃ b, ∀ n ∈ s.inputs ++ s.outputs, side n = b
  virtuals : ∀ v ∈ d.virtuals, ∃ b, ∀ n ∈ v.nodes, side n = b
  aggs : ∀ a ∈ d.aggs, ∃ b, ∀ n ∈ a.nodes, side n = b
  cross : ∀ c ∈ d.cross, ∀ i ∈ c.2, side i.1 = side c.1
  both : ∀ b, ∃ n ∈ d.nodes, d.kind n ≠ .other ∧ side n = b

/-- No route leads from one side to the other. -/
def RoutesApart (side : Nat → Bool) (routes : List (List Nat)) : Prop := ∀ r ∈ routes, r ≠ [] ∧ ∃ b, ∀ n ∈ r, side n = b

/-- The routes of one side. -/
def routesOf (side : Nat → Bool) (b : Bool) (routes : List (List Nat)) : List (List Nat) := routes.filter (onSide side b)

/-- The values of those columns that satisfy `q`. -/
def pick {α : Type} (q : α → Bool) (l : List α) (x : List Rat) : List Rat := ((l.zip x).filter fun p => q p.1).map (·.2)

/-- No connection leads from one side to the other. -/
def EdgesApart (side : Nat → Bool) (edges : List (Nat × Nat)) : Prop := ∀ e ∈ edges, side e.1 = side e.2

/-- The connections of one side. -/
def Graph.part (side : Nat → Bool) (b : Bool) (g : Graph) : Graph := ⟨g.edges.filter fun e => side e.1 == b, g.domain⟩

/-- The same model with its nodes and components in another order. -/
structure Reordered (d d' : Data) : Prop where
  kind : d'.kind = d.kind
  minFlow : d'.minFlow = d.minFlow
  maxFlow : d'.maxFlow = d.maxFlow
  cost : d'.cost = d.cost
  days : d'.days = d.days
  nodes : d'.nodes.Perm d.nodes
  storages : d'.storages.Perm d.storages
  virtuals : d'.virtuals.Perm d.virtuals
  aggs : d'.aggs.Perm d.aggs
  cross : d'.cross.Perm d.cross

end Verif.Lp

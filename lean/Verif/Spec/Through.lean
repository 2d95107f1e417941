import Verif.Spec.Parts
/-! # Vocabulary for a link put into a connection -/

namespace Verif.Lp

open Verif Verif.Bounds

/-- The route takes the connection from `a` to `b`. -/
def takes (a b : Nat) : List Nat → Bool
  | x :: y :: r => (x == a && y == b) || takes a b (y :: r)
  | _ => false

/-- The route with `l` put between `a` and `b` wherever `b` follows `a`. -/
def through (a b l : Nat) : List Nat → List Nat
  | x :: y :: r => if x = a ∧ y = b then x :: l :: through a b l (y :: r) else x :: through a b l (y :: r)
  | r => r

/-- The same model with one more node. -/
def withNode (d : Data) (l : Nat) : Data := { d with nodes := d.nodes ++ [l] }

/-- `l` is a link without limits and costs, and no component refers to it. -/
structure PlainLink (d : Data) (l : Nat) : Prop where
  kind : d.kind l = .link
  new : l ∉ d.nodes
  minFlow : d.minFlow l = .fin 0
  maxFlow : d.maxFlow l = .posInf
  cost : d.cost l = 0
  storages : ∀ s ∈ d.storages, l ∉ s.inputs ∧ l ∉ s.outputs
  virtuals : ∀ v ∈ d.virtuals, l ∉ v.nodes
  aggs : ∀ a ∈ d.aggs, l ∉ a.nodes
  cross : ∀ c ∈ d.cross, c.1 ≠ l ∧ ∀ i ∈ c.2, i.1 ≠ l

/-- The connections with that from `a` to `b` replaced by one from `a` to `l` and one from `l` to `b`. -/
def splitEdges (a b l : Nat) : List (Nat × Nat) → List (Nat × Nat)
  | [] => []
  | e :: es => if e = (a, b) then (a, l) :: (l, b) :: splitEdges a b l es else e :: splitEdges a b l es

/-- The graph with the connection replaced. -/
def Graph.split (g : Graph) (a b l : Nat) : Graph := ⟨splitEdges a b l g.edges, g.domain⟩

/-- The flows of the replaced connections: both new connections carry what the old one carried. -/
def double (a b : Nat) : List (Nat × Nat) → List Rat → List Rat
  | e :: es, v :: y => if e = (a, b) then v :: v :: double a b es y else v :: double a b es y
  | _, _ => []

/-- The flow of the connection from `a` to `b` by the routes. -/
def connectionFlow (a b : Nat) (routes : List (List Nat)) (x : List Rat) : Rat := ((routes.zip x).map fun p => if takes a b p.1 then p.2 else 0).sum

/-- No component counts both the flow at the beginning and the flow at the end of the connection from `a` to `b` (only outputs count what arrives). -/
structure EndsApart (d : Data) (a b : Nat) : Prop where
  ends : a ≠ b
  storages : ∀ s ∈ d.storages, ¬(a ∈ s.inputs ∧ b ∈ s.outputs)
  aggs : d.kind b = .output → ∀ g ∈ d.aggs, ¬(a ∈ g.nodes ∧ b ∈ g.nodes)
  cross : ∀ c ∈ d.cross, c.1 = b → ∀ i ∈ c.2, i.1 ≠ a

end Verif.Lp

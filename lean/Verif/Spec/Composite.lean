import Verif.Model.Composite
import Verif.Spec.Lp
import Mathlib.Data.List.Chain
/-! # Vocabulary for statements about composite nodes -/

namespace Verif.Composite

open Verif Verif.Lp Verif.Bounds

/-- The connections of a loss link's internal nodes: the gross link feeds exactly the net link and the loss output, nothing else feeds those two,
and nothing leaves the loss output. (Other nodes connect to the gross link and from the net link, `nodes.py:1354-1358`.) -/
def Wired (edges : List (Nat × Nat)) (gross net out : Nat) : Prop :=
  ∀ e ∈ edges, (e.1 = gross → e.2 = net ∨ e.2 = out) ∧ (e.2 = net → e.1 = gross) ∧ (e.2 = out → e.1 = gross) ∧ e.1 ≠ out

/-- The internal nodes of a loss link are part of the model handed to the solver, with the attributes in `s`; `p` is the value of the loss factor
when it is a parameter. -/
structure HasLossLink (d : Data) (gross net out : Nat) (s : LossState) (p : Rat) : Prop where
  grossNode : gross ∈ d.nodes ∧ d.kind gross = .link
  netNode : net ∈ d.nodes ∧ d.kind net = .link
  outNode : out ∈ d.nodes ∧ d.kind out = .output
  distinct : gross ≠ net
  agg : s.agg net out p ∈ d.aggs
  outMin : d.minFlow out = .fin 0
  outMax : d.maxFlow out = s.outputMax
  netMax : d.maxFlow net = s.netMax

/-- Routes follow connections (`Routes.C26_routes_exact`). -/
def Follow (edges : List (Nat × Nat)) (routes : List (List Nat)) : Prop := ∀ r ∈ routes, r.IsChain fun a b => (a, b) ∈ edges

/-- The share of the gross flow that is lost, as documented: for "net" the loss is `f` times the net flow, for "gross" `f` times the gross flow. -/
def LossRule (t : LossType) (f gross net : Rat) : Prop :=
  match t with
  | .net => gross = net * (1 + f)
  | .gross => net = gross * (1 - f)
  | .unknown => gross = net

/-- A capacity: not negative, finite or infinite. -/
def Capacity (b : F) : Prop := b = .posInf ∨ ∃ m, b = .fin m ∧ 0 ≤ m ∧ OrdinaryDouble m

/-- The internal nodes of a piecewise link are part of the model handed to the solver: the only route of a sublink leads to the sub-output, the
connections between domains are those of the constructor, and no storage refers to the sublinks. (Other components may refer to them, as a
`MultiSplitLink` with factors does by an aggregated node: see `Unreferenced`.) -/
structure HasPiecewise (d : Data) (routes : List (List Nat)) (p : Piecewise) : Prop where
  nodup : p.sublinks.Nodup
  sub : ∀ s ∈ p.sublinks, s ∈ d.nodes ∧ d.kind s = .input ∧ d.minFlow s = .fin 0 ∧ Capacity (d.maxFlow s)
  ends : d.kind p.output = .output ∧ d.kind p.subOutput = .output ∧ d.kind p.input = .input
  route : ∀ s ∈ p.sublinks, [s, p.subOutput] ∈ routes ∧ ∀ r ∈ routes, s ∈ r → r = [s, p.subOutput]
  once : routes.Nodup
  present : ∀ c ∈ p.cross, c ∈ d.cross
  cross : ∀ c ∈ d.cross, d.kind c.1 = .output ∧ (c ∈ p.cross ∨ ∀ i ∈ c.2, i.1 ∉ p.sublinks)
  outside : p.input ∉ p.sublinks
  storages : ∀ t ∈ d.storages, ∀ s ∈ p.sublinks, s ∉ t.inputs

/-- The same for the edge problem: the only connection of a sublink inside its domain leads to the sub-output. -/
structure HasPiecewiseEdges (d : Data) (g : Graph) (p : Piecewise) : Prop where
  nodup : p.sublinks.Nodup
  sub : ∀ s ∈ p.sublinks, s ∈ d.nodes ∧ d.kind s = .input ∧ d.minFlow s = .fin 0 ∧ Capacity (d.maxFlow s)
  ends : (p.output ∈ d.nodes ∧ d.kind p.output = .output) ∧ (p.subOutput ∈ d.nodes ∧ d.kind p.subOutput = .output) ∧
    (p.input ∈ d.nodes ∧ d.kind p.input = .input)
  edge : ∀ s ∈ p.sublinks, (s, p.subOutput) ∈ g.edges ∧ g.domain s = g.domain p.subOutput ∧
    ∀ e ∈ g.edges, g.domain e.1 = g.domain e.2 → e.1 = s ∨ e.2 = s → e = (s, p.subOutput)
  once : g.edges.Nodup
  nodes : d.nodes.Nodup
  present : ∀ c ∈ p.cross, c ∈ d.cross
  cross : ∀ c ∈ d.cross, d.kind c.1 = .output ∧ (c ∈ p.cross ∨ ∀ i ∈ c.2, i.1 ∉ p.sublinks)
  outside : p.input ∉ p.sublinks
  storages : ∀ t ∈ d.storages, ∀ s ∈ p.sublinks, s ∉ t.inputs

/-- No virtual storage and no aggregated node refers to the node. -/
def Unreferenced (d : Data) (s : Nat) : Prop := (∀ v ∈ d.virtuals, s ∉ v.nodes) ∧ ∀ a ∈ d.aggs, s ∉ a.nodes

/-- `x` is a cost-optimal solution of the route problem. -/
def Optimal (d : Data) (routes : List (List Nat)) (x : List Rat) : Prop :=
  RouteFeasible d routes x ∧ ∀ x', RouteFeasible d routes x' → routeObjective d routes x ≤ routeObjective d routes x'

end Verif.Composite

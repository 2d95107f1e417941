import Verif.Model.Sankey
/-!
What a diagram of the routes should show.
-/

namespace Verif.Sankey

/-- All timesteps and scenarios are averaged. -/
structure Options.Averages (o : Options) : Prop where
  times : o.times = .all
  timeAgg : o.timeAgg = some mean
  columns : o.columns = .all

/-- The mean flow of route `r` over all timesteps and scenarios. -/
def meanFlow (T S : Nat) (flows : Nat → Nat → Nat → Rat) (r : Nat) : Rat :=
  ((List.range T).map fun t => ((List.range S).map fun s => flows t s r).sum).sum / (T * S)

/-- The total flow in scenario `s` and timestep `t`. -/
def total (R : Nat) (flows : Nat → Nat → Nat → Rat) (t s : Nat) : Rat := ((List.range R).map fun r => flows t s r).sum

/-- Between which two boxes of the diagram the flow `v` of a route is drawn, if it is. -/
def Options.drawn (o : Options) (a b : String) (v : Rat) : Option (String × String) :=
  let a' := match o.rename with | some f => f a true | none => a
  let b' := match o.rename with | some f => f b false | none => b
  if (∀ k, o.keep = some k → k a b v = true) ∧ (o.ignoreCircular = true → a' ≠ b') then some (a', b') else none

/-- The box a node belongs to: a node that is part of another one stands for it. -/
def box (n : Node) : String := n.parent.getD n.name

/-- The routes that are drawn between the boxes `a` and `b`; nodes that are part of another one stand for it. -/
def shown (o : Options) (routes : List (Node × Node)) (T S : Nat) (flows : Nat → Nat → Nat → Rat) (a b : String) : List Nat :=
  (List.range routes.length).filter fun r =>
    match routes[r]? with
    | some p => o.drawn (box p.1) (box p.2) (meanFlow T S flows r) = some (a, b)
    | none => false

end Verif.Sankey

import Verif.Spec.Relaxing
/-! # Vocabulary for changes of units -/

namespace Verif.Lp

open Verif Verif.Bounds

/-- A limit in units of which `k` make one of the old ones. -/
def inUnit (k : Rat) : F → F
  | .fin q => .fin (k * q)
  | x => x

/-- The same model with all flows and volumes in other units (for instance 1000 m³ instead of Ml); factors, weights, costs and the length of the timestep stay. -/
def inUnits (k : Rat) (d : Data) : Data :=
  { d with
    minFlow := fun n => inUnit k (d.minFlow n)
    maxFlow := fun n => inUnit k (d.maxFlow n)
    storages := d.storages.map fun s => { s with volume := k * s.volume, mx := k * s.mx, mn := k * s.mn }
    virtuals := d.virtuals.map fun v => { v with volume := k * v.volume, mx := k * v.mx, mn := k * v.mn }
    aggs := d.aggs.map fun a => { a with minFlow := inUnit k a.minFlow, maxFlow := inUnit k a.maxFlow } }

/-- The same model with costs in another currency. -/
def inCurrency (k : Rat) (d : Data) : Data := { d with cost := fun n => k * d.cost n }

/-- Zero, or at least 1e-8 in both units. -/
def Plain (k q : Rat) : Prop := q = 0 ∨ e8 ≤ |q| ∧ e8 ≤ |k * q|

/-- A pair of limits that are zero or at least 1e-8, and equal or at least 1e-8 apart, in both units; finite values stay below the largest double. -/
structure PlainLimits (k : Rat) (a b : F) : Prop where
  limits : LowerLimit a ∧ UpperLimit b
  changed : LowerLimit (inUnit k a) ∧ UpperLimit (inUnit k b)
  lower : ∀ p, a = .fin p → Plain k p
  upper : ∀ q, b = .fin q → Plain k q
  apart : ∀ p q, a = .fin p → b = .fin q → Plain k (p - q)

/-- The water above the minimum volume and the free space below the maximum volume are zero or at least 1e-8 per day, in both units. -/
structure PlainVolume (k volume mx mn days : Rat) : Prop where
  free : Plain k (max (mx - volume) 0 / days)
  stored : Plain k (max (volume - mn) 0 / days)
  small : (mx - volume) / days ≤ dblMax - 1 ∧ (volume - mn) / days ≤ dblMax - 1
  changed : k * ((mx - volume) / days) ≤ dblMax - 1 ∧ k * ((volume - mn) / days) ≤ dblMax - 1

/-- Nothing in the model is so small in one of the units that the solver ignores it. -/
structure PlainModel (k : Rat) (d : Data) : Prop where
  factor : 0 < k
  days : 0 < d.days
  limits : ∀ n ∈ d.nodes, d.kind n ≠ .other → PlainLimits k (d.minFlow n) (d.maxFlow n)
  storages : ∀ s ∈ d.storages, PlainVolume k s.volume s.mx s.mn d.days
  virtuals : ∀ v ∈ d.virtuals, PlainVolume k v.volume v.mx v.mn d.days
  aggs : ∀ a ∈ d.aggs, PlainLimits k a.minFlow a.maxFlow

end Verif.Lp

import Verif.Spec.Cut
import Verif.Spec.Binding
/-! # Specification: limits that are not reached during a whole run -/

namespace Verif.Simulation

open Verif Verif.Lp Verif.Bounds

/-- Well above a minimum volume: by 2e-6, and by 2e-8 for every day of the timestep. -/
def WellAbove (days mn v : Rat) : Prop := mn + 2 * Storage.e6 ≤ v ∧ mn + 2 * e8 * days < v

/-- Well below a maximum volume. -/
def WellBelow (days mx v : Rat) : Prop := v + 2 * Storage.e6 ≤ mx ∧ v + 2 * e8 * days < mx

/-- A storage with the volume `V`, of which `v` is left after the timestep. Of its limits `l` (maximum and minimum), only those that the storage is away from afterwards were changed into `l'`, and it is away from those as
well; it was within both before. -/
structure UnreachedStore (days V v : Rat) (l l' : Rat × Rat) : Prop where
  inside : (l.2 ≤ V ∧ V ≤ l.1) ∧ l'.2 ≤ V ∧ V ≤ l'.1
  size : ((l.1 - V) / days ≤ dblMax - 1 ∧ (V - l.2) / days ≤ dblMax - 1) ∧ (l'.1 - V) / days ≤ dblMax - 1 ∧ (V - l'.2) / days ≤ dblMax - 1
  lower : l'.2 = l.2 ∨ WellAbove days l.2 v ∧ WellAbove days l'.2 v
  upper : l'.1 = l.1 ∨ WellBelow days l.1 v ∧ WellBelow days l'.1 v

/-- Two timesteps with the same flows, of which the first starts at `m`, that differ only in limits of flows and volumes that are not reached. -/
structure UnreachedStep (N : Net) (m : Moment) (t t' : Done) : Prop where
  flow : t'.flow = t.flow
  cost : t'.values.cost = t.values.cost
  aggs : t'.values.aggs = t.values.aggs
  cross : t'.values.cross = t.values.cross
  days : t'.values.days = t.values.days ∧ 0 < t.values.days
  licences : t'.values.active = t.values.active ∧ t'.values.refill = t.values.refill ∧ t'.values.vlimits = t.values.vlimits
  flows : ∀ n ∈ N.nodes, N.kind n ≠ .other → Unreached (t.values.minFlow n) (t.values.maxFlow n) (t'.values.minFlow n) (t'.values.maxFlow n) (t.flow n)
  volumes : ∀ (i : Nat) (s : List Nat × List Nat), N.stores[i]? = some s →
    UnreachedStore t.values.days (m.stores i).volume ((m.stores i).volume + ((s.2.map t.flow).sum - (s.1.map t.flow).sum) * t.values.days) (t.values.limits i) (t'.values.limits i)

/-- Two histories from the same start that differ, timestep by timestep, only in limits that are not reached. -/
inductive UnreachedRun (N : Net) (start : Moment) : List Done → List Done → Prop
  | start : UnreachedRun N start [] []
  | step {h h' : List Done} {t t' : Done} (hr : UnreachedRun N start h h') (ht : UnreachedStep N (after N start h) t t') : UnreachedRun N start (h ++ [t]) (h' ++ [t'])

/-- In every timestep of the history the values are what the parameters say after the timesteps before. -/
def Says (params : List Done → Values) (h : List Done) : Prop := ∀ (h₁ : List Done) (t : Done) (h₂ : List Done), h = h₁ ++ t :: h₂ → t.values = params h₁

end Verif.Simulation

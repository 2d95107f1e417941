import Verif.Spec.Units
import Verif.Spec.Cut
import Verif.Spec.Simulation
/-! # Specification: runs in other units -/

namespace Verif.Simulation

open Verif Verif.Lp Verif.Bounds

/-- What the parameters say, with flows and volumes in units of which `k` make one of the old ones. -/
def Values.inUnits (k : Rat) (v : Values) : Values :=
  { v with
    minFlow := fun n => inUnit k (v.minFlow n)
    maxFlow := fun n => inUnit k (v.maxFlow n)
    limits := fun i => (k * (v.limits i).1, k * (v.limits i).2)
    vlimits := fun i => (k * (v.vlimits i).1, k * (v.vlimits i).2)
    refill := fun i => (v.refill i).map (k * ·)
    aggs := v.aggs.map fun a => { a with minFlow := inUnit k a.minFlow, maxFlow := inUnit k a.maxFlow } }

/-- A storage in the other units: volume and flows are converted, the fraction stays. -/
def stateIn (k : Rat) (s : Storage.State) : Storage.State := ⟨k * s.volume, k * s.flow, k * s.prevFlow, s.pc⟩

/-- All storages in the other units. -/
def Moment.inUnits (k : Rat) (m : Moment) : Moment := ⟨fun i => stateIn k (m.stores i), fun i => stateIn k (m.virtuals i)⟩

/-- A timestep in the other units. -/
def Done.inUnits (k : Rat) (t : Done) : Done := ⟨t.values.inUnits k, fun n => k * t.flow n⟩

/-- A timestep with costs in another currency. -/
def Values.inCurrency (k : Rat) (v : Values) : Values := { v with cost := fun n => k * v.cost n }

/-- A timestep with costs in another currency: the flows stay. -/
def Done.inCurrency (k : Rat) (t : Done) : Done := ⟨t.values.inCurrency k, t.flow⟩

/-- Zero, or at least 1e-6 in both units. -/
def PlainDifference (k q : Rat) : Prop := q = 0 ∨ Storage.e6 ≤ |q| ∧ Storage.e6 ≤ |k * q|

/-- A volume is at a limit or at least 1e-6 away from it, in both units; so are the limits from each other. -/
def PlainFill (k : Rat) (limits : Rat × Rat) (volume : Rat) : Prop :=
  PlainDifference k (volume - limits.1) ∧ PlainDifference k (volume - limits.2) ∧ PlainDifference k (limits.1 - limits.2)

/-- Nothing in the timestep is so small in one of the units that it is ignored: neither for the solver nor for the volumes to which it leads. -/
structure PlainStep (k : Rat) (N : Net) (m : Moment) (t : Done) : Prop where
  model : PlainModel k (N.data t.values m)
  stores : ∀ i s, N.stores[i]? = some s →
    PlainFill k (t.values.limits i) ((m.stores i).volume + ((s.2.map t.flow).sum - (s.1.map t.flow).sum) * t.values.days)
  virtuals : ∀ i s, N.virtuals[i]? = some s → t.values.active i = true →
    PlainFill k (t.values.vlimits i) ((m.virtual t.values i).volume - ((s.1.zip s.2).map fun p => p.2 * t.flow p.1).sum * t.values.days)

/-- This holds in every timestep of a run. -/
def PlainRun (k : Rat) (N : Net) (start : Moment) (h : List Done) : Prop :=
  ∀ (h' : List Done) (t : Done) (h'' : List Done), h = h' ++ t :: h'' → PlainStep k N (after N start h') t

/-- The runs of `answer` do not depend on the units: a run whose numbers are plain is, converted, a run of the converted model. -/
def UnitFree (answer : Net → Data → (Nat → Rat) → Prop) : Prop :=
  ∀ (k : Rat) (N : Net) (params params' : List Done → Values) (start : Moment) (h : List Done) (m : Moment),
    (∀ h, params' (h.map (Done.inUnits k)) = (params h).inUnits k) → PlainRun k N start h → Runs N (answer N) params start h m →
      Runs N (answer N) params' (start.inUnits k) (h.map (Done.inUnits k)) (m.inUnits k)

end Verif.Simulation

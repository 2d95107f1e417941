import Verif.Model.Simulation
/-! # Specification: runs cut in two -/

namespace Verif.Simulation

/-- The volumes of storages and virtual storages are the same; what else nodes remember (flows, the fraction) may differ. -/
structure SameVolumes (a b : Moment) : Prop where
  stores : ∀ i, (a.stores i).volume = (b.stores i).volume
  virtuals : ∀ i, (a.virtuals i).volume = (b.virtuals i).volume

/-- The moment a history leads to. -/
def after (N : Net) (start : Moment) (h : List Done) : Moment := h.foldl (fun m t => N.next t.values t.flow m) start

/-- Parameters that look at the number of the timestep and at the volumes, and remember nothing. -/
def memoryless (N : Net) (p : Nat → (Nat → Rat) → (Nat → Rat) → Values) (first : Nat) (start : Moment) (h : List Done) : Values :=
  p (first + h.length) (fun i => ((after N start h).stores i).volume) (fun i => ((after N start h).virtuals i).volume)

end Verif.Simulation

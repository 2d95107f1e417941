import Verif.Model.Memory
/-!
# Recorded levels, areas, costs and threshold states

Models the properties `level` and `area` of a storage (`/repo/pywr/_core.pyx:1240-1280`), the recorders of volume, level and area
(`/repo/pywr/recorders/_recorders.pyx:1106-1184, 1305-1358`) and of the unit cost (`:783-811`), the threshold recorders (`/repo/pywr/recorders/_thresholds.pyx:20-122`), the
thresholds on the date (`/repo/pywr/parameters/_thresholds.pyx:362-389`) and `DiscountFactorParameter` (`/repo/pywr/parameters/_parameters.pyx:2165-2188`).

A row of an array over scenario combinations is a function of the combination (`Memory.Vec`). A parameter is what its `calc_values` computes: a function of the timestep, the
combination and the volume of the storage at that moment; its values are stored until the next timestep (`/repo/pywr/parameters/_parameters.pyx:70-85`).
-/

namespace Verif.Levels

open Verif.Memory

/-- `_level` and `_level_param` (also `_area`, `_area_param`; `_cost`, `_cost_param`). -/
structure Attr where
  fixed : Rat
  param : Option (Nat → Nat → Rat → Rat)

/-- What is assigned to the property. -/
inductive Given
  | nothing
  | number (x : Rat)
  | param (f : Nat → Nat → Rat → Rat)

/-- The setter (`_core.pyx:1246-1254, 1267-1275`). -/
def Attr.set (a : Attr) : Given → Attr
  | .nothing => ⟨0, none⟩
  | .param f => ⟨a.fixed, some f⟩
  | .number x => ⟨x, none⟩

/-- `get_level`, `get_area`, `get_cost` (`_core.pyx:1256-1259, 1277-1280`); `values` is what the parameter has stored. -/
def Attr.get (a : Attr) (values : Vec) : Vec :=
  match a.param with
  | none => fun _ => a.fixed
  | some _ => values

/-- A storage with a recorder of its volume and a recorder of its level (or area, or cost). -/
structure State where
  volume : Vec
  values : Vec
  volumes : List Vec
  readings : List Vec
  /-- What the solver and the other parameters got in the timestep (not part of the code's state; for the statements). -/
  seen : Vec

/-- `setup` and `reset` of the recorders (`_recorders.pyx:1119-1125`) and the initial volume. -/
def State.start (n : Nat) (initial : Vec) (stored : Vec) : State :=
  ⟨initial, stored, List.replicate n fun _ => 0, List.replicate n fun _ => 0, fun _ => 0⟩

/-- One timestep: the parameter is evaluated, the solver runs, `Storage.after` sets the volume to `new`, then the recorders' `after` write row `t`. -/
def State.step (a : Attr) (s : State) (t : Nat) (new : Vec) : State :=
  let values := match a.param with
    | none => s.values
    | some f => fun sc => f t sc (s.volume sc)
  let seen := a.get values
  { volume := new, values := values, volumes := s.volumes.set t new, readings := s.readings.set t (a.get values), seen := seen }

/-- Timesteps `t`, `t + 1`, …, with the volumes the storage has after each. -/
def State.run (a : Attr) : State → Nat → List Vec → State
  | s, _, [] => s
  | s, t, v :: vs => State.run a (s.step a t v) (t + 1) vs

/-! ## Threshold recorders -/

/-- `reset` (`recorders/_thresholds.pyx:67-68, 110-111`). -/
def thresholdState0 : Nat → Int := fun _ => 0

/-- `after` (`:73-80, 116-122`), with the volume or flow after the timestep. -/
def thresholdAfter (p : Predicate) (threshold : Rat) (x : Vec) : Nat → Int :=
  fun sc => if compare p (some (x sc)) (some threshold) then 1 else 0

/-- `_state` after the timesteps. -/
def thresholdStates (p : Predicate) (threshold : Rat) (xs : List Vec) : Nat → Int :=
  xs.foldl (fun _ x => thresholdAfter p threshold x) thresholdState0

/-- What `StorageThresholdParameter` compares in each timestep (`parameters/_thresholds.pyx:147-148`): the volume the storage has then. Likewise `NodeThresholdParameter` compares the
previous flow (`:171-172`), the flow at the end of the timestep before (C19). -/
def storageObserved (threshold : Rat) : Vec → List Vec → List Observation
  | _, [] => []
  | v, w :: ws => ⟨fun sc => some (v sc), fun _ => some threshold⟩ :: storageObserved threshold w ws

/-- What `RecorderThresholdParameter` compares in timestep `t` (`:329-331`): row `t - 1` of the recorder's data, which is then what the timesteps before have written. In the first
timestep nothing is compared. -/
def recorderObserved (a : Attr) (threshold : Rat) (s : State) (vols : List Vec) : List Observation :=
  (List.range vols.length).map fun t => ⟨fun sc => ((State.run a s 0 (vols.take t)).volumes[t - 1]?).map fun row => row sc, fun _ => some threshold⟩

/-- What the thresholds on the year or the ordinal day compare (`:365-366, 380-381`): the same number in all combinations. -/
def dateObserved (threshold : Rat) (xs : List Int) : List Observation := xs.map fun x : Int => ⟨fun _ => some (x : Rat), fun _ => some threshold⟩

/-! ## DiscountFactorParameter -/

/-- `value` (`_parameters.pyx:2182-2183`). -/
def discount (rate : Rat) (base year : Int) : Rat := 1 / (1 + rate) ^ (year - base)

end Verif.Levels

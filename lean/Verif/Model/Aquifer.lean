import Verif.Model.Interpolation
/-!
# Keating aquifers

Models `KeatingAquifer` (`/repo/pywr/domains/groundwater.py:9-127`) and `KeatingStreamFlowParameter` (`/repo/pywr/parameters/groundwater.py:7-61`).  The creation of the nodes is
part of `Model/Network.lean`, the storage itself of `Model/Storage.lean`.  The numbers of streams and additional inputs are natural numbers; `0.001` is the exact fraction.
-/

namespace Verif.Groundwater

open Verif.Interpolation

/-- Exceptions. -/
inductive Err
  | valueError
  | typeError
deriving DecidableEq, Inhabited

/-- The arguments of the constructor; `none`: not a number (`coefficient`, `area`), or left out (`volumes`, `storativity`). -/
structure Args where
  streams : Nat
  streamLevels : List (List Rat)
  transmissivity : List Rat
  coefficient : Option Rat
  levels : List Rat
  volumes : Option (List Rat)
  area : Option Rat
  storativity : Option (List Rat)

/-- `heights` (`groundwater.py:84`). -/
def heights (levels : List Rat) : List Rat := List.zipWith (fun a b => b - a) levels levels.tail

/-- `volumes = [0.0]` and the loop `volumes.append(volumes[-1] + area * s * h * 0.001)` (`:85-87`); `last` is `volumes[-1]`. -/
def volumeLoop (area : Rat) : Rat → List (Rat × Rat) → List Rat
  | last, [] => [last]
  | last, (s, h) :: rest => last :: volumeLoop area (last + area * s * h * (1 / 1000)) rest

/-- The volumes (`:79-91`). -/
def volumesOf (a : Args) : Except Err (List Rat) :=
  match a.volumes with
  | none =>
    match a.area with
    | none => .error .valueError
    | some area =>
      match a.storativity with
      | none => .error .typeError
      | some st => if st.length + 1 ≠ a.levels.length then .error .valueError else .ok (volumeLoop area 0 (st.zip (heights a.levels)))
  | some v => if v.length ≠ a.levels.length then .error .valueError else .ok v

/-- An aquifer: `_levels`, `_volumes`, the volume limits, and for each stream the levels, transmissivities and the coefficient of its parameter. -/
structure Aquifer where
  levels : List Rat
  volumes : List Rat
  maxVolume : Rat
  minVolume : Rat
  streams : List (List (Rat × Rat))
  coefficient : Rat

/-- `KeatingAquifer.__init__` (`:63-113`).  `max` and `min` of no volumes are a `ValueError`. -/
def make (a : Args) : Except Err Aquifer :=
  if a.streams = 0 then .error .valueError
  else if a.streamLevels.length ≠ a.streams then .error .valueError
  else if a.streamLevels.any (fun l => l.length ≠ a.transmissivity.length) then .error .valueError
  else match a.coefficient with
    | none => .error .valueError
    | some c =>
      match volumesOf a with
      | .error e => .error e
      | .ok vs =>
        match vs with
        | [] => .error .valueError
        | v :: rest => .ok ⟨a.levels, vs, rest.foldl max v, rest.foldl min v, a.streamLevels.map fun l => l.zip a.transmissivity, c⟩

/-- The level parameter at a volume: `InterpolatedVolumeParameter(model, self, volumes, levels)` (`:105`). -/
def Aquifer.level (a : Aquifer) (volume : Rat) : Option Rat := value a.volumes a.levels volume

/-- The loop of `KeatingStreamFlowParameter.value` (`parameters/groundwater.py:54-61`) over the levels with their transmissivities; `q` is `Q`. -/
def streamLoop (c level : Rat) : Rat → List (Rat × Rat) → Rat
  | q, [] => q
  | q, (l, t) :: rest => streamLoop c level (if level > l then q + 2 * t * c * (level - l) else q) rest

/-- `KeatingStreamFlowParameter.value` (`:45-61`) for the stream `n` when the store has the given volume; `none` when the level cannot be interpolated. -/
def Aquifer.stream (a : Aquifer) (n : Nat) (volume : Rat) : Option Rat :=
  (a.level volume).bind fun level => (a.streams[n]?).map fun s => streamLoop a.coefficient level 0 s

/-- Assigning `initial_level` (`groundwater.py:120-123`): the new `initial_volume`.  `_level_to_volume` is `interp1d(levels, volumes)`, which raises for arguments outside the levels. -/
def Aquifer.setInitialLevel (a : Aquifer) (level : Rat) : Except Err Rat :=
  match value a.levels a.volumes level with
  | some v => .ok v
  | none => .error .valueError

/-- Reading `initial_level` (`groundwater.py:116-118`).  `level.interp` is `None` until the parameter has been set up (`parameters.py:129, 152`); an initial volume that is not given is NaN, and so
is its level (`some none`). -/
def Aquifer.initialLevel (a : Aquifer) (isSetup : Bool) (initialVolume : Option Rat) : Except Err (Option Rat) :=
  if isSetup then
    match initialVolume with
    | none => .ok none
    | some v => match a.level v with
      | some l => .ok (some l)
      | none => .error .valueError
  else .error .typeError

end Verif.Groundwater

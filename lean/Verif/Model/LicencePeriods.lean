import Verif.Model.VirtualStorage
/-!
# Licences with a volume for a year, a season or some months

Models a whole timestep of an annual, seasonal or monthly virtual storage: `Model.before` (`/repo/pywr/_model.pyx:829-851`), which calls `before` of the nodes first and computes the values of the
parameters afterwards, so that a maximum volume that is a parameter still has the value of the timestep before when the volume is replenished; the solve, of which the row of the virtual storage is
considered (`vRow` of `Model/VirtualStorage.lean`); and `after`.  One scenario.
-/

namespace Verif.VirtualStorage

open Verif Verif.Bounds

/-- When a licence is replenished, with the state kept for it: the three classes (`nodes.py:596-758`). -/
inductive Clock
  | annual (c : AnnualCfg) (s : Annual)
  | seasonal (c : SeasonalCfg) (s : Seasonal)
  | monthly (months : Int) (toInitial : Bool) (s : Monthly)

/-- `before` of the three classes: the new state and what is done to the volume (`nodes.py:630-656, 694-719, 748-757`). -/
def Clock.tick (t : Stamp) : Clock → Clock × Action
  | .annual c s => (.annual c (s.before c t).1, (s.before c t).2)
  | .seasonal c s => (.seasonal c (s.before c t), (s.annual.before c.toAnnualCfg t).2)
  | .monthly m u s => (.monthly m u (s.before m t.month).1, if (s.before m t.month).2 = true then .reset u else .none)

/-- `active`; a monthly node never changes it. -/
def Clock.active : Clock → Bool
  | .annual _ s => s.active
  | .seasonal _ s => s.annual.active
  | .monthly _ _ _ => true

/-- What `reset` at the beginning of a run makes of the clock (`nodes.py:626-628, 743-746`); the seasonal class keeps `_last_active_year`. -/
def Clock.reset (initialMonths : Int) : Clock → Clock
  | .annual c _ => .annual c Annual.init
  | .seasonal c s => .seasonal c s.reset
  | .monthly m u _ => .monthly m u (Monthly.init initialMonths)

/-- The node; `held` is what the array of values of the parameter `max_volume` contains. -/
structure Node where
  clock : Clock
  store : Storage.State
  held : Rat

/-- One timestep: its date and length, the values `max_volume` and `min_volume` have in it, and the flows. -/
structure Day where
  stamp : Stamp
  days : Rat
  mx : Rat
  mn : Rat
  uses : List Use

/-- `max_volume` in this timestep, once the parameters are computed. -/
def maxNow (i : Storage.Initial) (d : Day) : Rat :=
  match i.mx with
  | .number m => m
  | .constantParam m => m
  | .varyingParam => d.mx

/-- `mxv` in `_reset_storage_only` (`_core.pyx:1304-1318`): the number, or what is in the array of the parameter. -/
def Node.heldMax (i : Storage.Initial) (n : Node) : Rat :=
  match i.mx with
  | .number m => m
  | _ => n.held

/-- `Model.reset` (`_core.pyx:1289-1292, 1464-1466`, `nodes.py:626-628, 743-746`). -/
def Node.reset (i : Storage.Initial) (initialMonths : Int) (n : Node) : Except Storage.Err Node :=
  match Storage.reset i n.store with
  | .ok st => .ok { n with clock := n.clock.reset initialMonths, store := st }
  | .error e => .error e

/-- `before`: the flow is cleared (`_core.pyx:475-479`) and the volume replenished if it is time. -/
def Node.before (i : Storage.Initial) (n : Node) (t : Stamp) : Except Storage.Err Node :=
  match (n.clock.tick t).2 with
  | .none => .ok { n with clock := (n.clock.tick t).1, store := n.store.before }
  | .reset u =>
    match Storage.resetStorageOnly i u (n.heldMax i) n.store.before with
    | .ok st => .ok { n with clock := (n.clock.tick t).1, store := st }
    | .error e => .error e

/-- The values of the parameters are computed, the flows are there, `after` (`_core.pyx:1483-1493`). -/
def Node.after (i : Storage.Initial) (n : Node) (d : Day) : Node :=
  { n with
    store := (VState.after ⟨n.store, n.clock.active⟩ d.uses d.days (maxNow i d) d.mn none).store
    held := maxNow i d }

end Verif.VirtualStorage

import Verif.Model.Storage
/-!
# Aggregated storages at the start of a run

Models `AggregatedStorage.reset` (`/repo/pywr/_core.pyx:1379-1399`) for one combination of scenarios, in successive runs of a model: `Model.setup` and `Model.reset` (`/repo/pywr/_model.pyx:684-815`)
reset the nodes before any parameter is evaluated, `Parameter.setup` allocates the array of values without filling it (`/repo/pywr/parameters/_parameters.pyx:58-65`), and nothing but
`calc_values` writes to it (`:70-75`; `:158-160` for constants).
-/

namespace Verif.AggregatedStart

open Verif.Storage

/-- A storage of the aggregated storage: its initial volume and maximum, and the values of the parameter of its maximum in the timesteps of a run (not used for a number). -/
structure Member where
  initial : Initial
  values : Nat → Rat

/-- `get_max_volume` (`_core.pyx:1225-1228`) when the array of the parameter holds `held`, also for constant parameters. -/
def maxNow (m : Member) (held : Rat) : Rat :=
  match m.initial.mx with
  | .number v => v
  | _ => held

/-- The values of the parameters when a member is evaluated: a constant parameter always has its value. -/
def Member.value (m : Member) (k : Nat) : Rat :=
  match m.initial.mx with
  | .constantParam v => v
  | _ => m.values k

/-- `initial_volume` (`:1379-1382`): the sum; a member without an initial volume raises. -/
def initialVolume : List Member → Except Err Rat
  | [] => .ok 0
  | m :: ms =>
    match getInitialVolume m.initial, initialVolume ms with
    | .ok v, .ok s => .ok (v + s)
    | _, _ => .error .runtimeError

/-- `reset` (`:1384-1399`): volume and fraction (`none` is NaN); `held` is what the arrays of the parameters hold, by the place of the member. -/
def reset (ms : List Member) (held : Nat → Rat) : Except Err (Rat × Option Rat) :=
  match initialVolume ms with
  | .error e => .error e
  | .ok v => .ok (v, fraction v ((ms.zipIdx.map fun p => maxNow p.1 (held p.2)).sum))

/-- What the arrays hold when run number `j` of `n + 1` timesteps begins: what was in the memory, or the values in the last timestep of the previous run. -/
def held (ms : List Member) (junk : Nat → Rat) (n : Nat) : Nat → Nat → Rat
  | 0, i => junk i
  | _ + 1, i => ((ms[i]?).map fun m => m.value n).getD 0

/-- Volume and fraction at the start of run number `j`. -/
def start (ms : List Member) (junk : Nat → Rat) (n j : Nat) : Except Err (Rat × Option Rat) := reset ms (held ms junk n j)

end Verif.AggregatedStart

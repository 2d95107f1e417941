import Verif.Model.Events
/-!
# Event durations and statistics

Models `/repo/pywr/recorders/events.py:209-361` (`EventDurationRecorder`, `EventStatisticRecorder`): their `finish`, which
runs after the `finish` of the event recorder they depend on (a component is finished after those it depends on, see C01
and C50). Aggregation functions are arbitrary functions of the list of values. `none` stands for NaN.
-/

namespace Verif.Events

/-- Nanoseconds per day. -/
def nsPerDay : Int := 86400000000000

/-- `(df["end"] - df["start"]).dt.days` (`events.py:257-260`): whole days between the starts of the two timesteps;
`date k` is the start of timestep `k` in nanoseconds. -/
def days (date : Nat → Int) (e : Event) : Int := (date e.stop - date e.start) / nsPerDay

/-- `df.groupby("scenario_id")`: for every scenario id that occurs, ascending, its values in order. -/
def groupby {V : Type} (rows : List (Nat × V)) : List (Nat × List V) :=
  ((List.range ((rows.map Prod.fst).foldl max 0 + 1)).filter fun i => i ∈ rows.map Prod.fst).map fun i =>
    (i, (rows.filter fun r => r.1 = i).map Prod.snd)

/-- The end of both `finish` methods (`:264-268`, `:349-353`): aggregate every group and store it in the entry of its
scenario; an id beyond the array raises. `values` starts as NaN everywhere (`reset`, `:243-244`, `:252`, `:327-328`). -/
def aggregate {V : Type} (agg : List V → Option Rat) (ncomb : Nat) (rows : List (Nat × V)) : Option (List (Option Rat)) :=
  (groupby rows).foldl (fun acc g => acc.bind fun vs => if g.1 < vs.length then some (vs.set g.1 (agg g.2)) else none)
    (some (List.replicate ncomb none))

/-- `EventDurationRecorder.finish`, `:249-268`, on the events of the event recorder. -/
def eventDuration (date : Nat → Int) (agg : List Int → Option Rat) (ncomb : Nat) (events : List Event) :
    Option (List (Option Rat)) :=
  aggregate agg ncomb (events.map fun e => (e.scenario, days date e))

/-- `EventStatisticRecorder.finish`, `:333-353`. -/
def eventStatistic (eventAgg : List Rat → Rat) (agg : List Rat → Option Rat) (ncomb : Nat) (events : List Event) :
    Option (List (Option Rat)) :=
  aggregate agg ncomb (events.map fun e => (e.scenario, eventAgg e.values))

end Verif.Events

import Verif.Model.Recorders
import Mathlib.Data.Rat.Floor
/-!
# Event recorder

Models `/repo/pywr/recorders/events.py:6-159` (`Event`, `EventRecorder`).

Timesteps are represented by their index. The recorder observes, for every scenario combination, whether the threshold
triggers and the value of the tracked parameter (any value, if there is none).
-/

namespace Verif.Events

open Verif.Run

/-- What the threshold is (`events.py:89-98`): an index parameter, whose indices are used as they are, or a parameter or
recorder, whose values are converted to integers. -/
inductive Trigger
  | index (i : Int)
  | value (x : Rat)

/-- C conversion of a double to an integer (`np.array(..., dtype=int)`): truncation towards zero. -/
def truncate (x : Rat) : Int := if 0 ≤ x then x.floor else -((-x).floor)

/-- `if triggered`, `:102-108,132`. -/
def Trigger.on : Trigger → Bool
  | .index i => decide (i ≠ 0)
  | .value x => decide (truncate x ≠ 0)

/-- `Event`, `:6-18`; `stop` is `end`. Not modelled: the conversion of `values` to an array and the `None` of events without
tracked parameter. -/
structure Event where
  scenario : Nat
  start : Nat
  stop : Nat
  values : List Rat
deriving DecidableEq, Repr

/-- The recorder's state: `events` and `_current_events` (start and values so far of the event in progress in each
combination). -/
structure State where
  events : List Event
  current : List (Option (Nat × List Rat))

/-- The body of the loop over the combinations, `:100-147`: the new entry of `_current_events` and the events appended. -/
def one (minLength ts si : Nat) (triggered : Bool) (value : Rat) (current : Option (Nat × List Rat)) :
    Option (Nat × List Rat) × List Event :=
  match current, triggered with
  | some (s, vs), true => (some (s, vs ++ [value]), [])
  | some (s, vs), false => (none, if ts - s ≥ minLength then [⟨si, s, ts, vs⟩] else [])
  | none, true => (some (ts, [value]), [])
  | none, false => (none, [])

/-- The loop over the combinations from number `si` on. -/
def loop (minLength ts : Nat) : Nat → List (Option (Nat × List Rat)) → List (Bool × Rat) →
    List (Option (Nat × List Rat)) × List Event
  | si, c :: cs, o :: os =>
    let x := one minLength ts si o.1 o.2 c
    let y := loop minLength ts (si + 1) cs os
    (x.1 :: y.1, x.2 ++ y.2)
  | _, _, _ => ([], [])

/-- The loop of `finish` over the combinations, `:149-159`: the events appended, ending at timestep `ts`. -/
def unfinished (ts : Nat) : Nat → List (Option (Nat × List Rat)) → List Event
  | _, [] => []
  | si, none :: cs => unfinished ts (si + 1) cs
  | si, some (s, vs) :: cs => ⟨si, s, ts, vs⟩ :: unfinished ts (si + 1) cs

/-- `EventRecorder`: `reset` `:78-81`, `after` `:83-147`, `finish` `:149-159`. -/
def eventRecorder (minLength ncomb : Nat) : Rec State (List (Bool × Rat)) where
  init := ⟨[], List.replicate ncomb none⟩
  after k o s :=
    let x := loop minLength k 0 s.current o
    some ⟨s.events ++ x.2, x.1⟩
  finish cur s := some ⟨s.events ++ unfinished (cur.getD 0) 0 s.current, s.current.map fun _ => none⟩

end Verif.Events

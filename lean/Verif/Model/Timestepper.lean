import Mathlib.Algebra.Order.Field.Rat
/-!
# Timestepper

Models `/repo/pywr/timestepper.py:10-162` (`Timestepper`).

Instants are nanosecond integers (pandas `Timestamp.value`).  A pandas `Period` is reduced to its first and last
nanosecond.  `pandas.period_range` and the addition of an offset to a period are parameters (`Pandas`): the theorems hold
for whatever calendar pandas implements.
-/

namespace Verif.Timestepper

/-- `Period.start_time.value` and `Period.end_time.value` (pandas: the last nanosecond inside the period). -/
structure Period where
  start : Int
  last : Int
deriving Repr, DecidableEq

/-- What is used of pandas: `period_range(start, end, freq)` and `period + offset(freq)`. -/
structure Pandas (Freq : Type) where
  periodRange : Int → Int → Freq → List Period
  shift : Freq → Period → Period

/-- `np.round(delta.total_seconds())` of a nanosecond difference, in whole seconds (ties are irrelevant here: pandas
periods end one nanosecond before a whole second). -/
def roundSeconds (ns : Int) : Int := (ns + 500000000) / 1000000000

/-- Length in seconds of a period as computed in `setup` (`timestepper.py:41-45`) and `next` (`:100-102`). The model keeps
seconds; `days = seconds / 86400`. -/
def Period.seconds (p : Period) : Int := roundSeconds (p.last - p.start)

/-- `_core.Timestep(period, index, days)`, with the check `days > 0` (`/repo/pywr/_core.pyx:276-281`). -/
structure Timestep where
  period : Period
  index : Nat
  seconds : Int
deriving Repr, DecidableEq

/-- Exceptions. -/
inductive Err
  | valueError
  | indexError
  | stopIteration
deriving Repr, DecidableEq

/-- `Timestep.__init__`. -/
def mkTimestep (p : Period) (i : Nat) (s : Int) : Except Err Timestep :=
  if s ≤ 0 then .error .valueError else .ok ⟨p, i, s⟩

/-- State of a `Timestepper`. `_deltas` is `periods.map seconds` (always recomputed together with `_periods`). -/
structure State (Freq : Type) where
  start : Int
  stop : Int
  freq : Freq
  periods : List Period
  current : Option Timestep
  next : Option Timestep
  lastLength : Option Nat
  dirty : Bool

variable {Freq : Type}

/-- The search loop of `reset`, `timestepper.py:65-74`: first period with `start_time <= t < end_time`. -/
def findPeriod (t : Int) : List Period → Nat → Option Nat
  | [], _ => none
  | p :: ps, i => if p.start ≤ t ∧ t < p.last then some i else findPeriod t ps (i + 1)

/-- The index chosen by `reset`, `timestepper.py:61-74` (`none`: no period found). -/
def startIndex (periods : List Period) : Option Int → Option Nat
  | none => some 0
  | some t => findPeriod t periods 0

/-- `reset(start=None)`, `timestepper.py:52-79`.  An exception leaves the attributes assigned so far changed
(`_current = None`), which is returned as the second component. -/
def State.reset (s : State Freq) (t : Option Int) : Except Err Bool × State Freq :=
  let s1 := { s with current := none }
  match startIndex s.periods t with
  | none => (.error .valueError, s1)
  | some i =>
    match s.periods[i]? with
    | none => (.error .indexError, s1)
    | some p =>
      match mkTimestep p i p.seconds with
      | .error e => (.error e, s1)
      | .ok ts =>
        (.ok (s.lastLength ≠ some s.periods.length),
          { s1 with next := some ts, lastLength := some s.periods.length })

/-- `next`, `timestepper.py:86-110`.  (`_next` is `None` only before the constructor's first `reset`.) -/
def State.nextStep (pd : Pandas Freq) (s : State Freq) : Except Err Timestep × State Freq :=
  match s.next with
  | none => (.error .indexError, s)
  | some cur =>
    let s1 := { s with current := some cur }
    if cur.index ≥ s.periods.length then (.error .stopIteration, s1)
    else
      let ni := cur.index + 1
      let mk :=
        if ni ≥ s.periods.length then
          let fp := pd.shift s.freq cur.period
          mkTimestep fp ni fp.seconds
        else match s.periods[ni]? with
          | none => .error .indexError
          | some p => mkTimestep p ni p.seconds
      match mk with
      | .error e => (.error e, s1)
      | .ok ts => (.ok cur, { s1 with next := some ts })

/-- `setup`, `timestepper.py:38-50`. -/
def State.setup (pd : Pandas Freq) (s : State Freq) : Except Err Unit × State Freq :=
  let s1 := { s with periods := pd.periodRange s.start s.stop s.freq }
  match s1.reset none with
  | (.error e, s2) => (.error e, s2)
  | (.ok _, s2) => (.ok (), { s2 with dirty := false })

/-- Calls a user (or the model) can make. -/
inductive Op (Freq : Type)
  | next
  | reset (t : Option Int)
  | setup
  | setStart (t : Int)
  | setEnd (t : Int)
  | setDelta (f : Freq)

/-- Effect of one call on the state; setters mark the stepper dirty (`timestepper.py:112-152`). -/
def State.step (pd : Pandas Freq) (s : State Freq) : Op Freq → State Freq
  | .next => (s.nextStep pd).2
  | .reset t => (s.reset t).2
  | .setup => (s.setup pd).2
  | .setStart t => { s with start := t, dirty := true }
  | .setEnd t => { s with stop := t, dirty := true }
  | .setDelta f => { s with freq := f, dirty := true }

/-- Any history of calls. -/
def State.run (pd : Pandas Freq) (s : State Freq) (ops : List (Op Freq)) : State Freq :=
  ops.foldl (State.step pd) s

/-- Call `next` `n` times, collecting the results. -/
def State.nexts (pd : Pandas Freq) (s : State Freq) : Nat → List (Except Err Timestep) × State Freq
  | 0 => ([], s)
  | n + 1 =>
    let r := s.nextStep pd
    let rest := r.2.nexts pd n
    (r.1 :: rest.1, rest.2)

end Verif.Timestepper

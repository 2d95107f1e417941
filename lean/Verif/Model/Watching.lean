import Mathlib.Algebra.Order.Field.Rat
/-!
# Recorders that watch a run

Models `AssertionRecorder` (`/repo/pywr/recorders/recorders.py:37-110`), `ProgressRecorder` and `JupyterProgressRecorder` (`/repo/pywr/recorders/progress.py:8-94`).  Numbers are rational and `none` is NaN;
infinite values are left out.  Times are given from outside.
-/

namespace Verif.Watching

/-! ## Assertions -/

/-- What can go wrong in `after`: the assertion; a table that is too small; no expectation given at all (`expected_value` is not bound, `recorders.py:79-91`). -/
inductive Err
  | assertion (timestep scenario : Nat)
  | index
  | unbound
deriving DecidableEq, Repr

/-- The expectation: `expected_func` takes precedence over `expected_data` (`recorders.py:79-84`). -/
structure Expected where
  func : Option (Nat → Nat → Option Rat)
  data : Option (List (List (Option Rat)))

/-- The expected value (`recorders.py:79-84`). -/
def Expected.value (e : Expected) (t s : Nat) : Except Err (Option Rat) :=
  match e.func, e.data with
  | some f, _ => .ok (f t s)
  | none, some rows =>
    match rows[t]? with
    | none => .error .index
    | some row =>
      match row[s]? with
      | none => .error .index
      | some x => .ok x
  | none, none => .error .unbound

/-- `np.testing.assert_allclose(actual, desired)` with its defaults: a relative tolerance of 1e-7 of the desired value, no absolute one, and NaN is equal to NaN. -/
def allclose : Option Rat → Option Rat → Bool
  | none, none => true
  | some a, some d => decide (|a - d| ≤ 1 / 10000000 * |d|)
  | _, _ => false

/-- The loop over the scenarios in `after` (`recorders.py:78-101`): `values t s` is what `get_value` or `get_index` gives. -/
def checkScenarios (e : Expected) (values : Nat → Nat → Option Rat) (t : Nat) : List Nat → Except Err Unit
  | [] => .ok ()
  | s :: ss =>
    match e.value t s with
    | .error x => .error x
    | .ok expected => if allclose (values t s) expected then checkScenarios e values t ss else .error (.assertion t s)

/-- The state: the count of the calls. -/
structure Asserting where
  count : Nat
deriving DecidableEq, Repr

/-- `setup` (`recorders.py:71-73`). -/
def Asserting.setup : Asserting := ⟨0⟩

/-- `after` (`recorders.py:75-101`). -/
def Asserting.after (a : Asserting) (e : Expected) (values : Nat → Nat → Option Rat) (scenarios t : Nat) : Except Err Unit × Asserting :=
  (checkScenarios e values t (List.range scenarios), ⟨a.count + 1⟩)

/-- `sys.exc_info()`: type, value and traceback of the exception that is being handled, or three times `None`. -/
def excInfo (e : Option Err) : List (Option Err) := [e, e, e]

/-- `finish` (`recorders.py:103-110`).  A tuple is true if it is not empty.  The result: `false` for the exception of the last line. -/
def Asserting.finish (a : Asserting) (e : Option Err) : Bool :=
  if !(excInfo e).isEmpty then true else if a.count = 0 then false else true

/-- The timesteps of a run (`_model.pyx:649-651`) as far as the recorder is concerned: the first exception ends it. -/
def assertSteps (e : Expected) (values : Nat → Nat → Option Rat) (scenarios : Nat) : Asserting → List Nat → Except Err Unit × Asserting
  | a, [] => (.ok (), a)
  | a, t :: ts =>
    match a.after e values scenarios t with
    | (.error x, a') => (.error x, a')
    | (.ok (), a') => assertSteps e values scenarios a' ts

/-! ## Progress -/

/-- The state of the recorder (`progress.py:24-27`); the message is the percentage with, if it is at least one, the number of simulated steps (timesteps times scenarios) that have been counted and the time they took. -/
structure Progress where
  lastProgress : Int
  lastTimestep : Nat
  t0 : Rat
deriving DecidableEq, Repr

/-- One message (`progress.py:57-63`): the percentage and what the speed is computed from. -/
structure Message where
  percent : Int
  speed : Option (Int × Rat)
deriving DecidableEq, Repr

/-- `reset` (`progress.py:29-33`). -/
def Progress.reset (now : Rat) : Progress := ⟨-1, 0, now⟩

/-- `after` (`progress.py:35-55`) for timestep `t` of `total`, with `combinations` scenarios at the time `now`.  Simplified: the percentage is computed without rounding, and the clock is read once.  The speed is the quotient
of the two numbers of the message, or infinite if no time has passed. -/
def Progress.after (p : Progress) (total combinations t : Nat) (now : Rat) : Option Message × Progress :=
  let progress : Int := (((t : Rat) + 1) / total * 100).floor
  if progress > p.lastProgress then
    if progress ≥ 1 then (some ⟨progress, some (((t : Int) - p.lastTimestep) * combinations, now - p.t0)⟩, ⟨progress, t, now⟩)
    else (some ⟨progress, none⟩, ⟨progress, t, now⟩)
  else (none, p)

/-- The messages of the first `k` timesteps of a run, and the state after them. -/
def progressSteps (total combinations : Nat) (clock : Nat → Rat) : Nat → List Message × Progress
  | 0 => ([], Progress.reset (clock 0))
  | k + 1 =>
    match progressSteps total combinations clock k with
    | (ms, p) =>
      match p.after total combinations k (clock (k + 1)) with
      | (none, p') => (ms, p')
      | (some m, p') => (ms ++ [m], p')

/-- The value of the bar of `JupyterProgressRecorder` (`progress.py:77, 82-83`). -/
def bar (ms : List Message) : Int := (ms.getLast?.map Message.percent).getD 0

/-- The colour of the bar at the end (`progress.py:89-94`): `true` for success. -/
def barSuccess (ms : List Message) : Bool := decide (bar ms ≥ 100)

end Verif.Watching

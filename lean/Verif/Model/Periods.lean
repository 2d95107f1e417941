import Verif.Model.Timestepper
/-!
# Periods of the timestepper

Models how `Timestepper` gets its periods from start, end and timestep: `freq` (`/repo/pywr/timestepper.py:154-163`), `offset` (`:165-167`), `datetime_index` (`:176-182`) and the constructor (`:11-22`), with what they ask of pandas:
`period_range(start, end, freq)` and `period + offset`.

A frequency of pandas is a base (second, minute, hour, day, month, ...) and a multiple.  A base divides time into numbered units (`ordinal`): the period with ordinal `o` and multiple `n` lasts from the beginning of unit `o` to the last
nanosecond before unit `o + n`; `period_range` takes every `n`-th ordinal from the one that contains `start` to the one that contains `end` (`numpy.arange(start.ordinal, end.ordinal + 1, n)`).  A multiple that is not positive is a `ValueError` of
pandas ("Frequency must be positive").  Texts are taken as parsed; business days and frequencies pandas does not know are not modelled.
-/

namespace Verif.Timestepper

/-- A base: where unit `o` begins, and the unit an instant is in. -/
structure Units where
  begins : Int → Int
  ordinal : Int → Int

/-- Bases of a fixed length (in nanoseconds), counted from 1970. -/
def Units.tick (length : Int) : Units := ⟨fun o => o * length, fun t => t / length⟩

/-- One of the bases pandas has; days are what numbers mean. -/
inductive Base
  | second
  | minute
  | hour
  | day
  | month
  | year
deriving DecidableEq

/-- A frequency: a base and a multiple. -/
structure Freq where
  base : Base
  n : Nat

/-- The period with ordinal `o` (pandas `Period.start_time`, `Period.end_time`). -/
def Units.period (u : Units) (n : Nat) (o : Int) : Period := ⟨u.begins o, u.begins (o + n) - 1⟩

/-- pandas, for bases given by `cal`. -/
def pandas (cal : Base → Units) : Pandas Freq where
  periodRange a b f :=
    let u := cal f.base
    (List.range ((u.ordinal b - u.ordinal a) / f.n + 1).toNat).map fun (i : Nat) => u.period f.n (u.ordinal a + i * f.n)
  shift f p := (cal f.base).period f.n ((cal f.base).ordinal p.start + f.n)

/-- What a user gives as `timestep`: an `int`, a `datetime.timedelta` (its whole days and the nanoseconds that remain) or a text. -/
inductive Delta
  | int (n : Int)
  | timedelta (days : Int) (rest : Nat)
  | text (base : Base) (n : Int)

/-- `freq`, as pandas understands it. -/
def Delta.freq : Delta → Except Err Freq
  | .int n => if n ≤ 0 then .error .valueError else .ok ⟨.day, n.toNat⟩
  | .timedelta days _ => if days ≤ 0 then .error .valueError else .ok ⟨.day, days.toNat⟩
  | .text b n => if n ≤ 0 then .error .valueError else .ok ⟨b, n.toNat⟩

/-- `Timestepper(start, end, delta)`. -/
def create (cal : Base → Units) (start stop : Int) (d : Delta) : Except Err (State Freq) :=
  match d.freq with
  | .error e => .error e
  | .ok f =>
    match State.setup (pandas cal) ⟨start, stop, f, [], none, none, none, true⟩ with
    | (.error e, _) => .error e
    | (.ok _, s) => .ok { (s.reset none).2 with dirty := true }

end Verif.Timestepper

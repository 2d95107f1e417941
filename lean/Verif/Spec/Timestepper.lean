import Verif.Model.Timestepper
/-! # Specification of iteration over model periods -/

namespace Verif.Timestepper

/-- The periods of a simulation are non-empty in time, and each one is at least half a second long (so that its length in
whole seconds is positive, as `Timestep` requires). -/
def GoodPeriod (p : Period) : Prop := 500000000 ≤ p.last - p.start

/-- The instants `[start, last]` of the periods are consecutive: the next period begins one nanosecond after the last
one. -/
def Contiguous : List Period → Prop
  | [] => True
  | [p] => p.start ≤ p.last
  | p :: q :: ps => p.start ≤ p.last ∧ q.start = p.last + 1 ∧ Contiguous (q :: ps)

/-- The instant lies in the period. -/
def Period.Contains (p : Period) (t : Int) : Prop := p.start ≤ t ∧ t ≤ p.last

/-- The start position requested by `reset`: the beginning, or the period `k` with `start ≤ t < last`. -/
def StartsAt (periods : List Period) (k : Nat) : Option Int → Prop
  | none => k = 0 ∧ periods ≠ []
  | some t => ∃ p, periods[k]? = some p ∧ p.start ≤ t ∧ t < p.last

/-- The sequence of results promised by C06 for the call number `i` (from zero) after positioning at `k`: period `k + i`
while there is one, then exhaustion. -/
def expected (periods : List Period) (k i : Nat) : Except Err (Period × Nat) :=
  match periods[k + i]? with
  | some p => .ok (p, k + i)
  | none => .error .stopIteration

/-- What an observer sees of a result. -/
def observe : Except Err Timestep → Except Err (Period × Nat)
  | .ok ts => .ok (ts.period, ts.index)
  | .error e => .error e

end Verif.Timestepper

import Verif.Model.License
/-! # Vocabulary for licences -/

namespace Verif.License

/-- A date and length that make sense. -/
def Step.Valid (t : Step) : Prop := 1 ≤ t.doy ∧ t.doy ≤ daysInYear t.year ∧ 1 ≤ t.len ∧ t.len ≤ 365

/-- Days of the timestep that lie in the following calendar year. -/
def Step.spill (t : Step) : Nat := t.doy + t.len - 1 - daysInYear t.year

/-- Days of the timestep that lie in calendar year `y`. -/
def Step.daysIn (t : Step) (y : Nat) : Nat :=
  if t.year = y then t.len - t.spill else if t.year + 1 = y then t.spill else 0

/-- `u` starts when `t` ends, and knows the flow of `t`. -/
def Step.Next (t u : Step) : Prop :=
  u.prevFlow = t.flow ∧
    ((t.doy + t.len ≤ daysInYear t.year ∧ u.year = t.year ∧ u.doy = t.doy + t.len) ∨
      (daysInYear t.year < t.doy + t.len ∧ u.year = t.year + 1 ∧ u.doy = t.doy + t.len - daysInYear t.year))

/-- Timesteps following each other. -/
def Consecutive : List Step → Prop
  | t :: u :: ts => t.Next u ∧ Consecutive (u :: ts)
  | _ => True

/-- Volume taken in calendar year `y`. -/
def used (ts : List Step) (y : Nat) : Rat := (ts.map fun t => t.flow * (t.daysIn y : Rat)).sum

/-- The licence is on track: what remains of the annual amount is in proportion to what remains of the year. -/
def OnTrack (amount : Rat) (s : State) (t : Step) : Prop :=
  s.remaining * (daysInYear t.year : Rat) = amount * ((daysInYear t.year - (t.doy - 1) : Nat) : Rat)

end Verif.License

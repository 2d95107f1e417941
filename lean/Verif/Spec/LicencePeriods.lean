import Verif.Model.LicencePeriods
import Verif.Spec.Storage
import Verif.Spec.VirtualStorage
/-! # Specification for licences with a volume for a year, a season or some months -/

namespace Verif.VirtualStorage

open Verif.Bounds Verif.Storage

/-- Licensed volume used in a timestep. -/
def Day.used (d : Day) : Rat := (d.uses.map fun u => u.factor * u.flow).sum * d.days

/-- A run in which nothing raises and the flows respect, up to the tolerance of the solver, the row that is made from the volume at the moment. -/
def Obeys (tol : Rat) (i : Storage.Initial) : Node → List Day → Prop
  | _, [] => True
  | n, d :: ds => ∃ b, n.before i d.stamp = .ok b ∧ 0 < d.days ∧ tol * d.days < e6 ∧
      Respects tol (vRow b.clock.active b.store.volume (maxNow i d) d.mn d.days) (-(d.uses.map fun u => u.factor * u.flow).sum) ∧ Obeys tol i (b.after i d) ds

/-- What is used in the timesteps of a selection in which the licence is in force. -/
def spent (i : Storage.Initial) (sel : Stamp → Bool) : Node → List Day → Rat
  | _, [] => 0
  | n, d :: ds => match n.before i d.stamp with
    | .ok b => (if sel d.stamp = true ∧ b.clock.active = true then d.used else 0) + spent i sel (b.after i d) ds
    | .error _ => 0

/-- Not earlier. -/
def Stamp.Le (t u : Stamp) : Prop := t.year < u.year ∨ (t.year = u.year ∧ t.code ≤ u.code)

/-- The year of the licence: it begins on the date of the reset. -/
def licenceYear (r : MonthDay) (t : Stamp) : Int := if r.code ≤ t.code then t.year else t.year - 1

/-- Months counted through the years. -/
def monthNumber (t : Stamp) : Int := 12 * t.year + t.month

/-- The period of a licence for `months` months that is `initialMonths` months old in the month of `first`. -/
def licencePeriod (months initialMonths : Int) (first t : Stamp) : Int := (initialMonths + (monthNumber t - monthNumber first)) / months

/-- The licence is for the volume between `mn` and `mx`, which do not change; the volume at the start is between them. -/
structure Fixed (i : Storage.Initial) (mx mn : Rat) : Prop where
  maximum : i.mx = .number mx ∨ i.mx = .constantParam mx
  initial : ∃ v, getInitialVolume i = .ok v ∧ mn ≤ v ∧ v ≤ mx
  wide : mx = mn ∨ e6 ≤ mx - mn

/-- `max_volume` is a parameter. -/
def isParam (i : Storage.Initial) : Bool := match i.mx with | .number _ => false | _ => true

end Verif.VirtualStorage

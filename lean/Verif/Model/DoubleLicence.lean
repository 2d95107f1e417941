import Verif.Model.Float64
import Verif.Model.License
/-!
# Licences in double precision

`StorageLicense` and `AnnualLicense` (`/repo/pywr/parameters/licenses.py:66-147`) as in `Model/License.lean`, with every operation rounded to a double as in `Model/Float64.lean`, for one scenario.
-/

namespace Verif.Float64

open Verif.License

/-- `AnnualLicense.before` (`licenses.py:135-147`): the amount less the days before the reset times the previous flow. -/
def licenceBefore (amount : Rat) (s : License.State) (t : License.Step) : License.State :=
  if s.prevYear ≠ some t.year then ⟨fl (amount - fl (((t.doy - 1 : Nat) : Rat) * t.prevFlow)), some t.year⟩ else s

/-- `AnnualLicense.value` (`:125-133`). -/
def licenceValue (s : License.State) (t : License.Step) : Rat :=
  if t.doy = daysInYear t.year then s.remaining else fl (s.remaining / ((daysInYear t.year - (t.doy - 1) : Nat) : Rat))

/-- `StorageLicense.after` (`:89-92`). -/
def licenceAfter (s : License.State) (t : License.Step) : License.State :=
  let r := fl (s.remaining - fl (t.flow * t.len))
  { s with remaining := if r < 0 then 0 else r }

/-- The values of an annual licence in the timesteps of a run. -/
def annualValues (amount : Rat) : License.State → List License.Step → List Rat
  | _, [] => []
  | s, t :: ts => licenceValue (licenceBefore amount s t) t :: annualValues amount (licenceAfter (licenceBefore amount s t) t) ts

/-- The values of a `StorageLicense` (`:86-87`), which has no `before`. -/
def storageLicenceValues : License.State → List License.Step → List Rat
  | _, [] => []
  | s, t :: ts => s.remaining :: storageLicenceValues (licenceAfter s t) ts

end Verif.Float64

import Mathlib.Algebra.Order.Field.Rat
import Mathlib.Analysis.Complex.Exponential
/-!
# Licences

Models `/repo/pywr/parameters/licenses.py:66-228` (`StorageLicense`, `AnnualLicense`, `AnnualExponentialLicense`, `AnnualHyperbolaLicense`). One scenario: `_remaining` is a vector on which every statement works
elementwise; `_prev_year` is common to all scenarios but does not depend on them.
-/

namespace Verif.License

/-- `calendar.isleap` of the Python library. -/
def isleap (y : Nat) : Bool := y % 4 == 0 && (y % 100 != 0 || y % 400 == 0)

/-- `365 + int(calendar.isleap(timestep.year))`. -/
def daysInYear (y : Nat) : Nat := 365 + (if isleap y then 1 else 0)

/-- A timestep: its date, its length in days, and the node's flow in this and in the previous timestep. Timesteps of whole days. -/
structure Step where
  year : Nat
  doy : Nat
  len : Nat
  flow : Rat
  prevFlow : Rat

/-- `_remaining`, `_prev_year`. -/
structure State where
  remaining : Rat
  prevYear : Option Nat

/-- After `__init__` and `setup` (`:81-84, 120-123`). -/
def State.new (amount : Rat) : State := ⟨amount, none⟩

/-- `StorageLicense.reset` (`:94-95`); `_prev_year` is kept. -/
def State.reset (amount : Rat) (s : State) : State := { s with remaining := amount }

/-- `AnnualLicense.before` (`:135-147`). -/
def State.before (amount : Rat) (s : State) (t : Step) : State :=
  if s.prevYear ≠ some t.year then ⟨amount - ((t.doy - 1 : Nat) : Rat) * t.prevFlow, some t.year⟩ else s

/-- `AnnualLicense.value` (`:125-133`). -/
def State.value (s : State) (t : Step) : Rat :=
  if t.doy = daysInYear t.year then s.remaining
  else s.remaining / ((daysInYear t.year - (t.doy - 1) : Nat) : Rat)

/-- `StorageLicense.after` (`:89-92`). -/
def State.after (s : State) (t : Step) : State :=
  let r := s.remaining - t.flow * t.len
  { s with remaining := if r < 0 then 0 else r }

/-- The values of the parameter in the timesteps of a run. -/
def values (amount : Rat) : State → List Step → List Rat
  | _, [] => []
  | s, t :: ts => (s.before amount t).value t :: values amount ((s.before amount t).after t) ts

/-- The states in which the values of a run are computed. -/
def states (amount : Rat) : State → List Step → List State
  | _, [] => []
  | s, t :: ts => s.before amount t :: states amount ((s.before amount t).after t) ts

/-- The values of a `StorageLicense` in the timesteps of a run: `value` is the remaining volume (`:86-87`), and there is no `before`. -/
def storageValues : State → List Step → List Rat
  | _, [] => []
  | s, t :: ts => s.remaining :: storageValues (s.after t) ts

/-- The ratio of the actual to the expected daily licence (`:182-186, 219-221`); `amount` is not zero. -/
def State.ratio (amount : Rat) (s : State) (t : Step) : Rat := s.value t / (amount / (daysInYear t.year : Rat))

/-- `AnnualExponentialLicense.value` (`:181-187`). -/
noncomputable def State.exponential (amount : Rat) (maxValue k : ℝ) (s : State) (t : Step) : ℝ :=
  maxValue * Real.exp (-(s.ratio amount t : ℝ) / k)

/-- A float that may be infinite or not a number. -/
inductive Ext
  | num (x : Rat)
  | inf
  | ninf
  | nan
deriving DecidableEq

/-- `AnnualHyperbolaLicense.value` (`:218-225`).  The ratio is a numpy number: dividing by it never raises `ZeroDivisionError` but gives an infinity, or NaN for `0 / 0`. -/
def State.hyperbola (amount value : Rat) (s : State) (t : Step) : Ext :=
  if s.ratio amount t = 0 then (if 0 < value then .inf else if value < 0 then .ninf else .nan) else .num (value / s.ratio amount t)

end Verif.License

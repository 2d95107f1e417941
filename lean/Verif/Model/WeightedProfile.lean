import Verif.Model.Profiles
/-!
# Combined and recorded profiles

Models `WeightedAverageProfileParameter` (`/repo/pywr/parameters/_control_curves.pyx:554-623`) and `NumpyArrayDailyProfileParameterRecorder`
(`/repo/pywr/recorders/_recorders.pyx:1426-1492`).  Components a parameter depends on are reset before it (C01), so that the tables of
interpolated profiles are those of this run.  Aggregation of the recorded profile is C57.
-/

namespace Verif.WeightedProfile

open Verif.Profiles Verif.Calendar

/-- The parameters that may be given as profiles: constant ones (`is_constant`), daily profiles, monthly profiles, and all others. -/
inductive Profile
  | constant (v : Rat)
  | daily (table : List Rat)
  | monthly (interp : Option InterpDay) (values : List Rat)
  | other

/-- `max_volume` of a storage: a number or a parameter (constant or not). -/
inductive MaxVolume
  | number (v : Rat)
  | parameter (constant : Option Rat)

/-- Exceptions. -/
inductive Err
  | type
  | value
  deriving DecidableEq, Repr

/-- A value on a date: `value` of the profile parameters (`_parameters.pyx:76-77, 636-637, 767-771`); `none` for the others, whose value may be anything. -/
def Profile.value : Profile → Date → Option Rat
  | .constant v, _ => some v
  | .daily t, d => dailyValue t d
  | .monthly none vs, d => monthlyValue vs d
  | .monthly (some i) vs, d => interpolatedValue i vs d
  | .other, _ => none

/-- The array a profile adds, before the multiplication (`:597-604`): `np.full(366, …)`, `get_double_variables`, `get_daily_values`. -/
def Profile.array : Profile → Except Err (List Rat)
  | .constant v => .ok (List.replicate 366 v)
  | .daily t => .ok t
  | .monthly none vs => .ok (dailyValues vs)
  | .monthly (some i) vs => .ok (interpolated i vs)
  | .other => .error .value

/-- `max_volume` as `reset` reads it (`:589-594`): `is_constant` is an attribute, calling it is a TypeError. -/
def MaxVolume.read : MaxVolume → Except Err Rat
  | .number v => .ok v
  | .parameter _ => .error .type

/-- The loop of `reset` (`:587-607`): the total volume and the total profile; pairs by `zip`. -/
def resetLoop : List (MaxVolume × Profile) → Rat → List Rat → Except Err (Rat × List Rat)
  | [], total, acc => .ok (total, acc)
  | (m, p) :: rest, total, acc => do
    let v ← m.read
    let a ← p.array
    resetLoop rest (total + v) (List.zipWith (· + ·) acc (a.map (· * v)))

/-- `reset` (`:579-608`): `daily_values`; an entry `none` is NaN or infinite (division by zero). -/
def reset (storages : List MaxVolume) (profiles : List Profile) : Except Err (List (Option Rat)) := do
  let (total, acc) ← resetLoop (storages.zip profiles) 0 (List.replicate 366 0)
  pure (acc.map fun x => if total = 0 then none else some (x / total))

/-- `value` (`:610-611`). -/
def value (dailyValues : List (Option Rat)) (d : Date) : Option Rat := (dailyValues[d.index]?).join

/-! ## The recorder -/

/-- `_data`, one list per day of the year: `setup`, `reset` (`:1465-1470`). -/
def recInit (ncomb : Nat) : List (List Rat) := List.replicate 366 (List.replicate ncomb 0)

/-- `after` (`:1472-1477`): `vals` is `get_all_values`. -/
def recAfter (data : List (List Rat)) (d : Date) (vals : List Rat) : List (List Rat) := data.set d.index vals

/-- A run. -/
def recRun (ncomb : Nat) (steps : List (Date × List Rat)) : List (List Rat) := steps.foldl (fun a s => recAfter a s.1 s.2) (recInit ncomb)

end Verif.WeightedProfile

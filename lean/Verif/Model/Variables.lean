import Verif.Model.Optimisation
import Verif.Model.Profiles
/-!
# Variables of parameters

Models the parameters that can be variables of an optimisation: `ConstantParameter` (`/repo/pywr/parameters/_parameters.pyx:144-188`),
`OffsetParameter` (`:1858-1907`), `MonthlyProfileParameter` (`:697-796`), `RbfProfileParameter` (`:985-1183`),
`AnnualHarmonicSeriesParameter` (`:1315-1408`), `BinaryStepParameter`, `RectifierParameter` and `LogisticParameter`
(`/repo/pywr/parameters/_activation_functions.pyx:7-160`) and `ControlCurveParameter` (`/repo/pywr/parameters/_control_curves.pyx:419-548`):
`set_double_variables`, `get_double_variables`, `set_integer_variables`, `get_integer_variables`, the bounds where they are
computed, and the values that follow from the variables (those of the activation functions are in `Model/Functions.lean`).

An exception is `none`; what an assignment did before raising is not modelled.  Numbers are exact; infinite bounds are `none`.
scipy's radial basis function and the cosine are parameters.  Two parameters sharing one numpy array (`ControlCurveParameter.values`
keeps a float64 array given to it without copying) are not modelled.
-/

namespace Verif.Vars

open Verif.Opt Verif.Profiles

/-- `destination[...] = source` for one-dimensional typed memoryviews: equal lengths, or one value for all; otherwise a
ValueError. -/
def assignAll (dst src : List Rat) : Option (List Rat) :=
  if src.length = dst.length then some src
  else match src with
    | [v] => some (List.replicate dst.length v)
    | _ => none

/-! ## One number -/

/-- `ConstantParameter`. -/
structure Const where
  value : Rat
  scale : Rat
  offset : Rat

/-- `set_double_variables`, `_parameters.pyx:168-169` (`values[0]`: an IndexError for an empty array, further values are
ignored). The same code in `OffsetParameter` (`:1891-1892`) and the activation functions (`_activation_functions.pyx:39-40, 92-93, 142-143`). -/
def setFirst (x : List Rat) : Option Rat := x.head?

/-! ## AnnualHarmonicSeriesParameter -/

/-- The variables and the cache (`_value_cache`, `_ts_index_cache`). -/
structure Harmonic where
  mean : Rat
  amplitudes : List Rat
  phases : List Rat
  cache : Rat
  cacheIndex : Int

/-- `__init__`, `_parameters.pyx:1337-1355`. -/
def Harmonic.create (mean : Rat) (amplitudes phases : List Rat) : Option Harmonic :=
  if amplitudes.length ≠ phases.length then none else some ⟨mean, amplitudes, phases, 0, -1⟩

/-- `set_double_variables`, `_parameters.pyx:1394-1398`. -/
def Harmonic.set (p : Harmonic) (x : List Rat) : Option Harmonic := do
  let n := p.amplitudes.length
  let m ← x.head?
  let a ← assignAll p.amplitudes (slice x 1 (n + 1))
  let f ← assignAll p.phases (x.drop (n + 1))
  return { p with mean := m, amplitudes := a, phases := f }

/-- `get_double_variables`, `_parameters.pyx:1400-1401`. -/
def Harmonic.get (p : Harmonic) : List Rat := [p.mean] ++ p.amplitudes ++ p.phases

/-- `reset`, `_parameters.pyx:1373-1376`. -/
def Harmonic.reset (p : Harmonic) : Harmonic := { p with cache := 0, cacheIndex := -1 }

/-- The loop of `value`, `_parameters.pyx:1387-1389`; `wave doy n φ` is `cos(doy * n * 2π / 365 + φ)`. -/
def Harmonic.sum (wave : Nat → Nat → Rat → Rat) (p : Harmonic) (doy : Nat) : Rat :=
  ((List.range p.amplitudes.length).map fun i => p.amplitudes.getD i 0 * wave doy (i + 1) (p.phases.getD i 0)).foldl (· + ·) p.mean

/-- `value`, `_parameters.pyx:1378-1392`, for the timestep number `k` (day of the year `doy` + 1). -/
def Harmonic.value (wave : Nat → Nat → Rat → Rat) (p : Harmonic) (k doy : Nat) : Rat × Harmonic :=
  if (k : Int) = p.cacheIndex then (p.cache, p)
  else (p.sum wave doy, { p with cache := p.sum wave doy, cacheIndex := k })

/-! ## MonthlyProfileParameter -/

/-- The monthly values, `interp_day`, and the interpolated table (`none` before the first reset). -/
structure Monthly where
  values : List Rat
  interp : Option InterpDay
  table : Option (List Rat)

/-- `__init__`, `_parameters.pyx:697-704`. -/
def Monthly.create (values : List Rat) (interp : Option InterpDay) : Option Monthly :=
  if values.length ≠ 12 then none else some ⟨values, interp, none⟩

/-- `set_double_variables`, `_parameters.pyx:773-774`. -/
def Monthly.set (p : Monthly) (x : List Rat) : Option Monthly := (assignAll p.values x).map fun v => { p with values := v }

/-- `reset`, `_parameters.pyx:723-729`. -/
def Monthly.reset (p : Monthly) : Monthly :=
  match p.interp with
  | none => p
  | some d => { p with table := some (interpolated d p.values) }

/-- `value`, `_parameters.pyx:767-771`. -/
def Monthly.value (p : Monthly) (t : Date) : Option Rat :=
  match p.interp with
  | none => monthlyValue p.values t
  | some _ => p.table.bind fun l => l[t.index]?

/-! ## RbfProfileParameter -/

/-- The variables, bounds and caps. -/
structure Rbf where
  values : List Rat
  days : List Int
  isize : Nat
  lowDays : List Int
  highDays : List Int
  minValue : Option Rat
  maxValue : Option Rat
deriving DecidableEq

/-- All differences of successive entries satisfy `q` (`np.diff`). -/
def diffs (q : Int → Bool) : List Int → Bool
  | a :: b :: l => q (b - a) && diffs q (b :: l)
  | _ => true

/-- The checks of the setter of `days_of_year`, `_parameters.pyx:1099-1109`. -/
def daysAccepted (l : List Int) : Bool :=
  l.head? = some 1 && 3 ≤ l.length && diffs (0 < ·) l && l.all fun v => 0 ≤ v && v ≤ 365

/-- `variable_days_*_bounds`, `_parameters.pyx:1070-1073`: every upper bound is below the next lower bound. -/
def apart : List Int → List Int → Bool
  | _ :: l2 :: ls, u1 :: u2 :: us => u1 < l2 && apart (l2 :: ls) (u2 :: us)
  | _, _ => true

/-- `__init__`, `_parameters.pyx:1031-1094` (the bounds of the values left out). -/
def Rbf.create (days : List Int) (values : List Rat) (range : Int) (low high : Option (List Int)) (minValue maxValue : Option Rat) :
    Option Rbf :=
  if days.length ≠ values.length then none
  else if !daysAccepted days then none
  else match low, high with
    | some lo, some hi =>
      if lo.any (· ≤ 1) then none
      else if hi.any (365 < ·) then none
      else if !apart lo hi then none
      else some ⟨values, days, values.length - 1, lo, hi, minValue, maxValue⟩
    | _, _ =>
      if range > 0 then
        if !diffs (2 * range < ·) days then none
        else some ⟨values, days, values.length - 1, days.tail.map (· - range), days.tail.map (· + range), minValue, maxValue⟩
      else some ⟨values, days, 0, [], [], minValue, maxValue⟩

/-- `set_double_variables`, `_parameters.pyx:1154-1155`. -/
def Rbf.setValues (p : Rbf) (x : List Rat) : Option Rbf := (assignAll p.values x).map fun v => { p with values := v }

/-- `set_integer_variables`, `_parameters.pyx:1168-1169`, through the setter of `days_of_year`. -/
def Rbf.setDays (p : Rbf) (l : List Int) : Option Rbf := if daysAccepted (1 :: l) then some { p with days := 1 :: l } else none

/-- `get_integer_variables`, `_parameters.pyx:1171-1172`. -/
def Rbf.getDays (p : Rbf) : List Int := p.days.tail

/-- The days of the interpolation, `_parameters.pyx:1123-1127`. -/
def Rbf.knotDays (p : Rbf) : List Int := [p.days.getLastD 0 - 365] ++ p.days ++ [366, 366 + p.days.getD 1 0 - 1]

/-- The values of the interpolation, `_parameters.pyx:1129-1130`. -/
def Rbf.knotValues (p : Rbf) : List Rat := [p.values.getLastD 0] ++ p.values ++ [p.values.getD 0 0, p.values.getD 1 0]

/-- `max(min(v, max_value), min_value)`, `_parameters.pyx:1140`. -/
def cap (lo hi : Option Rat) (v : Rat) : Rat :=
  let y := match hi with
    | none => v
    | some h => min v h
  match lo with
  | none => y
  | some l => max y l

/-- `_interpolate`, `_parameters.pyx:1118-1147`: the table of 366 values; `rbf x y t` is scipy's interpolation at day `t`. -/
def Rbf.table (rbf : List Int → List Rat → Nat → Rat) (p : Rbf) : List Rat :=
  (List.range 366).map (spread fun i => cap p.minValue p.maxValue (rbf p.knotDays p.knotValues (i + 1)))

/-- `value`, `_parameters.pyx:1149-1151`, after a reset. -/
def Rbf.value (rbf : List Int → List Rat → Nat → Rat) (p : Rbf) (t : Date) : Option Rat := (p.table rbf)[t.index]?

/-! ## ControlCurveParameter -/

/-- The values and `variable_indices`. -/
structure Curve where
  values : List Rat
  indices : List Int
deriving DecidableEq

/-- The element addressed by a possibly negative index; `none` is the IndexError. -/
def wrap (n : Nat) (i : Int) : Option Nat :=
  let j := if i < 0 then i + n else i
  if 0 ≤ j ∧ j < n then some j.toNat else none

/-- The loop of `set_double_variables`, `_control_curves.pyx:533-535`. -/
def setAt : List Int → List Rat → List Rat → Option (List Rat)
  | i :: is, v :: vs, values => (wrap values.length i).bind fun k => setAt is vs (values.set k v)
  | _, _, values => some values

/-- `set_double_variables`, `_control_curves.pyx:526-535`. -/
def Curve.set (p : Curve) (x : List Rat) : Option Curve :=
  if x.length ≠ p.indices.length then none else (setAt p.indices x p.values).map fun v => { p with values := v }

/-- `get_double_variables`, `_control_curves.pyx:537-543`. -/
def Curve.get (p : Curve) : Option (List Rat) := p.indices.mapM fun i => (wrap p.values.length i).bind fun k => p.values[k]?

/-! ## All of them -/

/-- A parameter that can be a variable. -/
inductive Par
  | const (p : Const)
  | offset (v : Rat)
  | binary (v output : Rat)
  | rectifier (v minOutput maxOutput upper : Rat)
  | harmonic (p : Harmonic)
  | monthly (p : Monthly)
  | rbf (p : Rbf)
  | curve (p : Curve)

/-- `double_size`. -/
def Par.dsize : Par → Nat
  | .const _ => 1
  | .offset _ => 1
  | .binary _ _ => 1
  | .rectifier _ _ _ _ => 1
  | .harmonic p => 1 + 2 * p.amplitudes.length
  | .monthly _ => 12
  | .rbf p => p.values.length
  | .curve p => p.indices.length

/-- `integer_size`. -/
def Par.isize : Par → Nat
  | .rbf p => p.isize
  | _ => 0

/-- `get_double_variables`. -/
def Par.doubles : Par → Option (List Rat)
  | .const p => some [p.value]
  | .offset v => some [v]
  | .binary v _ => some [v]
  | .rectifier v _ _ _ => some [v]
  | .harmonic p => some p.get
  | .monthly p => some p.values
  | .rbf p => some p.values
  | .curve p => p.get

/-- `set_double_variables`. -/
def Par.setDoubles : Par → List Rat → Option Par
  | .const p, x => (setFirst x).map fun v => .const { p with value := v }
  | .offset _, x => (setFirst x).map .offset
  | .binary _ o, x => (setFirst x).map fun v => .binary v o
  | .rectifier _ a b u, x => (setFirst x).map fun v => .rectifier v a b u
  | .harmonic p, x => (p.set x).map .harmonic
  | .monthly p, x => (p.set x).map .monthly
  | .rbf p, x => (p.setValues x).map .rbf
  | .curve p, x => (p.set x).map .curve

/-- `get_integer_variables`, asked for only when there are any (`platypus.py:219-223`). -/
def Par.ints : Par → List Int
  | .rbf p => if p.isize > 0 then p.getDays else []
  | _ => []

/-- `set_integer_variables`; not implemented (an exception) for all but one. -/
def Par.setInts : Par → List Int → Option Par
  | .rbf p, l => (p.setDays l).map .rbf
  | _, _ => none

/-- What the wrapper does with its slice of the decision vector (`platypus.py:122-131`). -/
def Par.assign (p : Par) (x : List Rat) : Option Par :=
  (if p.dsize > 0 then p.setDoubles (x.take p.dsize) else some p).bind fun p1 => if p1.isize > 0 then p1.setInts ((x.drop (x.length - p1.isize)).map rint) else some p1

end Verif.Vars

import Verif.Model.Constraints
import Verif.Model.Recorders

/-!
# Hydropower

Models `/repo/pywr/parameters/_hydropower.pyx` (`inverse_hydropower_calculation`, `HydropowerTargetParameter.value`) and
`/repo/pywr/recorders/_hydropower.pyx` (`hydropower_calculation`, `HydropowerRecorder`, `TotalHydroEnergyRecorder`).
Numbers are exact rationals, flows may be infinite.  `turbine_elevation` is declared a C double
(`parameters/_hydropower.pxd:12`), so it is never `None` and the `ValueError` of `value()` cannot occur.
-/

namespace Verif.Hydropower

open Verif.Bounds Verif.Constraints Verif.Run

/-- The literal `9.81`. -/
def g : Rat := 981 / 100

/-- Efficiency, density and the unit conversions. -/
structure Plant where
  efficiency : Rat
  flowConv : Rat
  energyConv : Rat
  density : Rat

/-- `hydropower_calculation`, `recorders/_hydropower.pyx:50-59`. -/
def power (p : Plant) (flow water turbine : Rat) : Rat :=
  let head := water - turbine
  let head := if head < 0 then 0 else head
  let q := flow * p.flowConv
  p.density * q * g * head * p.efficiency * p.energyConv

/-- `inverse_hydropower_calculation`, `parameters/_hydropower.pyx:50-60`.  There is no `cdivision` directive, so a zero
denominator raises `ZeroDivisionError`, which is replaced by infinity. -/
def inverse (p : Plant) (target water turbine : Rat) : F :=
  let head := water - turbine
  let head := if head < 0 then 0 else head
  let d := p.energyConv * p.density * g * head * p.efficiency * p.flowConv
  if d = 0 then .posInf else .fin (target / d)

/-- Cython's `min(a, b)` of doubles. -/
def fmin (a b : F) : F := if lt b a then b else a

/-- Cython's `max(a, b)` of doubles. -/
def fmax (a b : F) : F := if lt a b then b else a

/-- `if self._max_flow is not None: q = min(max_flow, q)` (`parameters/_hydropower.pyx:198-199`). -/
def limitAbove (maxFlow : Option F) (q : F) : F :=
  match maxFlow with
  | some m => fmin m q
  | none => q

/-- `if self._min_flow is not None: q = max(min_flow, q)` (`parameters/_hydropower.pyx:200-201`). -/
def limitBelow (minFlow : Option F) (q : F) : F :=
  match minFlow with
  | some m => fmax m q
  | none => q

/-- `head = level - turbine_elevation` or `turbine_elevation`, then `max(head, 0.0)`
(`parameters/_hydropower.pyx:176-186`, `recorders/_hydropower.pyx:135-145`). -/
def headOf (level : Option Rat) (turbine : Rat) : Rat :=
  let head := match level with
    | some l => l - turbine
    | none => turbine
  max head 0

/-- `HydropowerTargetParameter.value`, `parameters/_hydropower.pyx:170-205`, for the values of the target, the water
level, the maximum and the minimum flow; `none` is the `AssertionError`. -/
def targetFlow (p : Plant) (minHead turbine : Rat) (target : Rat) (level : Option Rat) (maxFlow minFlow : Option F) :
    Option F :=
  let head := headOf level turbine
  if head < minHead then some (.fin 0)
  else
    let q := inverse p target head 0
    let q := limitAbove maxFlow q
    let q := limitBelow minFlow q
    if le (.fin 0) q then some q else none

/-- What the recorders read: the flow of the node and the water level of every combination (`none`: no level
parameter). -/
structure View where
  flow : List Rat
  level : Option (List Rat)

/-- The power of every combination (`recorders/_hydropower.pyx:133-152`). -/
def powers (p : Plant) (turbine : Rat) (o : View) : List Rat :=
  match o.level with
  | some ls => List.zipWith (fun q l => power p q (headOf (some l) turbine) 0) o.flow ls
  | none => o.flow.map (fun q => power p q (headOf none turbine) 0)

/-- `HydropowerRecorder` (`recorders/_hydropower.pyx:126-152`); its inherited `factor` is not used. -/
def hydropowerRecorder (p : Plant) (turbine : Rat) (nts ncomb : Nat) : Rec (List (List Rat)) View :=
  Recorders.arrayRecorder 0 (powers p turbine) nts ncomb

/-- `TotalHydroEnergyRecorder` (`recorders/_hydropower.pyx:231-259`). -/
def totalEnergy (p : Plant) (turbine : Rat) (days : Nat → Rat) (ncomb : Nat) : Rec (List Rat) View where
  init := Recorders.zeros ncomb
  after k o s := some (List.zipWith (fun v x => v + x * days k) s (powers p turbine o))
  finish _ s := some s

end Verif.Hydropower

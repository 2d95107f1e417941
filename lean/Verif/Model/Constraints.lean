import Verif.Model.Bounds
import Verif.Model.Aggregate
/-!
# Constraint bounds of recorders, feasibility, aggregation across scenarios

Models `/repo/pywr/recorders/_recorders.pyx:84-184` (`Aggregator`), `:216-335` (`Recorder`), `:382-446`
(`AggregatedRecorder.values`) and `/repo/pywr/_model.pyx:143-161` (`constraints`, `is_feasible`).
-/

namespace Verif.Constraints

open Verif.Bounds

/-- `x <= y` of doubles. -/
def le : F → F → Bool
  | .nan, _ => false
  | _, .nan => false
  | .negInf, _ => true
  | _, .posInf => true
  | .fin p, .fin q => decide (p ≤ q)
  | .posInf, .negInf => false
  | .posInf, .fin _ => false
  | .fin _, .negInf => false

/-- `x < y` of doubles. -/
def lt : F → F → Bool
  | .nan, _ => false
  | _, .nan => false
  | x, y => !le y x

/-- `x == y` of doubles. -/
def eq (x y : F) : Bool := le x y && le y x

/-- `_constraint_lower_bounds`, `_constraint_upper_bounds`. -/
structure Bounds where
  lower : F
  upper : F
deriving DecidableEq

/-- Start values, `_recorders.pyx:221-222`. -/
def init : Bounds := ⟨.negInf, .posInf⟩

/-- Getter of `constraint_lower_bounds`, `:265-269`; `none` is `None`. -/
def Bounds.getLower (b : Bounds) : Option F := if b.lower = .negInf then none else some b.lower

/-- Getter of `constraint_upper_bounds`, `:280-284`. `np.isinf` is true for both infinities. -/
def Bounds.getUpper (b : Bounds) : Option F := if b.upper = .posInf ∨ b.upper = .negInf then none else some b.upper

/-- Setter of `constraint_lower_bounds`, `:258-264`; outer `none` is the `ValueError` (nothing is changed). -/
def Bounds.setLower (b : Bounds) : Option F → Option Bounds
  | none => some { b with lower := .negInf }
  | some v =>
    match b.getUpper with
    | some u => if lt u v then none else some { b with lower := v }
    | none => some { b with lower := v }

/-- Setter of `constraint_upper_bounds`, `:273-279`. -/
def Bounds.setUpper (b : Bounds) : Option F → Option Bounds
  | none => some { b with upper := .posInf }
  | some v =>
    match b.getLower with
    | some l => if lt v l then none else some { b with upper := v }
    | none => some { b with upper := v }

/-- `Recorder.__init__`, `:216-233`, as far as it concerns the bounds. -/
def create (lower upper : Option F) : Option Bounds :=
  (init.setLower lower).bind fun b => b.setUpper upper

/-- `is_equality_constraint`, `:286-290`. -/
def Bounds.isEquality (b : Bounds) : Bool :=
  match b.getUpper, b.getLower with
  | some u, some l => eq l u
  | _, _ => false

/-- `is_double_bounded_constraint`, `:292-296`. -/
def Bounds.isDouble (b : Bounds) : Bool :=
  match b.getUpper, b.getLower with
  | some u, some l => !eq l u
  | _, _ => false

/-- `is_constraint`, `:308-311`. -/
def Bounds.isConstraint (b : Bounds) : Bool := b.getUpper.isSome || b.getLower.isSome

/-- `is_constraint_violated`, `:313-329`, for the aggregated value `x`; `none` is the `ValueError`. -/
def Bounds.violated (b : Bounds) (x : F) : Option Bool :=
  if b.isEquality then
    match b.getLower with
    | some l => some (!eq x l)
    | none => none
  else if b.isDouble then
    match b.getLower, b.getUpper with
    | some l, some u => some (!(le l x && le x u))
    | _, _ => none
  else
    match b.getLower, b.getUpper with
    | some l, none => some (!le l x)
    | none, some u => some (!le x u)
    | _, _ => none

/-- `Model.is_feasible`, `_model.pyx:151-161`, over `model.constraints` (`:143-145`): every recorder with its aggregated value. -/
def isFeasible : List (Bounds × F) → Option Bool
  | [] => some true
  | (b, x) :: rest =>
    if b.isConstraint then
      match b.violated x with
      | none => none
      | some true => some false
      | some false => isFeasible rest
    else isFeasible rest

/-! ## Aggregation -/

/-- Functions of the `Aggregator` that are modelled. Not modelled: user functions, `percentile`, `percentileofscore`. -/
inductive Func
  | sum | min | max | mean | median | product | countNonzero
deriving DecidableEq

/-- Result of an aggregation: an error (numpy raises), NaN, or a number. -/
inductive Res
  | err
  | nan
  | num (x : Rat)
deriving DecidableEq

/-- The numpy functions on an array of finite numbers. `np.max`, `np.min` raise on empty arrays; the mean and the median of an
empty array are NaN. -/
def numpy (f : Func) (l : List Rat) : Res :=
  match f with
  | .sum => .num l.sum
  | .product => .num l.prod
  | .max => match l.foldl Aggregate.maxStep none with
    | some x => .num x
    | none => .err
  | .min => match l.foldl Aggregate.minStep none with
    | some x => .num x
    | none => .err
  | .mean => if l = [] then .nan else .num (l.sum / (l.length : Rat))
  | .median => if l = [] then .nan else .num (Aggregate.median l)
  | .countNonzero => .num ((l.countP fun x => decide (x ≠ 0) : Nat) : Rat)

/-- The numpy functions on an array with NaN entries (`none`): all but `count_nonzero` give NaN if an entry is NaN; for
`count_nonzero` NaN is not zero. -/
def numpyNan (f : Func) (l : List (Option Rat)) : Res :=
  match f with
  | .countNonzero => .num ((l.countP fun x => decide (x ≠ some 0) : Nat) : Rat)
  | f => if none ∈ l then .nan else numpy f l.reduceOption

/-- `Aggregator.aggregate_1d`, `_recorders.pyx:109-140`. -/
def aggregate1d (f : Func) (l : List (Option Rat)) (ignoreNan : Bool) : Res :=
  if ignoreNan then
    let values := l.filter (·.isSome)
    if values.length = 0 then .nan else numpyNan f values
  else numpyNan f l

/-- `Aggregator.aggregate_2d` with `axis=0`, `:142-184`, for `n` columns: one result for every column. `none` is an exception.
With `ignore_nan` the boolean mask (`:149`) gives a one-dimensional array, which cannot be assigned to the two-dimensional `values`. -/
def aggregate2d (f : Func) (rows : List (List (Option Rat))) (n : Nat) (ignoreNan : Bool) : Option (List Res) :=
  if ignoreNan then none
  else
    let out := (List.range n).map fun i => numpyNan f (rows.map fun r => r.getD i none)
    if Res.err ∈ out then none else some out

/-- A double that is finite or NaN (`none`). -/
def ofNan : Option Rat → F
  | some x => .fin x
  | none => .nan

/-- Addition and multiplication of doubles that are finite or NaN. -/
def nanAdd : Option Rat → Option Rat → Option Rat
  | some a, some v => some (a + v)
  | _, _ => none

def nanMul : Option Rat → Option Rat → Option Rat
  | some a, some v => some (a * v)
  | _, _ => none

/-- `if value2[i] > value[i]: value[i] = value2[i]`, `_recorders.pyx:421-422`; and with `<`, `:429-430`. -/
def takeMax (a : F) (v : Option Rat) : F := if lt a (ofNan v) then ofNan v else a
def takeMin (a : F) (v : Option Rat) : F := if lt (ofNan v) a then ofNan v else a

/-- `AggregatedRecorder.values` (`:400-442`): the value in combination `i`, from the values of the recorders in that
combination. `none`: an exception (no recorders; or a function name that the constructor accepted but `values` does not know:
the `else` branch calls `recorder_agg_func`, which is only set for user functions). Comparisons with NaN (`none`) are false, so that
max and min skip NaN values. User functions are not modelled. -/
def aggregatedRecorder (f : Func) (l : List (Option Rat)) : Option F :=
  if l.length = 0 then none
  else match f with
  | .product => some (ofNan (l.foldl nanMul (some 1)))
  | .sum => some (ofNan (l.foldl nanAdd (some 0)))
  | .max => some (l.foldl takeMax .negInf)
  | .min => some (l.foldl takeMin .posInf)
  | .mean => some (ofNan ((l.foldl nanAdd (some 0)).map fun s => s / (l.length : Rat)))
  | .median | .countNonzero => none

end Verif.Constraints

import Verif.Model.Constraints
import Mathlib.Data.Rat.Floor
/-!
# Optimisation wrappers

Models `/repo/pywr/optimisation/__init__.py:10-42` (`cache_variable_parameters` and the caches), `/repo/pywr/optimisation/platypus.py`
(`count_constraints`, `PlatypusWrapper`, `PywrRandomGenerator`) and `/repo/pywr/optimisation/pygmo.py` (`PygmoWrapper`).

A variable parameter is seen through its variables and their bounds: setting its variables replaces them (that this is what
the parameters do is the subject of `Model/Variables.lean`).  What the run of the model does is arbitrary: it yields an
aggregated value for every recorder.  Integers are unbounded (the cast to 32 bits is left out).  The optimisers themselves
are not modelled.
-/

namespace Verif.Opt

open Verif.Bounds Verif.Constraints

/-- Lower and upper bound of a variable; `none` is minus, respectively plus, infinity. -/
structure Range where
  lo : Option Rat
  hi : Option Rat
deriving DecidableEq

/-- A variable parameter: `double_size`, `integer_size`, the variables as the getters return them, the bounds. -/
structure Var where
  dsize : Nat
  isize : Nat
  doubles : List Rat
  ints : List Int
  dRange : List Range
  iRange : List Range
deriving DecidableEq

/-- `cache_variable_parameters`, `optimisation/__init__.py:8-25`: `none` is the ValueError for a variable of size zero. -/
def variableMap (sizes : List Nat) : Option (List Nat) :=
  sizes.foldl (fun m s => m.bind fun m => if s ≤ 0 then none else some (m ++ [m.getLastD 0 + s])) (some [0])

/-- The size of a variable, `optimisation/__init__.py:14`. -/
def Var.size (v : Var) : Nat := v.dsize + v.isize

/-- `solution[a:b]`. -/
def slice {α : Type} (x : List α) (a b : Nat) : List α := (x.drop a).take (b - a)

/-- `np.round`: to the nearest integer, ties to the even one. -/
def rint (x : Rat) : Int :=
  let f := ⌊x⌋
  if x - f < 1 / 2 then f
  else if 1 / 2 < x - f then f + 1
  else if f % 2 = 0 then f else f + 1

/-- The body of the loop over the variables in `PlatypusWrapper.evaluate`, `platypus.py:122-131`; `none` is the failed
assertion. -/
def Var.set (v : Var) (x : List Rat) : Option Var :=
  if x.length ≠ v.dsize + v.isize then none
  else some { v with
    doubles := if v.dsize > 0 then x.take v.dsize else v.doubles
    ints := if v.isize > 0 then (x.drop (x.length - v.isize)).map rint else v.ints }

/-- `for ivar, var in enumerate(self.model_variables): ...`, `platypus.py:122-131`, from the variable number `i` on. -/
def setAll (map : List Nat) (x : List Rat) : Nat → List Var → Option (List Var)
  | _, [] => some []
  | i, v :: vs => do
    let a ← map[i]?
    let b ← map[i + 1]?
    let v ← v.set (slice x a b)
    let vs ← setAll map x (i + 1) vs
    return v :: vs

/-- The part of `PlatypusWrapper.evaluate` before the run. -/
def assign (vars : List Var) (x : List Rat) : Option (List Var) := do
  let map ← variableMap (vars.map Var.size)
  setAll map x 0 vars

/-- `PlatypusWrapper._make_variables`, `platypus.py:64-83`: the types written to `problem.types`, in order.  `none` is the
IndexError for missing bounds. -/
def makeTypes : List Var → Option (List Range)
  | [] => some []
  | v :: vs => do
    let d ← (List.range v.dsize).mapM fun i => v.dRange[i]?
    let n ← (List.range v.isize).mapM fun i => v.iRange[i]?
    let rest ← makeTypes vs
    return d ++ n ++ rest

/-- `PywrRandomGenerator.generate` with the current values, `platypus.py:208-224`. -/
def current : List Var → List Rat
  | [] => []
  | v :: vs => (if v.dsize > 0 then v.doubles else []) ++ (if v.isize > 0 then v.ints.map fun i : Int => (i : Rat) else []) ++ current vs

/-- `x.clip(lo, hi)` (numpy: the minimum of the upper bound and the maximum of the lower bound and the value). -/
def clip (r : Range) (x : Rat) : Rat :=
  let y := match r.lo with
    | none => x
    | some l => max x l
  match r.hi with
  | none => y
  | some h => min y h

/-- `PywrRandomGenerator.generate` with a given solution, `platypus.py:225-253`; `given` are the doubles and integers of the
variables in the order of `model_variables`. -/
def given : List Var → List (List Rat × List Int) → List Rat
  | v :: vs, (d, n) :: rest =>
    (if v.dsize > 0 then List.zipWith clip v.dRange d else []) ++
      (if v.isize > 0 then List.zipWith clip v.iRange (n.map fun i : Int => (i : Rat)) else []) ++ given vs rest
  | _, _ => []

/-! ## Objectives and constraints -/

/-- The operators of platypus constraints. -/
inductive Op
  | ge | le | eq
deriving DecidableEq

/-- What platypus considers satisfied. -/
def Op.holds (op : Op) (x v : F) : Bool :=
  match op with
  | .ge => Constraints.le v x
  | .le => Constraints.le x v
  | .eq => Constraints.eq x v

/-- `is_lower_bounded_constraint`, `/repo/pywr/recorders/_recorders.pyx:298-301`. -/
def isLower (b : Bounds) : Bool := b.getUpper.isNone && b.getLower.isSome

/-- `is_upper_bounded_constraint`, `_recorders.pyx:303-306`. -/
def isUpper (b : Bounds) : Bool := b.getUpper.isSome && b.getLower.isNone

/-- `count_constraints`, `platypus.py:15-29`; `none` is the ValueError. -/
def countConstraints : List Bounds → Option Nat
  | [] => some 0
  | b :: bs =>
    if b.isDouble then (countConstraints bs).map (· + 2)
    else if b.isConstraint then (countConstraints bs).map (· + 1)
    else none

/-- `PlatypusWrapper._make_constraints`, `platypus.py:85-117`; `none` is the RuntimeError.  A bound that is `None` would be
passed on as such; this cannot happen and is written as NaN. -/
def makeConstraints : List Bounds → Option (List (Op × F))
  | [] => some []
  | b :: bs =>
    let lo := b.getLower.getD .nan
    let hi := b.getUpper.getD .nan
    if b.isDouble then (makeConstraints bs).map fun l => (.ge, lo) :: (.le, hi) :: l
    else if b.isEquality then (makeConstraints bs).map fun l => (.eq, lo) :: l
    else if isLower b then (makeConstraints bs).map fun l => (.ge, lo) :: l
    else if isUpper b then (makeConstraints bs).map fun l => (.le, hi) :: l
    else none

/-- The constraint values returned by `PlatypusWrapper.evaluate`, `platypus.py:141-148`. -/
def constraintValues : List (Bounds × F) → List F
  | [] => []
  | (b, x) :: rest => if b.isDouble then x :: x :: constraintValues rest else x :: constraintValues rest

/-- Multiplication of a double by `1.0` or `-1.0`. -/
def neg : F → F
  | .nan => .nan
  | .posInf => .negInf
  | .negInf => .posInf
  | .fin x => .fin (-x)

/-- The objectives returned by `evaluate` and `fitness` (`platypus.py:135-139`, `pygmo.py:22-26`), from the directions
(`true`: minimise) and the aggregated values. -/
def objectives (l : List (Bool × F)) : List F := l.map fun q => if q.1 then q.2 else neg q.2

/-! ## pygmo -/

/-- Subtraction of doubles. -/
def fsub : F → F → F
  | .nan, _ => .nan
  | _, .nan => .nan
  | .fin a, .fin b => .fin (a - b)
  | .posInf, .posInf => .nan
  | .negInf, .negInf => .nan
  | .posInf, _ => .posInf
  | .negInf, _ => .negInf
  | .fin _, .posInf => .negInf
  | .fin _, .negInf => .posInf

/-- The equality and the inequality values computed by `PygmoWrapper.fitness`, `pygmo.py:28-48`; `none` is the
RuntimeError. -/
def pygmoConstraints : List (Bounds × F) → Option (List F × List F)
  | [] => some ([], [])
  | (b, x) :: rest =>
    let lo := b.getLower.getD .nan
    let hi := b.getUpper.getD .nan
    if b.isDouble then (pygmoConstraints rest).map fun q => (q.1, fsub lo x :: fsub x hi :: q.2)
    else if b.isEquality then (pygmoConstraints rest).map fun q => (x :: q.1, q.2)
    else if isLower b then (pygmoConstraints rest).map fun q => (q.1, fsub lo x :: q.2)
    else if isUpper b then (pygmoConstraints rest).map fun q => (q.1, fsub x hi :: q.2)
    else none

/-- `PygmoWrapper.fitness` after the run, `pygmo.py:22-55`. -/
def pygmoFitness (objs : List (Bool × F)) (recs : List (Bounds × F)) : Option (List F) :=
  (pygmoConstraints recs).map fun q => objectives objs ++ q.1 ++ q.2

/-- `get_nec`, `pygmo.py:85-86`. -/
def nec (bs : List Bounds) : Nat := (bs.filter Bounds.isEquality).length

/-- `get_nic`, `pygmo.py:88-95`. -/
def nic : List Bounds → Nat
  | [] => 0
  | b :: bs => if b.isDouble then nic bs + 2 else if isLower b || isUpper b then nic bs + 1 else nic bs

/-- What pygmo considers feasible: the entries after the objectives are `nec` equality constraints (zero) and `nic`
inequality constraints (at most zero). -/
def pygmoFeasible (nobj ne : Nat) (fitness : List F) : Bool :=
  ((fitness.drop nobj).take ne).all (fun v => Constraints.eq v (.fin 0)) &&
    (fitness.drop (nobj + ne)).all (fun v => Constraints.le v (.fin 0))

/-- `var.set_double_variables(np.array(solution[j]))`, `pygmo.py:14-16`: the whole slice, integers included, is assigned to
the array of doubles; `none` is the ValueError for the wrong length. -/
def Var.setPygmo (v : Var) (x : List Rat) : Option Var :=
  if x.length ≠ v.dsize then none else some { v with doubles := x }

/-- The loop over the variables in `PygmoWrapper.fitness`, `pygmo.py:14-16`. -/
def setAllPygmo (map : List Nat) (x : List Rat) : Nat → List Var → Option (List Var)
  | _, [] => some []
  | i, v :: vs => do
    let a ← map[i]?
    let b ← map[i + 1]?
    let v ← v.setPygmo (slice x a b)
    let vs ← setAllPygmo map x (i + 1) vs
    return v :: vs

/-- The part of `PygmoWrapper.fitness` before the run. -/
def assignPygmo (vars : List Var) (x : List Rat) : Option (List Var) := do
  let map ← variableMap (vars.map Var.size)
  setAllPygmo map x 0 vars

end Verif.Opt

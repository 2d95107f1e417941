import Mathlib.Algebra.Order.Field.Rat
import Mathlib.Algebra.Order.Group.Unbundled.Abs
import Mathlib.Algebra.Order.Group.Abs
/-!
# Bounds handed to GLPK

Models `/repo/pywr/solvers/cython_glpk.pyx:66-95` (`constraint_type`, `inf_to_dbl_max`) and the bound checks
`:297-320`.
-/

namespace Verif.Bounds

/-- A C double: finite (exact rational), infinite, or NaN. -/
inductive F
  | fin (q : Rat)
  | posInf
  | negInf
  | nan
deriving DecidableEq

/-- `DBL_MAX` = (2 - 2^-52) * 2^1023. -/
def dblMax : Rat := ((2 ^ 1024 - 2 ^ 971 : Int) : Rat)

/-- The literal `1e-8`. -/
def e8 : Rat := 1 / 100000000

/-- `inf_to_dbl_max`, `cython_glpk.pyx:90-95`. -/
def infToDblMax : F → F
  | .posInf => .fin dblMax
  | .negInf => .fin (-dblMax)
  | x => x

/-- `if abs(x) < 1e-8: x = 0.0` (`cython_glpk.pyx:936-939` and elsewhere). NaN compares false. -/
def roundTiny : F → F
  | .fin q => if |q| < e8 then .fin 0 else .fin q
  | x => x

/-- GLPK row types. -/
inductive RowType
  | fr | lo | up | db | fx
deriving DecidableEq, Repr

/-- `constraint_type(a, b)` on finite doubles, `cython_glpk.pyx:66-77`. (`a - b` overflowing to infinity compares like the
exact difference.) -/
def constraintType (a b : Rat) : RowType :=
  if |a - b| < e8 then .fx
  else if b = dblMax then (if a = -dblMax then .fr else .lo)
  else if a = -dblMax then .up
  else .db

/-- A row (or column) bound stored in the GLPK problem. -/
structure Row where
  type : RowType
  lb : Rat
  ub : Rat
deriving DecidableEq

/-- GLPK's documented meaning of a row type (`glp_set_row_bnds`): `GLP_FX` uses only the lower bound. -/
def Row.Admits (r : Row) (x : Rat) : Prop :=
  match r.type with
  | .fr => True
  | .lo => r.lb ≤ x
  | .up => x ≤ r.ub
  | .db => r.lb ≤ x ∧ x ≤ r.ub
  | .fx => x = r.lb

instance (r : Row) (x : Rat) : Decidable (r.Admits x) := by unfold Row.Admits; split <;> infer_instance

/-- What happens to a pair of bounds: an error, or a row stored in the problem. With the unsafe interface a NaN is stored. -/
inductive Outcome
  | glpkError
  | stored (r : Row)
  | storedNan
deriving DecidableEq

/-- `set_row_bnds_safe` / `set_row_bnds_unsafe` applied to `constraint_type(lb, ub), lb, ub`,
`cython_glpk.pyx:297-307` (safe: NaN check) and `:190-230` (unsafe: no check). Infinite arguments do not occur after
`infToDblMax`. -/
def setRowBnds (safe : Bool) (lb ub : F) : Outcome :=
  match lb, ub with
  | .fin a, .fin b => .stored ⟨constraintType a b, a, b⟩
  | _, _ => if safe then .glpkError else .storedNan

/-- The whole path of a node's flow limits into its row, `cython_glpk.pyx:932-947`. -/
def flowRow (safe : Bool) (minFlow maxFlow : F) : Outcome :=
  setRowBnds safe (roundTiny (infToDblMax minFlow)) (roundTiny (infToDblMax maxFlow))

end Verif.Bounds

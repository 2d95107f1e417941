/-!
# Limits and messages of the simplex method

Models the control parameters (`smcp`) of the solvers in `/repo/pywr/solvers/cython_glpk.pyx`: `GLPKSolver.set_solver_options` (166-172), and which of them
each call of the simplex method is made with (`_solve_scenario`, 1025-1063; edge solver, 1849-1886).  `presolve` is the subject of `Model/Basis`.  What GLPK
does with the limits is not modelled: whether a call succeeds is given.  Limits that do not fit a C `int` (`OverflowError`) and exceptions raised inside GLPK itself
(which leave the parameters as they are) are left out.
-/

namespace Verif.SolverLimits

/-- `msg_lev`, `tm_lim` and `it_lim` of `glp_smcp`. -/
structure Smcp where
  level : Nat
  time : Int
  iterations : Int
deriving DecidableEq, Repr

/-- `glp_init_smcp`: all messages, both limits `INT_MAX` (GLPK's reference manual, 2.8.1). -/
def init : Smcp := ⟨3, 2147483647, 2147483647⟩

/-- `message_levels` (56-62), with the values of the constants `GLP_MSG_…` (`libglpk.pxd:36-40`). -/
def levels : List (String × Nat) := [("off", 0), ("error", 1), ("normal", 2), ("all", 3), ("debug", 4)]

/-- `GLP_MSG_DBG`. -/
def debug : Nat := 4

/-- `set_solver_options` (166-172), called by the constructor (157), where the message level is "error" when it is not given (153, 379, 1140). `none`: the `KeyError` for an unknown level. -/
def create (time iterations : Option Int) (level : Option String) : Option Smcp :=
  match levels.lookup (level.getD "error") with
  | none => none
  | some l =>
    let s := { init with level := l }
    let s := match time with | some t => { s with time := t } | none => s
    some (match iterations with | some n => { s with iterations := n } | none => s)

/-- The calls of the simplex method for one scenario (1025-1063): the parameters of each, whether the flows are accepted (otherwise `RuntimeError`), and the parameters kept.
`ok k`: the attempt `k` returned 0 with status `GLP_OPT`. The third attempt, after a failure, is only made for its messages (1053-1061). -/
def scenario (retry : Bool) (ok : Nat → Bool) (s : Smcp) : List Smcp × Bool × Smcp :=
  if ok 0 then ([s], true, s)
  else
    let calls := if retry then [s, s] else [s]
    if retry && ok 1 then (calls, true, s)
    else
      let s' := { s with level := debug }
      (calls ++ [s'], false, s')

/-- The loop over the scenarios (827-828): an exception leaves it. -/
def solve (retry : Bool) : List (Nat → Bool) → Smcp → List Smcp × Bool × Smcp
  | [], s => ([], true, s)
  | ok :: oks, s =>
    let a := scenario retry ok s
    if a.2.1 then
      let b := solve retry oks a.2.2
      (a.1 ++ b.1, b.2.1, b.2.2)
    else a

/-- What happens to a solver: `setup` and `reset` do not touch the parameters (174-178, 757-759; edge solver 1571-1573). -/
inductive Ev
  | setup
  | reset
  | solve (oks : List (Nat → Bool))

/-- A history: the calls of the simplex method, by event, with whether each event succeeded. -/
def history (retry : Bool) : List Ev → Smcp → List (List Smcp × Bool)
  | [], _ => []
  | .solve oks :: es, s => let a := solve retry oks s; (a.1, a.2.1) :: history retry es a.2.2
  | _ :: es, s => ([], true) :: history retry es s

end Verif.SolverLimits

import Verif.Model.Bounds
import Verif.Model.Constraints
import Mathlib.Data.Rat.Floor
import Mathlib.Algebra.Order.Floor.Ring
import Mathlib.Algebra.Order.Field.Basic
import Mathlib.Tactic.Linarith
import Mathlib.Tactic.Ring
/-!
# Bisection search

Models `BisectionSearchModel.run` (`/repo/pywr/utils/bisect.py:52-125`). The parameter and the model are given by `sim v w`: set
the variable to `v`, `Model.run()`, `is_feasible()` in state `w` of everything else (`none`: an exception). So the outcome of a run may depend
on the earlier runs. The bounds and epsilon are finite and arithmetic is exact (with floating-point numbers and an epsilon below the
spacing of doubles the loop need not end); the infinite default upper bound is treated by `infiniteStep`.
-/

namespace Verif.Bisect

/-- A run and feasibility check at a value. -/
abbrev Sim (W : Type) := Rat → W → Option (Bool × W)

/-- State at the end of the loop: `min_value`, `max_value`, `best_feasible` (`none`: `-inf`). `log` is a history of the tested values
and their feasibility (not in the code). -/
structure Loop (W : Type) where
  lo : Rat
  hi : Rat
  best : Option Rat
  world : W
  log : List (Rat × Bool)

private theorem ceil_half {g : Rat} (h : 1 < g) : ⌈g / 2⌉.toNat < ⌈g⌉.toNat := by
  have h1 : g ≤ ⌈g⌉ := Int.le_ceil g
  have h2 : (2 : Int) ≤ ⌈g⌉ := by
    have : (1 : Int) < ⌈g⌉ := Int.lt_ceil.2 (by exact_mod_cast h)
    omega
  have h3 : ⌈g / 2⌉ ≤ ⌈g⌉ - 1 := by
    rw [Int.ceil_le]
    have h4 : g / 2 ≤ (⌈g⌉ : Rat) / 2 := by linarith
    have h5 : (2 : Rat) ≤ ⌈g⌉ := by exact_mod_cast h2
    push_cast
    linarith
  omega

/-- `max(best_feasible, current_value)`. -/
def better (best : Option Rat) (current : Rat) : Rat :=
  match best with
  | none => current
  | some b => max b current

/-- The loop `while (max_value - min_value) > epsilon`, `bisect.py:88-107`. -/
def loop {W : Type} (sim : Sim W) (eps : Rat) (he : 0 < eps) (s : Loop W) : Option (Loop W) :=
  if _hgap : s.hi - s.lo > eps then
    let current := (s.hi + s.lo) / 2
    match sim current s.world with
    | none => none
    | some (true, w) =>
      let best := better s.best current
      loop sim eps he { lo := current, hi := s.hi, best := some best, world := w, log := s.log ++ [(current, true)] }
    | some (false, w) =>
      loop sim eps he { lo := s.lo, hi := current, best := s.best, world := w, log := s.log ++ [(current, false)] }
  else some s
termination_by ⌈(s.hi - s.lo) / eps⌉.toNat
decreasing_by
  all_goals
    have hg : 1 < (s.hi - s.lo) / eps := by rw [lt_div_iff₀ he]; linarith
    have := ceil_half hg
    convert this using 3
    ring

/-- Why no result was returned. -/
inductive Error
  | bounds
  | epsilon
  | infeasible
  | simulation
deriving DecidableEq

/-- `run`, `:67-125` (after the checks that epsilon and parameter are given and that the parameter has a single variable): the value of
the last run, the state after it, and the history of the tested values. -/
def run {W : Type} (sim : Sim W) (errorOnInfeasible : Bool) (eps lo hi : Rat) (w : W) : Except Error (Rat × W × List (Rat × Bool)) :=
  if lo ≥ hi then .error .bounds
  else if he : eps ≤ 0 then .error .epsilon
  else match loop sim eps (not_le.1 he) ⟨lo, hi, none, w, []⟩ with
    | none => .error .simulation
    | some s =>
      let best? := match s.best with
        | some b => some b
        | none => if errorOnInfeasible then none else some s.lo
      match best? with
      | none => .error .infeasible
      | some best =>
        match sim best s.world with
        | none => .error .simulation
        | some (_, w) => .ok (best, w, s.log)

open Verif.Bounds Verif.Constraints

/-- One iteration of the loop for an infinite upper bound (as `ConstantParameter` has by default, `_parameters.pyx:147`): `max_value - min_value` and
`(max_value + min_value) / 2` are infinite; the bounds after the run at infinity, `none`: the loop has ended (`inf - inf` is NaN). -/
def infiniteStep (feasible : F → Bool) (b : F × F) : Option (F × F) :=
  match b with
  | (.fin lo, .posInf) => some (if feasible .posInf then (.posInf, .posInf) else (.fin lo, .posInf))
  | _ => none

end Verif.Bisect

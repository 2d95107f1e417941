import Verif.Model.Float64
import Verif.Spec.Storage
import Mathlib.Algebra.Field.Rat
import Mathlib.Algebra.Order.Field.Rat
/-! # Doubles, and storages whose numbers are of moderate size -/

namespace Verif.Float64

open Verif.Bounds Verif.Storage

/-- A number that a double can hold (apart from the limit on large ones). -/
def IsDouble (x : Rat) : Prop := ∃ m e : Int, |m| < 2 ^ 53 ∧ -1074 ≤ e ∧ x = m * (2 : Rat) ^ e

/-- The flows of a timestep, without their signs. -/
def total (cs : List Commit) : Rat := (cs.map fun c => |c.net|).sum

/-- Numbers of volume up to `V` in a timestep in which the solver is off by `tol`: what is lost by rounding and by the solver is less than 1e-6. -/
structure Moderate (tol V : Rat) (t : Step) : Prop where
  volumes : 1 ≤ V ∧ 0 ≤ t.mn ∧ t.mn ≤ t.mx ∧ t.mx ≤ V
  days : 1 / 2 ^ 20 ≤ t.days ∧ t.days ≤ 2 ^ 20
  number : t.commits.length ≤ 2 ^ 20
  small : 0 ≤ tol ∧ tol * t.days + (2 * t.commits.length * total t.commits * t.days + 5 * V) / 2 ^ 53 ≤ 9 / 10000000

/-- A run in which every solver answer respects (up to `tol`) the storage row built from the volume at that moment, with fixed bounds. -/
def FeasibleRun (tol V mn mx : Rat) : State → List Step → Prop
  | _, [] => True
  | s, t :: ts => t.mn = mn ∧ t.mx = mx ∧ Moderate tol V t ∧ Respects tol (storageRow s.volume mx mn t.days) (t.commits.map Commit.net).sum ∧ FeasibleRun tol V mn mx (step s t) ts

/-- All numbers of the timestep are integers of at most 52 bits, and the timestep is a whole number of days. -/
structure Whole (s : State) (t : Step) : Prop where
  volume : ∃ n : Int, s.volume = n
  limits : ∃ a b : Int, t.mx = a ∧ t.mn = b ∧ |a| ≤ 2 ^ 50 ∧ |b| ≤ 2 ^ 50
  days : ∃ n : Int, t.days = n
  flows : ∀ c ∈ t.commits, ∃ n : Int, c.net = n
  size : total t.commits * |t.days| + |s.volume| + total t.commits ≤ 2 ^ 51

/-- A run in exact arithmetic whose timesteps are all of this kind. -/
def WholeRun : State → List Step → Prop
  | _, [] => True
  | s, t :: ts => Whole s t ∧ WholeRun (s.step t) ts

end Verif.Float64

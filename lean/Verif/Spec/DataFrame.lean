import Verif.Spec.Scenarios

/-! # Specification of table look-ups -/

namespace Verif.DataFrame

open Verif.Scenarios

/-- Row `r` of `rows` is the one for position `x`: the row itself, the first row for positions before the data and the
last row for positions after it. -/
def IsRow (rows : Nat) (x : Int) (r : Nat) : Prop :=
  r < rows ∧ ((r : Int) = x ∨ (x < 0 ∧ r = 0) ∨ ((rows : Int) ≤ x ∧ r + 1 = rows))

/-- The slices for which the loader finds the columns: an explicit end within the ensemble, a positive step, and a
start that is not counted from the end (unless the step is one or the end is the size of the ensemble). -/
def Plain (n : Nat) (sl : PySlice) : Prop :=
  (∃ b : Int, sl.stop = some b ∧ 0 ≤ b ∧ b ≤ n ∧
    ((∀ a, sl.start = some a → 0 ≤ a) ∨ sl.step.getD 1 = 1 ∨ b = n)) ∧ 0 < sl.step.getD 1

/-- The rows of the table of combinations address existing members, one per scenario. -/
def ValidUser (c : Collection) : Prop := ∀ rows, c.user = some rows → ∀ r ∈ rows, ValidRow c.scenarios r

end Verif.DataFrame

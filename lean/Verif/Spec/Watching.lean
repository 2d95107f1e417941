import Verif.Model.Watching
/-!
What recorders that watch a run should say.
-/

namespace Verif.Watching

/-- A value is as expected: both are NaN, or they differ by at most a ten millionth of the expected value. -/
def AsExpected (value expected : Option Rat) : Prop :=
  (value = none ∧ expected = none) ∨ ∃ a d, value = some a ∧ expected = some d ∧ |a - d| * 10000000 ≤ |d|

/-- What is expected for a timestep and a scenario: the function if there is one, otherwise the entry of the table. -/
def Expected.Is (e : Expected) (t s : Nat) (x : Option Rat) : Prop :=
  (∃ f, e.func = some f ∧ x = f t s) ∨ (e.func = none ∧ ∃ rows row, e.data = some rows ∧ rows[t]? = some row ∧ row[s]? = some x)

/-- The percentage of `k` out of `n`, rounded down: the greatest `p` for which `p` hundredths of `n` are at most `k`. -/
def Percent (k n : Nat) (p : Int) : Prop := p * n ≤ 100 * k ∧ (100 * k : Int) < (p + 1) * n

end Verif.Watching

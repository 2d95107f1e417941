import Verif.Model.Resample
/-! What a time series means on the timesteps of a model. -/

namespace Verif.Resample

/-- The value of the data for a day, when there are rows every `f` days from day `s` on: that of the row the day belongs to. -/
def Day (s : Int) (f : Nat) (vs : List (Option Rat)) (d : Int) (x : Rat) : Prop :=
  ∃ k : Nat, s + (k : Int) * (f : Int) ≤ d ∧ d < s + ((k : Int) + 1) * (f : Int) ∧ vs[k]? = some (some x)

/-- The value of the data for a day, when the rows are consecutive periods with given numbers of days, from day `s` on. -/
def DayOf (s : Int) (rows : List (Nat × Option Rat)) (d : Int) (x : Rat) : Prop :=
  ∃ before r after, rows = before ++ r :: after ∧ s + ((before.map Prod.fst).sum : Nat) ≤ d ∧ d < s + ((before.map Prod.fst).sum : Nat) + (r.1 : Int) ∧ r.2 = some x

/-- `v` is the mean of the values `day` gives to the days `[a, a + len)`. -/
def IsMean (day : Int → Rat → Prop) (a : Int) (len : Nat) (v : Rat) : Prop :=
  ∃ xs : List Rat, xs.length = len ∧ (∀ (t : Nat) (x : Rat), xs[t]? = some x → day (a + t) x) ∧ v * (len : Rat) = xs.sum

end Verif.Resample

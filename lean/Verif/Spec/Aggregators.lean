import Verif.Model.Aggregators
import Verif.Spec.DurationCurves
/-! # What scores are -/

namespace Verif.Aggregators

/-- The documented name of each function. -/
def called : Code → String
  | .simple .sum => "sum"
  | .simple .min => "min"
  | .simple .max => "max"
  | .simple .mean => "mean"
  | .simple .median => "median"
  | .simple .product => "product"
  | .simple .countNonzero => "count_nonzero"
  | .custom => "custom"
  | .percentile => "percentile"
  | .percentileofscore => "percentileofscore"

/-- How many of the values are less than `s`, and how many are equal to it. -/
def less (l : List Rat) (s : Rat) : Nat := (l.filter fun x => decide (x < s)).length
def equal (l : List Rat) (s : Rat) : Nat := (l.filter fun x => decide (x = s)).length

/-- `v` is the score of `s` among the values: the percentage of smaller values (strict), of values not greater (weak), the average of both (mean), or the average of the percentages that the values equal
to `s` have when ranked one after the other, those of the first of them on (rank; without equal values the percentage of smaller ones). -/
def IsScore (l : List Rat) (s v : Rat) : Kind → Prop
  | .strict => v * l.length = 100 * less l s
  | .weak => v * l.length = 100 * (less l s + equal l s)
  | .mean => v * l.length * 2 = 100 * less l s + 100 * (less l s + equal l s)
  | .rank => if equal l s = 0 then v * l.length = 100 * less l s
      else v * l.length * equal l s = ((List.range (equal l s)).map fun j : Nat => (100 * ((less l s : Rat) + (j : Rat) + 1) : Rat)).sum

/-- The two ways to give the percentile. -/
def WithQ (a : Aggregator) (q : Rat) : Prop := a.code = .percentile ∧ ((a.args = [.number q] ∧ a.kwargs = []) ∨ (a.args = [] ∧ a.kwargs = [("q".toList, .number q)]))

/-- The names of the kinds (documentation of `scipy.stats.percentileofscore`). -/
def kindName : Kind → Name
  | .rank => "rank".toList
  | .strict => "strict".toList
  | .weak => "weak".toList
  | .mean => "mean".toList

/-- The ways to give score and kind. -/
def WithScore (a : Aggregator) (s : Rat) (k : Kind) : Prop := a.code = .percentileofscore ∧ ∃ t : Name, t = kindName k ∧
  ((a.args = [.number s, .text t] ∧ a.kwargs = []) ∨ (a.args = [.number s] ∧ a.kwargs = [("kind".toList, .text t)]) ∨
    (a.args = [] ∧ a.kwargs = [("score".toList, .number s), ("kind".toList, .text t)]) ∨ (a.args = [] ∧ a.kwargs = [("kind".toList, .text t), ("score".toList, .number s)]) ∨
    (k = .rank ∧ a.args = [.number s] ∧ a.kwargs = []) ∨ (k = .rank ∧ a.args = [] ∧ a.kwargs = [("score".toList, .number s)]))

end Verif.Aggregators

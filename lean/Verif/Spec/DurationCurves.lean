import Mathlib.Algebra.Order.Field.Rat
/-! What percentiles and deviations from target curves should be. -/

namespace Verif.DurationCurves

/-- `v` is the `q`-th percentile of the values `l`: put in ascending order, the `k`-th of `n` values (from 0) is the `100 k / (n - 1)`-th percentile, and percentiles between those
of two neighbours lie on the straight line. -/
def IsPercentile (l : List Rat) (q v : Rat) : Prop :=
  ∀ s : List Rat, s.Perm l → s.Pairwise (· ≤ ·) → ∀ (k : Nat) (x : Rat), s[k]? = some x →
    (100 * (k : Rat) = q * ((l.length : Rat) - 1) → v = x) ∧
    ∀ y : Rat, s[k + 1]? = some y → 100 * (k : Rat) ≤ q * ((l.length : Rat) - 1) → q * ((l.length : Rat) - 1) ≤ 100 * ((k : Rat) + 1) →
      100 * (v - x) = (y - x) * (q * ((l.length : Rat) - 1) - 100 * (k : Rat))

/-- The value `v` lies within the (optional) targets when they are widened by the fraction `z`. -/
def Within (lower upper : Option Rat) (z v : Rat) : Prop := (∀ a ∈ lower, a - z * a ≤ v) ∧ ∀ a ∈ upper, v ≤ a + z * a

/-- `x` is the deviation of `v` from the targets: not a number if a target is zero, otherwise (for positive targets) the least fraction by which the targets have to be widened. -/
def IsDeviation (v : Rat) (lower upper : Option Rat) (x : Option Rat) : Prop :=
  (x = none ↔ lower = some 0 ∨ upper = some 0) ∧
  ∀ y, x = some y → (∀ a ∈ lower, 0 < a) → (∀ a ∈ upper, 0 < a) →
    0 ≤ y ∧ Within lower upper y v ∧ ∀ z, 0 ≤ z → Within lower upper z v → y ≤ z

end Verif.DurationCurves

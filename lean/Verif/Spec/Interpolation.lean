import Mathlib.Algebra.Order.Field.Rat
/-! # Specification for interpolated parameters -/

namespace Verif.Interpolation

/-- `p` and `q` are neighbouring points (by first coordinate) that enclose `v`. -/
def Encloses (pts : List (Rat × Rat)) (p q : Rat × Rat) (v : Rat) : Prop :=
  p ∈ pts ∧ q ∈ pts ∧ p.1 < q.1 ∧ p.1 ≤ v ∧ v ≤ q.1 ∧ ∀ t ∈ pts, t.1 ≤ p.1 ∨ q.1 ≤ t.1

/-- The weighted mean of the two values, by distance. -/
def mean (p q : Rat × Rat) (v : Rat) : Rat := (p.2 * (q.1 - v) + q.2 * (v - p.1)) / (q.1 - p.1)

/-- The data describe a function: at least two points, no first coordinate twice. -/
def Function (pts : List (Rat × Rat)) : Prop := 2 ≤ pts.length ∧ (pts.map Prod.fst).Nodup

/-- The data increase. -/
def Increasing (pts : List (Rat × Rat)) : Prop := ∀ p ∈ pts, ∀ q ∈ pts, p.1 < q.1 → p.2 < q.2

end Verif.Interpolation

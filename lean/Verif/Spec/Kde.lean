import Verif.Model.Kde
/-!
What the estimated distribution of a volume should be.
-/

namespace Verif.Kde

open ProbabilityTheory MeasureTheory

/-- The mass that a normal distribution around `v` with standard deviation `h` gives to an interval. -/
noncomputable def mass (v h a b : ℝ) : ℝ := (gaussianReal v (.mk (h ^ 2) (sq_nonneg h))).real (Set.Ioc a b)

/-- The average over the values. -/
noncomputable def average (vs : List ℝ) (f : ℝ → ℝ) : ℝ := (vs.map f).sum / vs.length

/-- The width of the normal distributions by Scott's rule: the variance of the sample divided by the number of values to the power of two fifths is the square of `h`; in fifth powers. -/
def Scott (vs : List ℝ) (h : ℝ) : Prop :=
  0 < h ∧ (h ^ 2) ^ 5 * (vs.length : ℝ) ^ 2 = ((vs.map fun v => (v - average vs fun w => w) ^ 2).sum / (vs.length - 1)) ^ 5

/-- At least two of the values are different. -/
def Varies (vs : List ℝ) : Prop := ∃ v ∈ vs, ∃ w ∈ vs, v ≠ w

end Verif.Kde

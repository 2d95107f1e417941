import Mathlib.Probability.Distributions.Gaussian.Real
import Mathlib.Probability.CDF
/-!
# Estimated distributions of volumes

Models `GaussianKDEStorageRecorder` and `NormalisedGaussianKDEStorageRecorder` (`/repo/pywr/recorders/kde.py:8-204`) with the parts of `scipy.stats.gaussian_kde` that they use: the bandwidth by Scott's
rule, `integrate_box_1d` and the density.  Numbers are real.  Not modelled: resampling (C77), the data frame (`values` are the numbers it holds for all timesteps and scenarios).
-/

namespace Verif.Kde

open ProbabilityTheory

/-- `np.mean`. -/
noncomputable def mean (vs : List ℝ) : ℝ := vs.sum / vs.length

/-- The sample variance (`np.cov` with its default of dividing by one less than the number of values). -/
noncomputable def variance (vs : List ℝ) : ℝ := (vs.map fun v => (v - mean vs) ^ 2).sum / (vs.length - 1)

/-- The bandwidth: the standard deviation times Scott's factor, for one dimension. -/
noncomputable def bandwidth (vs : List ℝ) : ℝ := Real.sqrt (variance vs) * (vs.length : ℝ) ^ (-(1 / 5) : ℝ)

/-- `gaussian_kde(values)`: `ValueError` for less than two values; the covariance must have an inverse, otherwise `LinAlgError`.  `none` for an exception. -/
noncomputable def fit (vs : List ℝ) : Option (List ℝ × ℝ) := if vs.length < 2 ∨ variance vs = 0 then none else some (vs, bandwidth vs)

/-- `scipy.special.ndtr`: the distribution function of the standard normal distribution. -/
noncomputable def ndtr (x : ℝ) : ℝ := cdf (gaussianReal 0 1) x

/-- `kernel.integrate_box_1d(low, high)`. -/
noncomputable def box (k : List ℝ × ℝ) (low high : ℝ) : ℝ := mean (k.1.map fun v => ndtr ((high - v) / k.2) - ndtr ((low - v) / k.2))

/-- `kernel(x)`: the density at one point. -/
noncomputable def density (k : List ℝ × ℝ) (x : ℝ) : ℝ := mean (k.1.map fun v => gaussianPDFReal 0 1 ((x - v) / k.2) / k.2)

/-- `_estimate_pdf_and_target_probability` (`kde.py:79-103`): the probability and the density, for a target and points.  `GaussianKDEStorageRecorder` with proportional volumes. -/
noncomputable def estimate (reflect : Bool) (target : ℝ) (vs : List ℝ) (points : List ℝ) : Option (ℝ × List ℝ) :=
  (fit vs).bind fun k =>
    if reflect then
      (fit (vs.map fun v => -v)).bind fun lower => (fit (vs.map fun v => 2 - v)).map fun upper =>
        (box k 0 target + box lower 0 target + box upper 0 target, points.map fun x => density k x + density lower x + density upper x)
    else some (box k 0 target, points.map fun x => density k x)

/-- The same of `NormalisedGaussianKDEStorageRecorder` (`kde.py:177-201`); the volumes are between minus one and one. -/
noncomputable def estimateNormalised (reflect : Bool) (vs : List ℝ) (points : List ℝ) : Option (ℝ × List ℝ) :=
  (fit vs).bind fun k =>
    if reflect then
      (fit (vs.map fun v => -2 - v)).bind fun lower => (fit (vs.map fun v => 2 - v)).map fun upper =>
        (box k (-1) 0 + box lower (-1) 0 + box upper (-1) 0, points.map fun x => density k x + density lower x + density upper x)
    else some (box k (-1) 0, points.map fun x => density k x)

/-- `np.linspace(0.0, 1.0, num_pdf)` (`kde.py:60, 158`). -/
noncomputable def points (n : Nat) : List ℝ := (List.range n).map fun i : Nat => (i : ℝ) / ((n : ℝ) - 1)

/-- `finish` of the two recorders (`kde.py:52-66, 150-164`); then the probability is `aggregated_value()` and the density, with the points as index, `to_dataframe()`. -/
noncomputable def finish (reflect : Bool) (target : ℝ) (num : Nat) (vs : List ℝ) : Option (ℝ × List (ℝ × ℝ)) :=
  (estimate reflect target vs (points num)).map fun r => (r.1, (points num).zip r.2)

/-- See `finish`. -/
noncomputable def finishNormalised (reflect : Bool) (num : Nat) (vs : List ℝ) : Option (ℝ × List (ℝ × ℝ)) :=
  (estimateNormalised reflect vs (points num)).map fun r => (r.1, (points num).zip r.2)

end Verif.Kde

import Verif.Model.Doubles
/-!
# The factor of an array recorder, kept in single precision

`NumpyArrayNodeRecorder` keeps its `factor` as a C `float` (`cdef public float factor`, `/repo/pywr/recorders/_recorders.pxd:41-44`) and records the flow times that number (`/repo/pywr/recorders/_recorders.pyx:599-624`);
the other recorders with a factor keep it as a Python object (`:1764-1802`, see `Model/Doubles.lean`).  Flows and data are doubles; one scenario; NaN is not modelled.
-/

namespace Verif.Float64

/-- The distance of neighbouring singles around `x`: 23 bits below the leading one, at least `2^-149`. -/
def unit32 (x : Rat) : Rat := pow2 (max (expo x - 23) (-149))

/-- Rounding to a single (IEEE 754 binary32, round to nearest even), without the limit on large numbers. -/
def single (x : Rat) : Rat := if x = 0 then 0 else roundEven (x / unit32 x) * unit32 x

/-- The attribute `factor` after `self.factor = factor` (`_recorders.pyx:602-605`) with a double: converted to C `float`; `none` if that is infinite. -/
def arrayFactor (factor : Rat) : Option Rat := if 2 ^ 128 ≤ |single factor| then none else some (single factor)

/-- `NumpyArrayNodeRecorder.after` (`:619-624`) in every timestep: a column of `data`.  `float` and `double` are multiplied as doubles.  `none`: the factor is infinite. -/
def arrayData (factor : Rat) (flows : List Rat) : Option (List Rat) := (arrayFactor factor).map fun f => flows.map fun q => fl (q * f)

end Verif.Float64

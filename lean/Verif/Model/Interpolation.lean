import Mathlib.Data.List.Sort
import Mathlib.Algebra.Order.Field.Rat
import Verif.Model.Storage
/-!
# Interpolated parameters

Models `AbstractInterpolatedParameter` with the default keyword arguments (`/repo/pywr/parameters/parameters.py:124-156`), `InterpolatedParameter` (`:159-192`),
`InterpolatedVolumeParameter` (`:195-242`), `InterpolatedFlowParameter` (`:245-278`).  SciPy's `interp1d(kind="linear", bounds_error=True)` is library code: it is modelled
after its documentation (the points are sorted, the two points enclosing the argument are found by bisection, arguments outside the points raise `ValueError`).  Other `interp_kwargs`
are not modelled.  Two points with the same first coordinate divide by zero in the library; here the division gives 0 and no theorem covers the case.
-/

namespace Verif.Interpolation

/-- The points in ascending order of `x`: `ind = np.argsort(x, kind="mergesort")` in the constructor of SciPy's `interp1d` (`parameters.py:152`). -/
def sorted (pts : List (Rat × Rat)) : List (Rat × Rat) := pts.insertionSort fun a b => a.1 ≤ b.1

/-- The straight line through `lo` and `hi` at `v`: `slope * (x_new - x_lo) + y_lo`. -/
def line (lo hi : Rat × Rat) (v : Rat) : Rat := (hi.2 - lo.2) / (hi.1 - lo.1) * (v - lo.1) + lo.2

/-- Calling the interpolator (`parameters.py:156`): `searchsorted`, clipped to `1 … len - 1`, then the line through that point and the one before; `none` is the `ValueError` for an
argument below the first or above the last point. -/
def interp1d (pts : List (Rat × Rat)) (v : Rat) : Option Rat :=
  let s := sorted pts
  match s.head?, s.getLast? with
  | some first, some last =>
    if v < first.1 then none
    else if last.1 < v then none
    else
      let i := min (max (s.countP fun p => decide (p.1 < v)) 1) (s.length - 1)
      some (line (s.getD (i - 1) (0, 0)) (s.getD i (0, 0)) v)
  | _, _ => none

/-- `AbstractInterpolatedParameter.setup` and `value` (`:150-156`): the value for the arrays `x`, `y` and the number to interpolate.  Arrays of different lengths are a `ValueError`. -/
def value (x y : List Rat) (v : Rat) : Option Rat := if x.length = y.length then interp1d (x.zip y) v else none

/-- `InterpolatedVolumeParameter.value` (`:218-219`). -/
def volumeValue (volumes values : List Rat) (s : Storage.State) : Option Rat := value volumes values s.volume

/-- `InterpolatedFlowParameter.value` (`:266-267`). -/
def flowValue (flows values : List Rat) (s : Storage.State) : Option Rat := value flows values s.prevFlow

end Verif.Interpolation

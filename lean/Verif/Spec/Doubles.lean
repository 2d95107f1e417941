import Verif.Model.Doubles
import Verif.Spec.Float64
/-! # Uses of a virtual storage of moderate size, in exact arithmetic -/

namespace Verif.Float64

open Verif.Bounds Verif.Storage

/-- What the nodes use, exactly. -/
def used (us : List VirtualStorage.Use) : Rat := (us.map fun u => u.factor * u.flow).sum

/-- The sizes of the uses. -/
def usedSize (us : List VirtualStorage.Use) : Rat := (us.map fun u => |u.factor * u.flow|).sum

/-- Numbers of volume up to `V` in a timestep in which the solver is off by `tol`. -/
structure ModerateUse (tol V mn mx : Rat) (t : Used) : Prop where
  volumes : 1 ≤ V ∧ 0 ≤ mn ∧ mn ≤ mx ∧ mx ≤ V
  days : 1 / 2 ^ 20 ≤ t.days ∧ t.days ≤ 2 ^ 20
  number : t.uses.length ≤ 2 ^ 20
  small : 0 ≤ tol ∧ tol * t.days + ((4 * t.uses.length + 2) * usedSize t.uses * t.days + 6 * V) / 2 ^ 53 ≤ 9 / 10000000

/-- A run in which, while the virtual storage is active, every solver answer respects (up to `tol`) the row `Σ -factor·flow` built from the volume at that moment. -/
def FeasibleUse (tol V mn mx : Rat) : State → List Used → Prop
  | _, [] => True
  | s, t :: ts =>
    (t.active = true → ModerateUse tol V mn mx t ∧ Respects tol (storageRow s.volume mx mn t.days) (-used t.uses)) ∧ FeasibleUse tol V mn mx (virtualStep mx mn s t) ts

end Verif.Float64

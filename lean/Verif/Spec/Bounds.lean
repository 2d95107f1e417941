import Verif.Model.Bounds
/-! # Meaning of a pair of limits -/

namespace Verif.Bounds

/-- `x` is at least the limit. -/
def F.AtLeast (a : F) (x : Rat) : Prop :=
  match a with
  | .fin q => q ≤ x
  | .negInf => True
  | .posInf => False
  | .nan => False

/-- `x` is at most the limit. -/
def F.AtMost (b : F) (x : Rat) : Prop :=
  match b with
  | .fin q => x ≤ q
  | .posInf => True
  | .negInf => False
  | .nan => False

/-- A limit of magnitude below 1e-8 counts as zero (this is the tolerance stated in the property). -/
def F.effective (a : F) : F :=
  match a with
  | .fin q => if |q| < e8 then .fin 0 else .fin q
  | x => x

/-- The two limits are (nearly) equal. -/
def Close (a b : F) : Prop :=
  match a, b with
  | .fin p, .fin q => |p - q| < e8
  | _, _ => False

/-- A finite double. -/
def FiniteDouble (x : Rat) : Prop := -dblMax ≤ x ∧ x ≤ dblMax

/-- A finite double other than `±DBL_MAX` (neighbouring doubles of that size are 2^971 apart). -/
def OrdinaryDouble (x : Rat) : Prop := -(dblMax - 1) ≤ x ∧ x ≤ dblMax - 1

end Verif.Bounds

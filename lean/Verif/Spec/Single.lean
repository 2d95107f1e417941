import Verif.Spec.Float64
/-! # Numbers of single precision -/

namespace Verif.Float64

/-- A number that a single can hold (apart from the limit on large ones). -/
def IsSingle (x : Rat) : Prop := ∃ m e : Int, |m| < 2 ^ 24 ∧ -149 ≤ e ∧ x = m * (2 : Rat) ^ e

end Verif.Float64

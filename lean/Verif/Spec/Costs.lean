import Verif.Spec.Parts
/-! # Vocabulary for changes of costs -/

namespace Verif.Lp

open Verif

/-- The same model with other costs. -/
def withCosts (d : Data) (cost : Nat → Rat) : Data := { d with cost := cost }

/-- The same model with the cost of one node raised by `δ`. -/
def dearer (d : Data) (n : Nat) (δ : Rat) : Data := withCosts d fun m => if m = n then d.cost m + δ else d.cost m

/-- The same model with `c` added to the costs of all inputs and taken off the costs of all outputs. -/
def shifted (d : Data) (c : Rat) : Data := withCosts d fun m => match d.kind m with | .input => d.cost m + c | .output => d.cost m - c | _ => d.cost m

/-- No route has a cost so small that the route solver ignores it. -/
def NoTinyCost (d : Data) (routes : List (List Nat)) : Prop := ∀ r ∈ routes, |routeCost d r| < 1 / 100000000 → routeCost d r = 0

end Verif.Lp

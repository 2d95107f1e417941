import Verif.Model.Aquifer
/-! # Specification for Keating aquifers -/

namespace Verif.Groundwater

/-- The volume up to the level number `i`: the slices between the levels below it, each with its own storativity. -/
def sliceVolume (area : Rat) (levels storativity : List Rat) (i : Nat) : Rat :=
  ((List.range i).map fun j : Nat => area * storativity.getD j 0 * (levels.getD (j + 1) 0 - levels.getD j 0) / 1000).sum

/-- Keating's stream flow: above every outlet level, twice the transmissivity times the coefficient times the head. -/
def streamFlow (c : Rat) (outlets : List (Rat × Rat)) (level : Rat) : Rat := (outlets.map fun o => 2 * o.2 * c * max 0 (level - o.1)).sum

/-- An accepted aquifer whose levels and volumes increase together. -/
structure Proper (a : Args) (q : Aquifer) : Prop where
  made : make a = .ok q
  two : 2 ≤ a.levels.length
  levels : a.levels.Pairwise (· < ·)
  volumes : match a.volumes with
    | some v => v.Pairwise (· < ·)
    | none => (∀ area, a.area = some area → 0 < area) ∧ ∀ st, a.storativity = some st → ∀ x ∈ st, 0 < x

end Verif.Groundwater

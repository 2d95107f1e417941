import Verif.Model.Storage
/-! # Specification for storages -/

namespace Verif.Storage

open Verif.Bounds

/-- The net flow into the store in a timestep. -/
def Commit.net : Commit → Rat
  | .fromStore v => -v
  | .toStore v => v
  | .direct v => v

/-- Net volume entering the store in a timestep. -/
def Step.netVolume (t : Step) : Rat := (t.commits.map Commit.net).sum * t.days

/-- A solver answer that respects the row it was given up to the feasibility tolerance `tol` of the simplex method. -/
def Respects (tol : Rat) (r : Row) (x : Rat) : Prop := ∃ y, r.Admits y ∧ |x - y| ≤ tol

/-- A run in which every solver answer respects (up to `tol`) the storage row built from the volume at that moment, with fixed
bounds `mn`, `mx`, and timesteps short enough that the tolerance amounts to less than 1e-6 in volume. -/
def FeasibleRun (tol mn mx : Rat) : State → List Step → Prop
  | _, [] => True
  | s, t :: ts => t.mn = mn ∧ t.mx = mx ∧ 0 < t.days ∧ tol * t.days < e6 ∧
      (mx - mn) / t.days < dblMax ∧
      Respects tol (storageRow s.volume mx mn t.days) (t.commits.map Commit.net).sum ∧
      FeasibleRun tol mn mx (s.step t) ts

end Verif.Storage

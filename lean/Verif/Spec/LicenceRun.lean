import Verif.Spec.Simulation
import Verif.Spec.License
import Verif.Spec.VirtualStorage
/-! # Vocabulary for licences in a run of a model -/

namespace Verif.Simulation

open Verif

/-- The flow of the node in the last timestep, or `p` if there is none. -/
def last (n : Nat) (p : Rat) (h : List Done) : Rat := (h.getLast?.map fun t => t.flow n).getD p

/-- What a licence sees of the node: dates (year and day of the year) from number `k` on, daily timesteps, the flow of the node in each and in the one before. -/
def seen (dates : Nat → Nat × Nat) (n : Nat) : Nat → Rat → List Done → List License.Step
  | _, _, [] => []
  | k, p, t :: ts => ⟨(dates k).1, (dates k).2, 1, t.flow n, p⟩ :: seen dates n (k + 1) (t.flow n) ts

/-- The value of an `AnnualLicense` of the node after the timesteps `h`: it was reset at the start of the run, went through `before` and `after` of these timesteps (`Model/License.lean`), and through `before` of the next one, in which it is evaluated. -/
def annualValue (amount : Rat) (dates : Nat → Nat × Nat) (n : Nat) (h : List Done) : Rat :=
  let next : License.Step := ⟨(dates h.length).1, (dates h.length).2, 1, 0, last n 0 h⟩
  (((seen dates n 0 0 h).foldl (fun s t => (s.before amount t).after t) (License.State.new amount)).before amount next).value next

/-- The value of a `StorageLicense` of the node after the timesteps `h`. -/
def storageValue (amount : Rat) (dates : Nat → Nat × Nat) (n : Nat) (h : List Done) : Rat :=
  ((seen dates n 0 0 h).foldl (fun s t => s.after t) (License.State.new amount)).remaining

/-- Consecutive days of the calendar. -/
structure Days (dates : Nat → Nat × Nat) : Prop where
  valid : ∀ k, 1 ≤ (dates k).2 ∧ (dates k).2 ≤ License.daysInYear (dates k).1
  next : ∀ k, ((dates k).2 + 1 ≤ License.daysInYear (dates k).1 ∧ dates (k + 1) = ((dates k).1, (dates k).2 + 1)) ∨
    ((dates k).2 = License.daysInYear (dates k).1 ∧ dates (k + 1) = ((dates k).1 + 1, 1))

/-- What the nodes of a virtual storage used of it in a timestep. -/
def Done.use (i : Nat) (s : List Nat × List Rat) (t : Done) : Rat :=
  if t.values.active i then ((s.1.zip s.2).map fun p => p.2 * t.flow p.1).sum * t.values.days else 0

/-- What a storage lost in a timestep. -/
def Done.drawn (s : List Nat × List Nat) (t : Done) : Rat := ((s.1.map t.flow).sum - (s.2.map t.flow).sum) * t.values.days

/-- The timesteps as a rolling licence sees them. -/
def rolled (s : List Nat × List Rat) (mx mn : Rat) (h : List Done) : List VirtualStorage.RStep :=
  h.map fun t => ⟨(s.1.zip s.2).map fun p => ⟨p.2, t.flow p.1⟩, t.values.days, mx, mn⟩

end Verif.Simulation

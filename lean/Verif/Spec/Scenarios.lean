import Mathlib.Data.List.Lex
import Mathlib.Order.Lattice
import Mathlib.Data.Int.Order.Basic
import Verif.Model.Scenarios

/-! # Specification of ensemble selection -/

namespace Verif.Scenarios

/-- A slice bound counted from the end when negative, then limited to `[lo, hi]`. -/
def bound (n lo hi dflt : Int) : Option Int → Int
  | none => dflt
  | some i => max lo (min hi (if i < 0 then i + n else i))

/-- Ensemble member `i` of `n` is selected by the slice (Python's documented meaning of `start:stop:step`). -/
def InSlice (n : Nat) (s : PySlice) (i : Int) : Prop :=
  let step := s.step.getD 1
  if step > 0 then
    let lo := bound n 0 n 0 s.start
    let hi := bound n 0 n n s.stop
    lo ≤ i ∧ i < hi ∧ step ∣ (i - lo)
  else
    let lo := bound n (-1) (n - 1) (n - 1) s.start
    let hi := bound n (-1) (n - 1) (-1) s.stop
    hi < i ∧ i ≤ lo ∧ step ∣ (i - lo)

/-- Member `i` is to be run for the scenario. -/
def Scenario.Selects (s : Scenario) (i : Int) : Prop :=
  match s.slice with
  | none => 0 ≤ i ∧ i < s.size
  | some sl => InSlice s.size sl i

/-- One selected member per scenario. -/
def IsChoice (ss : List Scenario) (choice : List Int) : Prop :=
  List.Forall₂ (fun i s => Scenario.Selects s i) choice ss

/-- A table row addresses existing ensemble members, one per scenario. -/
def ValidRow (ss : List Scenario) (row : List Int) : Prop :=
  List.Forall₂ (fun (i : Int) s => 0 ≤ i ∧ i < s.size) row ss

end Verif.Scenarios

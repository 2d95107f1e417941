import Verif.Model.Memory
/-! # Vocabulary for parameters with memory -/

namespace Verif.Memory

/-- The order relation named by a predicate. -/
def Predicate.Rel : Predicate → Rat → Rat → Prop
  | .lt => (· < ·)
  | .gt => (· > ·)
  | .le => (· ≤ ·)
  | .ge => (· ≥ ·)
  | .eq => (· = ·)

/-- The observed value of a scenario satisfies the predicate: both numbers are defined and in the relation. -/
def Satisfies (p : Predicate) (o : Observation) (sc : Nat) : Prop :=
  ∃ x t, o.x sc = some x ∧ o.threshold sc = some t ∧ p.Rel x t

end Verif.Memory

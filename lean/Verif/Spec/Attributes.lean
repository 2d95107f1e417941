import Verif.Model.Attributes
/-!
# Specification: numeric attributes of nodes
-/

namespace Verif.Attributes

/-- The parameters have a value for each of `n` combinations, and those that are constant have that value in all of them. -/
def World.Ready {V : Type} (w : World V) (n : Nat) : Prop :=
  ∀ p, (w.values p).length = n ∧ ∀ v, w.constant p = some v → ∀ x ∈ w.values p, x = v

/-- What an attribute is worth: the number assigned, or what the parameter says in combination `i`. -/
def Worth {V : Type} (w : World V) (i : Nat) : V ⊕ Nat → V → Prop
  | .inl c, v => v = c
  | .inr p, v => (w.values p)[i]? = some v

/-- What an assignment asks for. -/
def Asked {V : Type} (whenNone : Option V) : Given V → V ⊕ Nat → Prop
  | .number c, x => x = .inl c
  | .param p, x => x = .inr p
  | .none, x => ∃ d, whenNone = some d ∧ x = .inl d
  | .other, _ => False

/-- A history of assignments; refused ones are caught by the caller. -/
def history {V : Type} (whenNone : Option V) (s : Slot V) (gs : List (Given V)) : Slot V := gs.foldl (fun s g => (assign whenNone s g).1) s

end Verif.Attributes

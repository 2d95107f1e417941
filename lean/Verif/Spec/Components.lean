import Verif.Spec.Digraph
import Verif.Model.Components

/-! # Specification: evaluation orders that respect dependencies -/

namespace Verif.Components

open Verif

/-- The declared dependencies after a construction history, read off the history alone: `x` directly depends on
`d` when the last thing said about the pair is that `x` depends on `d`. -/
def declaredDep : List Op → Nat → Nat → Prop
  | [], _, _ => False
  | op :: older, x, d =>
    match op with
    | .addDep x' d' => (x = x' ∧ d = d') ∨ declaredDep older x d
    | .removeDep x' d' => ¬ (x = x' ∧ d = d') ∧ declaredDep older x d
    | _ => declaredDep older x d

/-- The components created in a history. -/
def created (ops : List Op) : List Nat :=
  ops.filterMap fun | .create c => some c | _ => none

/-- `order` visits every component exactly once and no component before something it depends on (directly or
indirectly). -/
structure IsEvalOrder (components : List Nat) (dep : Nat → Nat → Prop) (order : List Nat) : Prop where
  once : order.Nodup
  all : ∀ c, c ∈ order ↔ c ∈ components
  deps_first : ∀ before c after, order = before ++ c :: after →
    ∀ d, Relation.TransGen dep c d → d ∈ before

/-- The rule `f` by which component `c` computes its value looks only at components `c` directly depends on. -/
def ReadsOnly {β : Type} (dep : Nat → Nat → Prop) (f : Nat → (Nat → β) → β) : Prop :=
  ∀ c v w, (∀ d, dep c d → v d = w d) → f c v = f c w

end Verif.Components

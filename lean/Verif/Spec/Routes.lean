import Verif.Spec.Digraph
import Verif.Model.Routes

/-! # Specification of supply routes -/

namespace Verif.Routes

open Verif

/-- `n` is addressed by the selector. -/
def Selected (g : Digraph) : Selector → Nat → Prop
  | .cls test, n => n ∈ g.nodes ∧ test n = true
  | .inst m, n => n = m

/-- The domain rule as documented. -/
def DomainRule (info : NodeInfo) (r : List Nat) : DomainMatch → Prop
  | .strict => ∀ x ∈ r, ∀ y ∈ r, info.domain x = info.domain y
  | .different => ∃ x ∈ r, ∃ y ∈ r, info.domain x ≠ info.domain y
  | .any => True
  | .other => False

/-- `r` is a route from a node selected by `sel1` to a node selected by `sel2`: a simple directed path with at least
one edge, all intermediate nodes permitted, obeying the domain rule and the length limit. -/
def IsRoute (g : Digraph) (info : NodeInfo) (sel1 sel2 : Selector) (valid : Option (Nat → Bool))
    (maxLength : Option Nat) (dm : DomainMatch) (r : List Nat) : Prop :=
  ∃ s t, Selected g sel1 s ∧ Selected g sel2 t ∧ s ≠ t ∧ g.IsSimplePath s t r ∧
    (∀ test, valid = some test → ∀ x, x ∈ r → x ≠ s → x ≠ t → test x = true) ∧
    (∀ k, maxLength = some k → r.length ≤ k) ∧ DomainRule info r dm

end Verif.Routes

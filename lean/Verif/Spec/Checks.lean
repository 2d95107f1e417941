import Verif.Model.Checks
import Verif.Spec.Routes
import Verif.Spec.Components
/-! # What the checks should find -/

namespace Verif.Checks

open Verif Verif.Routes

/-- `n` is on a way for water: a simple path from an input to another node that is an output, through inputs, links and outputs, all in one domain. -/
def Net.OnRoute (N : Net) (n : Nat) : Prop := ∃ (s t : Nat) (r : List Nat), s ∈ N.graph.nodes ∧ t ∈ N.graph.nodes ∧ N.isInput s = true ∧ N.isOutput t = true ∧ s ≠ t ∧
  N.graph.IsSimplePath s t r ∧ n ∈ r ∧ (∀ x ∈ r, N.isLink x = true ∨ N.isInput x = true ∨ N.isOutput x = true) ∧ ∀ x ∈ r, N.info.domain x = N.info.domain s

/-- The node refers to the component: directly, or in a list. -/
def Refers (as : List Attr) (c : Nat) : Prop := Attr.component c ∈ as ∨ ∃ cs, Attr.list cs ∈ as ∧ c ∈ cs

/-- The parameter is of no use: no component depends on it, and no node refers to it. -/
def Net.Unused (N : Net) (ops : List Components.Op) (p : Nat) : Prop :=
  (∀ x, ¬ Components.declaredDep ops.reverse x p) ∧ ∀ n ∈ N.graph.nodes, ¬ Refers (N.attrs n) p

end Verif.Checks

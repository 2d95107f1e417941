import Verif.Model.MultiSplit
import Verif.Spec.Composite
/-! # Vocabulary for statements about splits -/

namespace Verif.Composite

open Verif Verif.Lp Verif.Bounds

/-- A node inside the split's own domain. -/
def MultiSplit.Inner (m : MultiSplit) (n : Nat) : Prop := n ∈ m.link.sublinks ∨ n = m.link.subOutput ∨ n ∈ m.extraOutputs

/-- The kinds of the nodes created by the constructor (`nodes.py:803-834, 968-979`). -/
structure SplitKinds (d : Data) (m : MultiSplit) : Prop where
  segments : ∀ s ∈ m.link.sublinks, s ∈ d.nodes ∧ d.kind s = .input
  outputs : d.kind m.link.output = .output ∧ d.kind m.link.subOutput = .output ∧ ∀ o ∈ m.extraOutputs, d.kind o = .output
  inputs : d.kind m.link.input = .input ∧ ∀ i ∈ m.extraInputs, d.kind i = .input

/-- The nodes of a split are part of the model handed to the solver: the connections between domains and the internal aggregated node are those of the
constructor, and a route touching the split's own domain leads from a segment to the sub-output or to the segment's own outlet (see `C65_routes`). -/
structure HasSplit (d : Data) (routes : List (List Nat)) (m : MultiSplit) : Prop where
  kinds : SplitKinds d m
  routes : ∀ r ∈ routes, (∃ n ∈ r, m.Inner n) →
    (∃ s ∈ m.link.sublinks, r = [s, m.link.subOutput]) ∨ ∃ q ∈ m.extraLinks.zip m.extraOutputs, r = [q.1, q.2]
  cross : ∀ c ∈ m.cross, c ∈ d.cross
  agg : ∀ a ∈ m.agg, a ∈ d.aggs

end Verif.Composite

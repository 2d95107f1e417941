import Verif.Model.Network
/-!
# What a graph of nodes should be
-/

namespace Verif.Network

/-- Operations on nodes which are in the model: connections are made between nodes which have not been deleted. -/
def Op.live (s : St) : Op → Prop
  | .connect a b f t => ∀ x y us vs, s.heap[a]? = some x → s.heap[b]? = some y → exits a x.slots f = .ok us → entries b y.slots t = .ok vs →
      (∀ u ∈ us, u ∈ s.nodes) ∧ (∀ v ∈ vs, v ∈ s.nodes)
  | _ => True

/-- The states of a model over its history. -/
inductive Reach : St → Prop
  | empty : Reach St.empty
  | step (s : St) (op : Op) : Reach s → op.live s → Reach (op.run s).1

/-- `x` is `root` or one of its sub-nodes, at any depth. -/
inductive Under (s : St) (root : Nat) : Nat → Prop
  | refl : Under s root root
  | child (x y : Nat) : x ∈ s.nodes → s.parent x = some y → Under s root y → Under s root x

/-- The invariant of the graph. -/
structure Inv (s : St) : Prop where
  nodup : s.nodes.Nodup
  bound : ∀ i ∈ s.nodes, i < s.heap.length
  older : ∀ i p, s.parent i = some p → p < i
  ends : ∀ e ∈ s.edges, e.1 ∈ s.nodes ∧ e.2 ∈ s.nodes
  edgesNodup : s.edges.Nodup
  keys : s.keys.Nodup

end Verif.Network

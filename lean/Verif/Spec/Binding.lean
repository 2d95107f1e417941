import Verif.Spec.Relaxing
import Verif.Spec.Composite
/-! # Vocabulary for limits that are not reached -/

namespace Verif.Lp

open Verif Verif.Bounds

/-- An allocation between two others: the share `t` of the second and the rest of the first. -/
def between (t : Rat) (x y : List Rat) : List Rat := List.zipWith (fun a b => (1 - t) * a + t * b) x y

/-- More than 2e-8 above the lower limit. -/
def ClearOfLower (a : F) (v : Rat) : Prop :=
  match a with
  | .negInf => True
  | .fin p => p + 2 * e8 < v
  | _ => False

/-- More than 2e-8 below the upper limit. -/
def ClearOfUpper (b : F) (v : Rat) : Prop :=
  match b with
  | .posInf => True
  | .fin q => v + 2 * e8 < q
  | _ => False

/-- Of the limits `a` and `b`, only those that the flow `v` does not reach were changed, into limits that it does not reach either. -/
structure Unreached (a b a' b' : F) (v : Rat) : Prop where
  limits : LowerLimit a ∧ UpperLimit b ∧ LowerLimit a' ∧ UpperLimit b'
  lower : a' = a ∨ ClearOfLower a v ∧ ClearOfLower a' v
  upper : b' = b ∨ ClearOfUpper b v ∧ ClearOfUpper b' v

/-- The same for the minimum and maximum volume of a storage that receives `q` a day for so many days. -/
structure UnreachedVolume (days : Rat) (s s' : StorageData) (q : Rat) : Prop where
  same : s'.inputs = s.inputs ∧ s'.outputs = s.outputs ∧ s'.volume = s.volume
  inside : (s.mn ≤ s.volume ∧ s.volume ≤ s.mx) ∧ s'.mn ≤ s.volume ∧ s.volume ≤ s'.mx
  size : ((s.mx - s.volume) / days ≤ dblMax - 1 ∧ (s.volume - s.mn) / days ≤ dblMax - 1) ∧ (s'.mx - s.volume) / days ≤ dblMax - 1 ∧ (s.volume - s'.mn) / days ≤ dblMax - 1
  lower : s'.mn = s.mn ∨ s.mn + 2 * e8 * days < s.volume + q * days ∧ s'.mn + 2 * e8 * days < s.volume + q * days
  upper : s'.mx = s.mx ∨ s.volume + q * days + 2 * e8 * days < s.mx ∧ s.volume + q * days + 2 * e8 * days < s'.mx

/-- The models differ only in limits of flows and volumes that are not reached with these flows of the nodes. -/
structure OnlyUnreached (d d' : Data) (flow : Nat → Rat) : Prop where
  kind : d'.kind = d.kind
  nodes : d'.nodes = d.nodes
  cost : d'.cost = d.cost
  cross : d'.cross = d.cross
  virtuals : d'.virtuals = d.virtuals
  aggs : d'.aggs = d.aggs
  days : d'.days = d.days ∧ 0 < d.days
  limits : ∀ n ∈ d.nodes, d.kind n ≠ .other → Unreached (d.minFlow n) (d.maxFlow n) (d'.minFlow n) (d'.maxFlow n) (flow n)
  storages : List.Forall₂ (fun s s' => UnreachedVolume d.days s s' (storageFlow flow s)) d.storages d'.storages

/-- The model with another maximum flow of a node. -/
def withUpper (d : Data) (n : Nat) (q : Rat) : Data := { d with maxFlow := fun m => if m = n then .fin q else d.maxFlow m }

/-- The node can have the maximum flow `q`: at least 1e-8, and at least 2e-8 more than the minimum. -/
structure CanHave (d : Data) (n : Nat) (q : Rat) : Prop where
  size : e8 ≤ q ∧ q ≤ dblMax - 1
  lower : LowerLimit (d.minFlow n)
  apart : ∀ p, d.minFlow n = .fin p → p + 2 * e8 ≤ q

end Verif.Lp

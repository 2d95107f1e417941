import Verif.Spec.Relaxing
/-! # Vocabulary for one restriction in other words -/

namespace Verif.Lp

open Verif Verif.Bounds

/-- The node without limits, other limits staying as they are. -/
def unlimited (d : Data) (n : Nat) : Data :=
  { d with minFlow := fun m => if m = n then .fin 0 else d.minFlow m, maxFlow := fun m => if m = n then .posInf else d.maxFlow m }

/-- The limits of the node given to an aggregated node with that one member. -/
def grouped (d : Data) (n : Nat) : Data :=
  { unlimited d n with aggs := d.aggs ++ [⟨[n], none, none, d.minFlow n, d.maxFlow n⟩] }

/-- Instead of an upper limit, the node has a licence (a virtual storage) with that much volume left, out of a volume of `mx`. -/
def licensed (d : Data) (n : Nat) (volume mx : Rat) : Data :=
  { unlimited d n with virtuals := d.virtuals ++ [⟨[n], [1], true, volume, mx, 0⟩] }

/-- A node that can not carry any water: its upper limit is zero (or below 1e-8), and its lower limit is not above zero. -/
def Closed (d : Data) (n : Nat) : Prop := Optional d n ∧ ∃ q, d.maxFlow n = .fin q ∧ q < e8

/-- The route avoids the nodes. -/
def avoids (l : List Nat) (r : List Nat) : Bool := r.all fun n => !l.contains n

/-- The connection avoids the nodes. -/
def avoidsE (l : List Nat) (e : Nat × Nat) : Bool := !l.contains e.1 && !l.contains e.2

end Verif.Lp

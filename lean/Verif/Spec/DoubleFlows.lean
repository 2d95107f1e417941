import Verif.Spec.Float64
import Verif.Model.DoubleFlows
import Mathlib.Data.List.Nodup
/-! # What flows through a node, in exact arithmetic -/

namespace Verif.Float64

/-- A route counts for a node if it starts or ends there, or if the node is a link on it. -/
def Passes (isLink : Nat → Bool) (route : List Nat) (n : Nat) : Prop := route.head? = some n ∨ route.getLast? = some n ∨ (isLink n = true ∧ n ∈ route)

instance (isLink : Nat → Bool) (route : List Nat) (n : Nat) : Decidable (Passes isLink route n) := by unfold Passes; infer_instance

/-- The flows of the routes that count for a node. -/
def through (isLink : Nat → Bool) (routes : List (List Nat × Rat)) (n : Nat) : List Rat := (routes.filter fun r => decide (Passes isLink r.1 n)).map (·.2)

/-- The flows of the edges that end in a node. -/
def into (edges : List ((Nat × Nat) × Rat)) (n : Nat) : List Rat := (edges.filter fun e => decide (e.1.2 = n)).map (·.2)

/-- The flows of the edges that start in a node. -/
def outOf (edges : List ((Nat × Nat) × Rat)) (n : Nat) : List Rat := (edges.filter fun e => decide (e.1.1 = n)).map (·.2)

/-- Sum of the sizes. -/
def flowSize (l : List Rat) : Rat := (l.map fun q => |q|).sum

/-- What a storage receives from the routes, exactly. -/
def received (isLink : Nat → Bool) (routes : List (List Nat × Rat)) (inlets outlets : List Nat) : Rat :=
  (inlets.map fun n => (through isLink routes n).sum).sum - (outlets.map fun n => (through isLink routes n).sum).sum

/-- The sizes of the flows of the routes at some nodes. -/
def sizeAt (isLink : Nat → Bool) (routes : List (List Nat × Rat)) (nodes : List Nat) : Rat := (nodes.map fun n => flowSize (through isLink routes n)).sum

/-- A run in which the flows of the routes respect, up to `tol`, the row of the storage built from the volume at that moment; rounding adds at most the difference to `tol'`. -/
def FeasibleRoutes (isLink : Nat → Bool) (inlets outlets : List Nat) (tol tol' V mn mx : Rat) : Storage.State → List (Rat × List (List Nat × Rat)) → Prop
  | _, [] => True
  | s, t :: ts =>
    (∀ r ∈ t.2, r.1.Nodup) ∧ 2 * t.2.length + 5 ≤ 2 ^ 53 ∧
    tol + (2 * t.2.length + 5) / 2 ^ 53 * sizeAt isLink t.2 (inlets ++ outlets) + 2 * t.2.length * (inlets ++ outlets).length / 2 ^ 1075 ≤ tol' ∧
    Moderate tol' V (storageStep isLink t.2 inlets outlets t.1 mx mn) ∧ Storage.Respects tol (storageRow s.volume mx mn t.1) (received isLink t.2 inlets outlets) ∧
    FeasibleRoutes isLink inlets outlets tol tol' V mn mx (step s (storageStep isLink t.2 inlets outlets t.1 mx mn)) ts

end Verif.Float64

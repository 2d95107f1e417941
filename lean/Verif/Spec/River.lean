import Verif.Model.River
import Verif.Spec.Composite
/-! # Vocabulary for statements about river nodes -/

namespace Verif.River

open Verif Verif.Bounds Verif.Lp Verif.Composite

/-- The last flow assigned, if no limit was assigned after it. -/
def lastFlow (initial : Rat) (as : List Assign) : Option Rat :=
  match as.getLast? with
  | none => some initial
  | some (.flow v) => some v
  | some _ => none

/-- The last MRF assigned. -/
def lastMrf (initial : F) (as : List GaugeAssign) : F :=
  (as.filterMap fun x => match x with | .mrf v => some v | _ => none).getLastD initial

/-- The last cost of the flow up to the MRF. -/
def lastMrfCost (initial : Rat) (as : List GaugeAssign) : Rat :=
  (as.filterMap fun x => match x with | .mrfCost v => some v | _ => none).getLastD initial

/-- The last cost of the flow beyond the MRF. -/
def lastCost (initial : Rat) (as : List GaugeAssign) : Rat :=
  (as.filterMap fun x => match x with | .cost v => some v | _ => none).getLastD initial

/-- The part of a flow up to the MRF (MRFs below 1e-8 count as zero). -/
def upToMrf (mrf : F) (total : Rat) : Rat :=
  match mrf.effective with
  | .fin m => min total m
  | _ => total

/-- The two segments of a gauge carry the limits and costs in `a`, and nothing else refers to them. -/
structure IsGauge (d : Data) (p : Piecewise) (first second : Nat) (a : Attrs) : Prop where
  segments : p.sublinks = [first, second]
  maxFlow : d.maxFlow first = a.maxFlow first ∧ d.maxFlow second = a.maxFlow second
  cost : d.cost first = a.cost first ∧ d.cost second = a.cost second
  free : Unreferenced d first ∧ Unreferenced d second

/-- A discharge `n` in line: all water of `up` goes to it, all other water at it is its own, and all water from it goes to `down`, which gets no other. -/
structure InLine (d : Data) (routes : List (List Nat)) (up n down : Nat) : Prop where
  above : ∀ r ∈ routes, up ∈ r → n ∈ r ∧ r.head? ≠ some n
  own : ∀ r ∈ routes, n ∈ r → r.head? = some n ∨ up ∈ r
  below : ∀ r ∈ routes, n ∈ r ↔ down ∈ r
  counted : ∀ r ∈ routes, (up ∈ r → Carries d r up) ∧ (down ∈ r → Carries d r down)

end Verif.River

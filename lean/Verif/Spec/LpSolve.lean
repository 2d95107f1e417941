import Verif.Model.LpSolve
import Verif.Spec.Lp
import Mathlib.Data.List.Forall2
/-! # When lp_solve and GLPK are given the same problem -/

namespace Verif.LpSolve

open Verif Verif.Bounds Verif.Lp

/-- Zero, or at least 1e-8 in magnitude (GLPK is given zero for anything smaller, lp_solve is given the value itself). -/
def Visible (v : Rat) : Prop := v = 0 ∨ e8 ≤ |v|

instance (v : Rat) : Decidable (Visible v) := by unfold Visible; infer_instance

/-- Limits without tiny values: neither bound is NaN, they coincide or are in order and at least 1e-8 apart, and do not coincide at an infinite value. -/
def Clean (mn mx : F) : Prop :=
  match toDouble mn, toDouble mx with
  | some a, some b => Visible a ∧ Visible b ∧ (a = b ∨ a + e8 ≤ b) ∧ ¬(a = b ∧ (a = dblMax ∨ a = -dblMax))
  | _, _ => False

instance (mn mx : F) : Decidable (Clean mn mx) := by unfold Clean; split <;> infer_instance

/-- Volumes within their bounds, with no tiny room. -/
def Settled (volume mx mn days : Rat) : Prop :=
  mn ≤ volume ∧ volume ≤ mx ∧ 0 < days ∧ Visible ((volume - mn) / days) ∧ Visible ((mx - volume) / days)

instance (volume mx mn days : Rat) : Decidable (Settled volume mx mn days) := by unfold Settled; infer_instance

/-- The values GLPK is given for an aggregated node are those `setup` has seen: numbers for limits, factors without scale and offset. -/
def SameAgg (a : Agg) (b : AggData) : Prop :=
  a.paramLimit = false ∧ a.nodes = b.nodes ∧ a.weights = b.weights ∧ a.minFlow = b.minFlow ∧ a.maxFlow = b.maxFlow ∧
  match a.factors with
  | .none => b.factors = none
  | .fixed cs => b.factors = some (cs.map Constant.get) ∧ cs.length = a.nodes.length ∧ ∀ c ∈ cs, c.scale = 1 ∧ c.offset = 0
  | .dynamic => False

/-- A model without tiny values, whose aggregated nodes have not changed since `setup`, and whose storages and virtual storages are within their bounds (an
inactive virtual storage only has to have room between its bounds). -/
structure Plain (d : Data) (aggs : List Agg) (routes : List (List Nat)) : Prop where
  nodes : d.nodes.Nodup
  routed : WellRouted d routes
  cross : (d.cross.map (·.1)).Nodup ∧ ∀ c ∈ d.cross, c.1 ∈ d.nodes ∧ d.kind c.1 = .output
  limits : ∀ n ∈ d.nodes, d.kind n ≠ .other → Clean (d.minFlow n) (d.maxFlow n)
  storages : ∀ s ∈ d.storages, Settled s.volume s.mx s.mn d.days
  virtuals : ∀ v ∈ d.virtuals, if v.active then Settled v.volume v.mx v.mn d.days else v.mx ≠ v.mn
  same : List.Forall₂ SameAgg aggs d.aggs
  aggs : ∀ a ∈ d.aggs, Clean a.minFlow a.maxFlow

end Verif.LpSolve

import Verif.Spec.Solvable
/-! # Vocabulary for inflows that run off -/

namespace Verif.Lp

open Verif Verif.Bounds

/-- Any amount of water may pass the node, and none has to. -/
def Open (d : Data) (n : Nat) : Prop := LowerLimit (d.minFlow n) ∧ LimitLe (d.minFlow n) (.fin 0) ∧ d.maxFlow n = .posInf

/-- No virtual storage, aggregated node or conversion between domains counts the flow of the node. -/
structure Unmetered (d : Data) (n : Nat) : Prop where
  virtuals : ∀ v ∈ d.virtuals, n ∉ v.nodes
  aggs : ∀ a ∈ d.aggs, n ∉ a.nodes
  cross : ∀ c ∈ d.cross, n ≠ c.1 ∧ ∀ i ∈ c.2, n ≠ i.1

/-- A way down: each route but the last ends in a storage, and the next one starts from the same storage; the last one does not end in a storage. -/
def Descends (d : Data) : List (List Nat) → Prop
  | [] => True
  | [r] => ∀ s ∈ d.storages, ∀ t, r.getLast? = some t → t ∉ s.outputs
  | r :: r' :: l => (∀ s ∈ d.storages, (∃ t, r.getLast? = some t ∧ t ∈ s.outputs) ↔ ∃ t, r'.head? = some t ∧ t ∈ s.inputs) ∧ Descends d (r' :: l)

/-- The inputs `ins` may have minimum flows (as catchments have); each has a way down, `way n`, on which everything is open; nothing else has to flow. -/
structure RunsOff (d : Data) (rs : List (List Nat)) (ins : List Nat) (way : Nat → List (List Nat)) : Prop where
  days : 0 < d.days
  routes : rs.Nodup
  distinct : ins.Nodup
  inflows : ∀ n ∈ ins, d.kind n = .input ∧ LowerLimit (d.minFlow n) ∧ UpperLimit (d.maxFlow n) ∧ LimitLe (.fin 0) (d.minFlow n) ∧ LimitLe (d.minFlow n) (d.maxFlow n)
  others : ∀ n ∈ d.nodes, d.kind n ≠ .other → n ∉ ins → Optional d n
  aggs : ∀ a ∈ d.aggs, LowerLimit a.minFlow ∧ UpperLimit a.maxFlow ∧ LimitLe a.minFlow (.fin 0) ∧ LimitLe (.fin 0) a.maxFlow
  starts : ∀ n ∈ ins, ∃ r l, way n = (n :: r) :: l ∧ ∀ k ∈ r ++ l.flatten, k ∉ ins ∧ Open d k
  known : ∀ n ∈ ins, ∀ r ∈ way n, r ∈ rs
  unmetered : ∀ n ∈ ins, ∀ r ∈ way n, ∀ k ∈ r, Unmetered d k
  descends : ∀ n ∈ ins, (∀ s ∈ d.storages, n ∉ s.inputs) ∧ Descends d (way n)

end Verif.Lp

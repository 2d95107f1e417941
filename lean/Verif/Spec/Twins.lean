import Verif.Spec.Relaxing
/-! # Vocabulary for a supply in two halves -/

namespace Verif.Lp

open Verif Verif.Bounds

/-- The node is in no storage, virtual storage or aggregated node and has no part in a connection between domains. -/
structure Apart (d : Data) (n : Nat) : Prop where
  storages : ∀ s ∈ d.storages, n ∉ s.inputs ∧ n ∉ s.outputs
  virtuals : ∀ v ∈ d.virtuals, n ∉ v.nodes
  aggs : ∀ g ∈ d.aggs, n ∉ g.nodes
  cross : ∀ c ∈ d.cross, c.1 ≠ n ∧ ∀ i ∈ c.2, i.1 ≠ n

/-- Two supplies of the same cost, with limits `A` and `B` (from 1e-8 up), that no other part of the model mentions. -/
structure Twins (d : Data) (a b : Nat) (A B : Rat) : Prop where
  differ : a ≠ b
  once : d.nodes.Nodup
  here : a ∈ d.nodes ∧ b ∈ d.nodes
  kind : d.kind a = .input ∧ d.kind b = .input
  cost : d.cost a = d.cost b
  lower : d.minFlow a = .fin 0 ∧ d.minFlow b = .fin 0
  upper : d.maxFlow a = .fin A ∧ d.maxFlow b = .fin B
  size : e8 ≤ A ∧ e8 ≤ B ∧ A + B ≤ dblMax - 1
  apart : Apart d a ∧ Apart d b

/-- One supply with both limits together instead of the two. -/
def joined (d : Data) (a b : Nat) (A B : Rat) : Data :=
  { d with nodes := d.nodes.filter (· ≠ b), maxFlow := fun n => if n = a then .fin (A + B) else d.maxFlow n }

/-- Sums of corresponding values. -/
def plus (u v : List Rat) : List Rat := List.zipWith (· + ·) u v

end Verif.Lp

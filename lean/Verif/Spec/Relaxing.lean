import Verif.Spec.Parts
/-! # Vocabulary for statements about wider limits -/

namespace Verif.Lp

open Verif Verif.Bounds

/-- Order of limits; not-a-number is not comparable. -/
def LimitLe : F → F → Prop
  | .fin p, .fin q => p ≤ q
  | .negInf, .negInf => True
  | .negInf, .fin _ => True
  | .negInf, .posInf => True
  | .fin _, .posInf => True
  | .posInf, .posInf => True
  | _, _ => False

/-- The limits `a'`, `b'` leave more room than the limits `a ≤ b`. The lower limit stays as it is, or the wider limits are at least 1e-8 apart. -/
structure Wider (a b a' b' : F) : Prop where
  limits : LowerLimit a ∧ UpperLimit b ∧ LowerLimit a' ∧ UpperLimit b'
  ordered : LimitLe a b
  lower : LimitLe a' a
  upper : LimitLe b b'
  apart : a' = a ∨ ¬Close a'.effective b'.effective

/-- The model `d'` differs from `d` only by wider limits. -/
structure Relaxed (d d' : Data) : Prop where
  kind : d'.kind = d.kind
  nodes : d'.nodes = d.nodes
  cost : d'.cost = d.cost
  cross : d'.cross = d.cross
  days : d'.days = d.days ∧ 0 < d.days
  limits : ∀ n ∈ d.nodes, d.kind n ≠ .other → Wider (d.minFlow n) (d.maxFlow n) (d'.minFlow n) (d'.maxFlow n)
  storages : List.Forall₂ (fun s s' => (s'.inputs = s.inputs ∧ s'.outputs = s.outputs ∧ s'.volume = s.volume) ∧ (s.mn ≤ s.mx ∧ s'.mn ≤ s.mn ∧ s.mx ≤ s'.mx) ∧
    (s'.mx - s.volume) / d.days ≤ dblMax - 1 ∧ (s.volume - s'.mn) / d.days ≤ dblMax - 1) d.storages d'.storages
  virtuals : List.Forall₂ (fun v v' => (v'.nodes = v.nodes ∧ v'.factors = v.factors ∧ v'.volume = v.volume ∧ v'.active = v.active) ∧ (v.mn ≤ v.mx ∧ v'.mn ≤ v.mn ∧ v.mx ≤ v'.mx) ∧
    (v'.mx - v.volume) / d.days ≤ dblMax - 1 ∧ (v.volume - v'.mn) / d.days ≤ dblMax - 1) d.virtuals d'.virtuals
  aggs : List.Forall₂ (fun a a' => (a'.nodes = a.nodes ∧ a'.weights = a.weights ∧ a'.factors = a.factors) ∧ Wider a.minFlow a.maxFlow a'.minFlow a'.maxFlow) d.aggs d'.aggs

/-- A node that need not carry any water: its limits include zero. -/
def Optional (d : Data) (n : Nat) : Prop :=
  LowerLimit (d.minFlow n) ∧ UpperLimit (d.maxFlow n) ∧ LimitLe (d.minFlow n) (.fin 0) ∧ LimitLe (.fin 0) (d.maxFlow n)

end Verif.Lp

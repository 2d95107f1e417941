import Verif.Model.FixedOnce
/-! # Specification: values written once -/

namespace Verif.Once

open Verif.Bounds Verif.Lp

/-- What a limit or factor is in scenario `s`. -/
def Attr.says {α : Type} (a : Attr α) (s : Nat) : α := match a with
  | .lit v => v
  | .par _ values => values s

/-- What a cost is in scenario `s`. -/
def Cost.says (a : Cost) (s : Nat) : Rat := match a with
  | .lit v => v
  | .par values => values s

/-- The problem of scenario `s` with the values the model has now. -/
def Conf.now (c : Conf) (sh : Shape) (s : Nat) (d : Data) : Data :=
  { d with
    minFlow := fun n => (c.mn n).says s
    maxFlow := fun n => (c.mx n).says s
    cost := fun n => (c.cost n).says s
    aggs := d.aggs.zipIdx.map fun q => { q.1 with factors := if sh.hasFactors q.2 then some ((c.factors q.2).map fun p => p.says s) else none } }

/-- Constant parameters have their constant value in every scenario. -/
def Attr.Sound {α : Type} : Attr α → Prop
  | .par (some v) vs => ∀ s, vs s = v
  | _ => True

/-- Not a setup. -/
def Ev.isSetup : Ev → Bool
  | .setup _ _ => true
  | _ => false

/-- A solve. -/
def Ev.isSolve : Ev → Bool
  | .solve _ _ => true
  | _ => false

/-- What may not change: `c0` at setup, `c1` at the last reset, `c` now.  Constant limits and factors may change between setup and reset, but
not their being constant; fixed costs may not change after setup. -/
structure Steady (o : Options) (sh : Shape) (c0 c1 c : Conf) : Prop where
  flows : o.flows = true → ∀ n ∈ sh.nodes, (c0.mn n).constant.isSome → (c0.mx n).constant.isSome →
    (c1.mn n).constant = (c.mn n).constant ∧ (c1.mx n).constant = (c.mx n).constant ∧ (c.mn n).constant.isSome ∧ (c.mx n).constant.isSome
  costs : o.costs = true → ∀ n ∈ sh.nodes, ∀ v, c0.cost n = .lit v → c.cost n = .lit v
  factors : o.factors = true → ∀ i < sh.aggs, sh.hasFactors i = true → (∀ p ∈ c0.factors i, p.constant.isSome) →
    (c1.factors i).map Attr.constant = (c.factors i).map Attr.constant ∧ ∀ p ∈ c.factors i, p.constant.isSome

/-- Constant parameters of the model have their constant value in every scenario. -/
structure Conf.Sound (c : Conf) : Prop where
  mn : ∀ n, (c.mn n).Sound
  mx : ∀ n, (c.mx n).Sound
  factors : ∀ i, ∀ p ∈ c.factors i, p.Sound

end Verif.Once

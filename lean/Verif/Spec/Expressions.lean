import Verif.Model.Expressions
import Mathlib.Data.List.Forall2
/-! What the values of parameters computed from other parameters should be. -/

namespace Verif.Expressions

/-- What an aggregated parameter's value `r` should be when its children's values are `as`. -/
def AggMeaning (f : Aggregate.Func) (as : List Rat) (r : Option Rat) : Prop :=
  match f with
  | .sum => r = some as.sum
  | .product => r = some as.prod
  | .mean => as ≠ [] → ∃ m, r = some m ∧ m * as.length = as.sum
  | .max => as ≠ [] → ∃ m, r = some m ∧ m ∈ as ∧ ∀ a ∈ as, a ≤ m
  | .min => as ≠ [] → ∃ m, r = some m ∧ m ∈ as ∧ ∀ a ∈ as, m ≤ a
  | .median => as ≠ [] → ∃ m, r = some m ∧ as.length ≤ 2 * (as.filter fun x => decide (x ≤ m)).length ∧
      as.length ≤ 2 * (as.filter fun x => decide (m ≤ x)).length
  | .any | .all => r = none

/-- What the value `r` of a parameter should be in scenario `g`, when the values of all parameters are `val`. -/
def Meaning (k : Kind) (val : Nat → Nat → Option Rat) (g : Nat) (r : Option Rat) : Prop :=
  match k with
  | .leaf f => r = some (f g)
  | .index f => r = some (f g : Rat)
  | .negative p => ∀ a, val p g = some a → r = some (-a)
  | .maximum p t => ∀ a, val p g = some a → r = some (max a t)
  | .negativeMax p t => ∀ a, val p g = some a → r = some (max (-a) t)
  | .minimum p t => ∀ a, val p g = some a → r = some (min a t)
  | .negativeMin p t => ∀ a, val p g = some a → r = some (min (-a) t)
  | .offset p o => ∀ a, val p g = some a → r = some (a + o)
  | .scaled p s => ∀ a, val p g = some a → r = some (a * s)
  | .division n d => ∀ a b, val n g = some a → val d g = some b →
      (b ≠ 0 → ∃ q, r = some q ∧ q * b = a) ∧ (b = 0 → r = none)
  | .aggregated f ps => ∀ as, List.Forall₂ (fun p a => val p g = some a) ps as → AggMeaning f as r
  | .indexedArray i ps => (∀ (j p : Nat), val i g = some (j : Rat) → ps[j]? = some p → r = val p g) ∧
      (∀ (j p : Nat), val i g = some (-(j + 1 : Nat) : Rat) → ps.reverse[j]? = some p → r = val p g) ∧
      (∀ j : Int, val i g = some (j : Rat) → (ps.length ≤ j ∨ j < -ps.length) → r = none)
  | .wrapper member ps => ∀ p, ps[member g]? = some p → r = val p g
  | .interpolated p f => ∀ a, val p g = some a → r = f a
  | .quadrature u none f => ∀ b, val u g = some b → r = f 0 b
  | .quadrature u (some l) f => ∀ a b, val l g = some a → val u g = some b → r = f a b
  | .computed ps f => ∀ as, List.Forall₂ (fun p a => val p g = some a) ps as → r = f g as

/-- Every parameter has, in every scenario, the value its definition gives on the values of the parameters it currently refers to. -/
def Coherent (h : Nat → Option Kind) (val : Nat → Nat → Option Rat) : Prop :=
  ∀ x k, h x = some k → ∀ g, Meaning k val g (val x g)

/-- Operations after which every parameter is still registered with the parameters it reads: everything except replacing a parameter that is used twice by the same
object, and except assigning a plain attribute. -/
def Safe (s : St) : Op → Prop
  | .setNumerator x p => ∀ n d, s.heap x = some (.division n d) → n = d → p = d
  | .setDenominator x p => ∀ n d, s.heap x = some (.division n d) → n = d → p = n
  | .aggRemove x p => ∀ f ps, s.heap x = some (.aggregated f ps) → ps.count p ≤ 1
  | .setUpper x p => ∀ u l f, s.heap x = some (.quadrature u l f) → l = some u → p = u
  | .setLower x p => ∀ u l f, s.heap x = some (.quadrature u l f) → l = some u → p = some u
  | .assign _ _ => False
  | _ => True

/-- Histories made of safe operations. -/
def SafeHistory : List Op → Prop
  | ops => ∀ before op after, ops = before ++ op :: after → ∀ s, runOps before = some s → Safe s op

/-- The object that an operation concerns. -/
def Op.target : Op → Nat
  | .new x _ | .setNumerator x _ | .setDenominator x _ | .aggAdd x _ | .aggRemove x _ | .setInterpolated x _ | .setUpper x _ | .setLower x _ | .assign x _ => x

/-- What an operation makes of the object it concerns: a setter puts the given parameter in the place of one operand and leaves everything else. -/
inductive Rewired : Op → Option Kind → Kind → Prop
  | new (x : Nat) (k : Kind) : Rewired (.new x k) none k
  | numerator (x p n d : Nat) : Rewired (.setNumerator x p) (some (.division n d)) (.division p d)
  | denominator (x p n d : Nat) : Rewired (.setDenominator x p) (some (.division n d)) (.division n p)
  | add (x p : Nat) (f : Aggregate.Func) (ps : List Nat) : Rewired (.aggAdd x p) (some (.aggregated f ps)) (.aggregated f (ps ++ [p]))
  | remove (x p : Nat) (f : Aggregate.Func) (before after : List Nat) (h : p ∉ before) :
      Rewired (.aggRemove x p) (some (.aggregated f (before ++ p :: after))) (.aggregated f (before ++ after))
  | interpolated (x p o : Nat) (f : Rat → Option Rat) : Rewired (.setInterpolated x p) (some (.interpolated o f)) (.interpolated p f)
  | upper (x p u : Nat) (l : Option Nat) (f : Rat → Rat → Option Rat) : Rewired (.setUpper x p) (some (.quadrature u l f)) (.quadrature p l f)
  | lower (x u : Nat) (p l : Option Nat) (f : Rat → Rat → Option Rat) : Rewired (.setLower x p) (some (.quadrature u l f)) (.quadrature u p f)
  | negative (x p o : Nat) : Rewired (.assign x p) (some (.negative o)) (.negative p)
  | maximum (x p o : Nat) (t : Rat) : Rewired (.assign x p) (some (.maximum o t)) (.maximum p t)
  | negativeMax (x p o : Nat) (t : Rat) : Rewired (.assign x p) (some (.negativeMax o t)) (.negativeMax p t)
  | minimum (x p o : Nat) (t : Rat) : Rewired (.assign x p) (some (.minimum o t)) (.minimum p t)
  | negativeMin (x p o : Nat) (t : Rat) : Rewired (.assign x p) (some (.negativeMin o t)) (.negativeMin p t)
  | offset (x p o : Nat) (t : Rat) : Rewired (.assign x p) (some (.offset o t)) (.offset p t)

/-- `Replaces h op k o new`: the operation, on an object defined by `k`, puts `new` in the place of the parameter `o`. Left out is the replacement of an aggregated parameter without members by the setters made by `parameter_property`. -/
inductive Replaces (h : Nat → Option Kind) : Op → Kind → Nat → Option Nat → Prop
  | numerator (x p n d : Nat) : Replaces h (.setNumerator x p) (.division n d) n (some p)
  | denominator (x p n d : Nat) : Replaces h (.setDenominator x p) (.division n d) d (some p)
  | member (x p : Nat) (f : Aggregate.Func) (ps : List Nat) : Replaces h (.aggRemove x p) (.aggregated f ps) p none
  | interpolated (x p o : Nat) (f : Rat → Option Rat) (ho : ∀ g, h o ≠ some (.aggregated g [])) : Replaces h (.setInterpolated x p) (.interpolated o f) o (some p)
  | upper (x p u : Nat) (l : Option Nat) (f : Rat → Rat → Option Rat) (ho : ∀ g, h u ≠ some (.aggregated g [])) : Replaces h (.setUpper x p) (.quadrature u l f) u (some p)
  | lower (x u l : Nat) (p : Option Nat) (f : Rat → Rat → Option Rat) (ho : ∀ g, h l ≠ some (.aggregated g [])) : Replaces h (.setLower x p) (.quadrature u (some l) f) l p

end Verif.Expressions

import Mathlib.Algebra.Order.Field.Rat
/-!
# Aggregated parameters

Models `AggregatedParameter` (`/repo/pywr/parameters/_parameters.pyx:1439-1557`) and `AggregatedIndexParameter` (`:1559-1685`): `calc_values`, `add`, `remove`. Child
values are finite numbers. Index values are unbounded integers (C `int` in the code: overflow is not modelled). User functions (`CUSTOM`) are
not modelled.
-/

namespace Verif.Aggregate

/-- Current values of a child, by scenario. -/
abbrev Vals (α : Type) := Nat → α

/-- `accum[...] = init`, then for every parameter and every scenario `accum[i] = f(accum[i], values[i])`. -/
def accumulate {α β : Type} (init : β) (f : β → α → β) (params : List (Vals α)) : Vals β :=
  params.foldl (fun acc v i => f (acc i) (v i)) fun _ => init

inductive Func
  | sum | min | max | mean | product | any | all | median
deriving DecidableEq

/-- `np.median`: sort; the middle element, or the mean of the two middle ones. -/
def median (l : List Rat) : Rat :=
  let s := l.mergeSort (fun a b => decide (a ≤ b))
  if s.length % 2 = 1 then s.getD (s.length / 2) 0
  else (s.getD (s.length / 2 - 1) 0 + s.getD (s.length / 2) 0) / 2

/-- `if values[i] > accum[i]: accum[i] = values[i]`; `none` is `-inf`. -/
def maxStep {α : Type} [LT α] [DecidableLT α] (acc : Option α) (v : α) : Option α :=
  match acc with
  | none => some v
  | some a => if v > a then some v else some a

/-- `if values[i] < accum[i]: accum[i] = values[i]`; `none` is `+inf`. -/
def minStep {α : Type} [LT α] [DecidableLT α] (acc : Option α) (v : α) : Option α :=
  match acc with
  | none => some v
  | some a => if v < a then some v else some a

/-- `AggregatedParameter.calc_values` (`:1505-1557`): value in scenario `i`. Outer `none`: "Unsupported aggregation function". Inner `none`: an infinite value (no children; `setup`
rejects that). The median takes the values scenario by scenario. -/
def evaluate (f : Func) (params : List (Vals Rat)) (i : Nat) : Option (Option Rat) :=
  match f with
  | .product => some (some (accumulate 1 (· * ·) params i))
  | .sum => some (some (accumulate 0 (· + ·) params i))
  | .max => some (accumulate none maxStep params i)
  | .min => some (accumulate none minStep params i)
  | .mean => some (some (accumulate 0 (· + ·) params i / (params.length : Rat)))
  | .median => some (some (median (params.map fun p => p i)))
  | .any | .all => none

/-- `AggregatedIndexParameter.calc_values` (`:1627-1684`). The start values `INT_MIN`, `INT_MAX` act as infinities (`none`). -/
def evaluateIndex (f : Func) (params : List (Vals Int)) (i : Nat) : Option (Option Int) :=
  match f with
  | .product => some (some (accumulate 1 (· * ·) params i))
  | .sum => some (some (accumulate 0 (· + ·) params i))
  | .max => some (accumulate none maxStep params i)
  | .min => some (accumulate none minStep params i)
  | .any => some (some (accumulate 0 (fun (a v : Int) => if v ≠ 0 then 1 else a) params i))
  | .all => some (some (accumulate 1 (fun (a v : Int) => if ¬ v ≠ 0 then 0 else a) params i))
  | .mean | .median => none

/-! ## The children of an aggregated parameter -/

/-- `parameters` (a list of parameter ids) and `children` (a set; membership only). -/
structure Members where
  parameters : List Nat
  children : List Nat

/-- `__init__` (`:1453-1458`). -/
def Members.init (ps : List Nat) : Members := ⟨ps, ps.foldr List.insert []⟩

/-- `add` (`:1487-1489`): append to the list; `parent.children` is a set. -/
def Members.add (m : Members) (p : Nat) : Members := ⟨m.parameters ++ [p], if p ∈ m.children then m.children else p :: m.children⟩

/-- `remove` (`:1491-1493`): `list.remove` (first occurrence, ValueError if absent), then the edge of the
component graph is removed (`_component.pyx:28-34`, an error if absent). -/
def Members.remove (m : Members) (p : Nat) : Option Members :=
  if p ∈ m.parameters ∧ p ∈ m.children then some ⟨m.parameters.erase p, m.children.erase p⟩ else none

end Verif.Aggregate

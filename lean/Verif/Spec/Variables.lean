import Verif.Model.Variables
/-! # Specification: variables of parameters -/

namespace Verif.Vars

open Verif.Opt

/-- Days of the year that make an interpolation: the first of January, at least three, increasing, at most 365. -/
structure GoodDays (l : List Int) : Prop where
  first : l[0]? = some 1
  three : 3 ≤ l.length
  increasing : ∀ (i j : Nat) (a b : Int), i < j → l[i]? = some a → l[j]? = some b → a < b
  last : ∀ v ∈ l, v ≤ 365

/-- A usable parameter: what the constructors ensure, and for a control curve that the variable indices exist. -/
def Par.Ok : Par → Prop
  | .harmonic p => p.amplitudes.length = p.phases.length
  | .monthly p => p.values.length = 12
  | .rbf p => GoodDays p.days ∧ p.values.length = p.days.length ∧ (p.isize = 0 ∨ p.isize = p.values.length - 1)
  | .curve p => ∀ i ∈ p.indices, -(p.values.length : Int) ≤ i ∧ i < p.values.length
  | _ => True

/-- The variable indices of a control curve address different values. -/
def Par.Distinct : Par → Prop
  | .curve p => ∀ (a b : Nat) (i j : Int), a ≠ b → p.indices[a]? = some i → p.indices[b]? = some j → i ≠ j ∧ i ≠ j + p.values.length
  | _ => True

/-- The parameter as the optimisation sees it. -/
def Par.view (p : Par) (d : List Rat) (dRange iRange : List Range) : Var := ⟨p.dsize, p.isize, d, p.ints, dRange, iRange⟩

/-- The values returned by a series of calls for the timesteps `ks`, whose days of the year are given by `doy`. -/
def Harmonic.calls (wave : Nat → Nat → Rat → Rat) (doy : Nat → Nat) : Harmonic → List Nat → List Rat
  | _, [] => []
  | p, k :: ks => (p.value wave k (doy k)).1 :: Harmonic.calls wave doy (p.value wave k (doy k)).2 ks

end Verif.Vars

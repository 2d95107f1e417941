import Verif.Model.Optimisation
/-! # Specification: decision vectors of an optimisation -/

namespace Verif.Opt

open Verif.Bounds Verif.Constraints

/-- A well-formed variable: as many variables and bounds as its sizes say, and not of size zero. -/
structure Var.Ok (v : Var) : Prop where
  pos : 0 < v.dsize + v.isize
  doubles : v.doubles.length = v.dsize
  ints : v.ints.length = v.isize
  dRange : v.dRange.length = v.dsize
  iRange : v.iRange.length = v.isize

/-- `x` lies within the bounds. -/
def Range.Contains (r : Range) (x : Rat) : Prop := (∀ l, r.lo = some l → l ≤ x) ∧ (∀ h, r.hi = some h → x ≤ h)

/-- The bounds are integers. -/
def Range.Integral (r : Range) : Prop := (∀ l, r.lo = some l → ∃ i : Int, l = i) ∧ (∀ h, r.hi = some h → ∃ i : Int, h = i)

/-- The bounds are not contradictory. -/
def Range.Proper (r : Range) : Prop := ∀ l h, r.lo = some l → r.hi = some h → l ≤ h

/-- Position of the first variable of parameter number `i` in the decision vector. -/
def offset (vars : List Var) (i : Nat) : Nat := ((vars.take i).map fun v => v.dsize + v.isize).sum

/-- Length of the decision vector. -/
def total (vars : List Var) : Nat := (vars.map fun v => v.dsize + v.isize).sum

end Verif.Opt

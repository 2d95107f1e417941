import Verif.Model.RecorderKeywords
import Verif.Spec.Keywords
/-! # Specification: what is said about a recorder when it is made -/

namespace Verif.RecorderKeywords
open Verif.Keywords

/-- How many arguments a class takes by position before the name: of its own and of those it is derived from but `Recorder`, and the model. -/
def places : List Level → Nat
  | [] => 1
  | l :: ls =>
    if l.ctor.varArgs && l.ctor.passArgs && !(l.ctor.formals.any fun f => f.1 == "name") then l.ctor.formals.length + (places ls - l.ctor.passes.length)
    else (l.ctor.formals.takeWhile fun f => f.1 != "name").length

/-- At which place among the arguments by position the name is; `none`: at none. -/
def namePlace : List Level → Option Nat
  | [] => none
  | l :: ls =>
    if l.ctor.formals.any fun f => f.1 == "name" then l.ctor.formals.findIdx? fun f => f.1 == "name"
    else if l.ctor.passArgs then (namePlace ls).map fun i => l.ctor.formals.length + (i - l.ctor.passes.length)
    else none

/-- All keywords a class knows. -/
def keywords : List Level → List String
  | [] => ["model", "agg_func", "ignore_nan", "is_objective", "epsilon", "name", "constraint_lower_bounds", "constraint_upper_bounds", "comment", "tags"]
  | l :: ls => l.ctor.known ++ keywords ls

end Verif.RecorderKeywords

import Verif.Model.NodeLoading
/-!
# Specification: nodes in a document
-/

namespace Verif.NodeLoading

/-- What a value in a document stands for: a name stands for the parameter of that name, numbers and `null` for themselves. -/
def standsFor (known : String → Option Param) : Value → Option Value
  | .num q => some (.num q)
  | .inf => some .inf
  | .none => some .none
  | .text s => match known s with
    | some p => some (.param p)
    | none => none
  | .param _ => none

/-- The keyword arguments that a document stands for: the values of the keys in `held` are references to parameters (or numbers, or `null`), one by one in lists. -/
def resolve (known : String → Option Param) (held : List String) (doc : Kw) : Option Kw :=
  doc.mapM fun e =>
    if held.contains e.1 then
      match e.2 with
      | .one v => (standsFor known v).map fun v => (e.1, .one v)
      | .many vs => (vs.mapM (standsFor known)).map fun vs => (e.1, .many vs)
    else some e

/-- The keyword `k`, or `d` if it is not given; `null` stands for `n`. -/
def keyword (kw : Kw) (k : String) (d n : Value) : Option Value :=
  match kw.lookup k with
  | none => some d
  | some (.one .none) => some n
  | some (.one v) => some v
  | some (.many _) => none

end Verif.NodeLoading

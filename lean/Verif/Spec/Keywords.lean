import Verif.Model.Keywords
/-! # Specification: what is said about a parameter when it is made -/

namespace Verif.Keywords

/-- What a keyword says, or else the default. -/
def given (kw : Kw) (k : String) (default : Val) : Val := (kw.lookup k).getD default

/-- What the keywords say about a component. -/
def said (kw : Kw) : Attrs := ⟨given kw "name" .none, given kw "comment" .none, given kw "tags" .none, given kw "is_variable" (.flag false)⟩

/-- The keywords every parameter has. -/
def common : List String := ["name", "comment", "tags", "is_variable"]

/-- How many arguments a class takes by position, of its own and of those it is derived from but `Parameter`, and the model; further ones would be the name, the comment and the tags. -/
def places : List Ctor → Nat
  | [] => 1
  | c :: cs => if c.varArgs && c.passArgs then c.formals.length + (places cs - c.passes.length) else c.formals.length

/-- All keywords a class knows. -/
def keywords : List Ctor → List String
  | [] => "model" :: common
  | c :: cs => c.known ++ keywords cs

end Verif.Keywords

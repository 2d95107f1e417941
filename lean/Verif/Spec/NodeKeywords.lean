import Verif.Model.NodeKeywords
import Verif.Spec.Keywords
/-! # Specification: what is said about a node when it is made -/

namespace Verif.NodeKeywords
open Verif.Keywords

/-- At which place among the arguments by position the name is, if it is at `q` for the base class; `none`: it has to be a keyword. -/
def place : List Level → Option Nat → Option Nat
  | [], q => q
  | l :: ls, q =>
    if l.ctor.known.contains "name" then l.ctor.formals.findIdx? fun f => f.1 == "name"
    else (place ls q).map fun i => l.ctor.formals.length + (i - l.ctor.passes.length)

/-- The same for a class: for `AbstractNode` the name comes after the model. -/
def Cls.place (c : Cls) : Option Nat := NodeKeywords.place c.above (NodeKeywords.place c.below (some 1))

/-- The keywords of a list of constructors. -/
def known (ls : List Level) : List String := ls.flatMap fun l => l.ctor.known

/-- All keywords a class knows. -/
def Cls.keywords (c : Cls) : List String := known c.above ++ known c.below ++ ["model", "name", "comment", "parent", "domain", "tags", "position", "color", "visible"]

/-- The colours of nodes when none is given. -/
def colour : String → Val
  | "Output" => .str "#FFF467"
  | "Link" => .str "#A0A0A0"
  | "River" => .str "#A0A0A0"
  | _ => .str "black"

end Verif.NodeKeywords

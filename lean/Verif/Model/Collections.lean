/-!
# The collections of components of a model

Models `NamedIterator` (`/repo/pywr/_model.pyx:1014-1064`), the properties `components`, `recorders`, `parameters`, `variables`, `constraints`, `objectives` of a model (`:127-149`), `Component.__init__` and the name
setter (`/repo/pywr/_component.pyx:83-102`) and the default name of a recorder (`/repo/pywr/recorders/_recorders.pyx:224-225`). Components are numbers in the order of their creation, the order of the
component graph's nodes; edges between them are the matter of C01.
-/

namespace Verif.Collections

/-! ## NamedIterator -/

/-- `_objects`: objects (numbers stand for their identity) with their names; `none` is the name `None`. -/
abbrev Named := List (Nat × Option String)

/-- `__getitem__` (`:1021-1026`); `none`: `KeyError`. -/
def Named.get (it : Named) (key : Option String) : Option Nat := (it.find? fun o => o.2 == key).map (·.1)

/-- `__delitem__` (`:1028-1031`): the first object with the name, then `list.remove`, which takes the first equal object. -/
def Named.del (it : Named) (key : Option String) : Option Named :=
  match it.get key with
  | none => none
  | some i => some (it.eraseP fun o => o.1 == i)

/-- `__setitem__` (`:1033-1035`): the key is not looked at. -/
def Named.set (it : Named) (_key : Option String) (o : Nat × Option String) : Named := it ++ [o]

/-- `append` (`:1062-1064`). -/
def Named.append (it : Named) (o : Nat × Option String) : Named := it ++ [o]

/-- `__contains__` (`:1056-1060`) for a name. -/
def Named.hasName (it : Named) (key : Option String) : Bool := it.any fun o => o.2 == key

/-- `__contains__` for an object. -/
def Named.hasObject (it : Named) (i : Nat) : Bool := it.any fun o => o.1 == i

/-! ## The components of a model -/

inductive Kind
  | parameter
  | recorder
  | other
deriving DecidableEq

/-- A component as far as the collections look at it. -/
structure Comp where
  name : Option String
  kind : Kind
  isVariable : Bool
  isConstraint : Bool
  isObjective : Bool
deriving DecidableEq

/-- The components in the graph: the position is the number of the component (nothing is ever taken out of the graph by the modelled operations). -/
abbrev St := List Comp

/-- The objects and names of the components that `p` holds for. -/
def view (st : St) (p : Comp → Bool) : Named := (st.zipIdx.filter fun c => p c.1).map fun c => (c.2, c.1.name)

def components (st : St) : Named := view st fun _ => true
def parameters (st : St) : Named := view st fun c => c.kind == .parameter
def recorders (st : St) : Named := view st fun c => c.kind == .recorder
def variableParameters (st : St) : Named := view st fun c => c.kind == .parameter && c.isVariable
def constraints (st : St) : Named := view st fun c => c.kind == .recorder && c.isConstraint
def objectives (st : St) : Named := view st fun c => c.kind == .recorder && c.isObjective

/-- A user's action. -/
inductive Op
  /-- A constructor of class `cls` (its name in small letters) with the attributes given; `rest` tells whether what the constructor of the class does after `Component.__init__` goes through. -/
  | create (cls : String) (c : Comp) (rest : Bool)
  /-- `component.name = name`. -/
  | rename (i : Nat) (name : Option String)
  /-- `del model.components[key]` (or of another collection). -/
  | del (p : Comp → Bool) (key : Option String)
  /-- `model.components[key] = object` or `model.components.append(object)`. -/
  | put (p : Comp → Bool) (o : Nat × Option String)

/-- The check in the name setter (`_component.pyx:97-102`): whether the name can be taken. -/
def free (st : St) (name : Option String) : Bool := name.isNone || !((components st).hasName name)

/-- The name a component is made with: recorders have a default (`_recorders.pyx:224-225`). -/
def given (cls : String) (c : Comp) : Option String := if c.kind = .recorder then some (c.name.getD cls) else c.name

/-- One action: whether it went through, and the components afterwards. The collections are made anew whenever they are asked for (`_model.pyx:127-149`), so that changing one changes nothing in the model. -/
def step (st : St) : Op → Bool × St
  | .create cls c rest =>
    let name := given cls c
    if free st name then (rest, st ++ [{ c with name := name }]) else (false, st)
  | .rename i name =>
    match st[i]? with
    | none => (false, st)
    | some c => if free st name then (true, st.set i { c with name := name }) else (false, st)
  | .del p key => (((view st p).del key).isSome, st)
  | .put _ _ => (true, st)

/-- A history. -/
def after : List Op → St → St
  | [], st => st
  | op :: ops, st => after ops (step st op).2

end Verif.Collections

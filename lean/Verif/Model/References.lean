/-!
# Loading components from a document

Models the loading of named parameters and recorders: `Model.load_from_dict` (`/repo/pywr/_model.pyx:411-457`), `load_parameter`
(`/repo/pywr/parameters/_parameters.pyx:2292-2346`), `load_recorder` (`/repo/pywr/recorders/_recorders.pyx:2211-2255`), the name check of
`Component` (`/repo/pywr/_component.pyx:94-102`) and the look-up of components by name (`/repo/pywr/_model.pyx:127-137`, `:1021-1026`).
-/

namespace Verif.References

/-- Kinds of component. -/
inductive Kind
  | param
  | recorder
deriving DecidableEq

/-- A component's kind and name. -/
structure Key where
  kind : Kind
  name : String
deriving DecidableEq

/-- What a document gives where a component is expected. -/
inductive Data
  /-- A text: the name of a component. -/
  | ref (key : Key)
  /-- A number or null. -/
  | literal
  /-- A mapping. `typed`: it has an entry `type`. `name`: its entry `name` (for a top-level definition the key, `_model.pyx:414-418`; for a
  recorder without one, the name of its class, `_recorders.pyx:224-225`). `args`: what the class's `load` method passes to `load_parameter` and
  `load_recorder`, in order. Which entries those are depends on the class and is not modelled, nor are other reasons for which a class may refuse
  its data. -/
  | mapping (kind : Kind) (typed : Bool) (name : Option String) (args : List Data)

/-- A value: a component (its position among the components created) or a number. -/
inductive Value
  | obj (i : Nat)
  | lit
deriving DecidableEq

/-- A component. -/
structure Obj where
  kind : Kind
  name : Option String
  args : List Value
deriving DecidableEq

/-- The components created so far and the definitions not yet loaded (`_parameters_to_load` and `_recorders_to_load`, here in one list). -/
structure State where
  objs : List Obj
  todo : List (Key × Data)

/-- Why loading stops. -/
inductive Error
  /-- `KeyError`: "Unknown parameter", "Unknown recorder". -/
  | unknown (key : Key)
  /-- `ValueError`: "A component with the name … already exists". -/
  | collision (name : String)
  /-- `KeyError`: a recorder without `type`. -/
  | noType
  /-- `TypeError`: "Named parameters cannot be literal values". -/
  | literalNamed
  /-- Not an exception: the bound on the depth of the recursion is exhausted. -/
  | running
deriving DecidableEq

/-- `model.parameters[name]`, `model.recorders`: the first component of that kind with that name. -/
def find (objs : List Obj) (key : Key) : Option Nat :=
  objs.findIdx? fun o => o.kind = key.kind ∧ o.name = some key.name

/-- `dict.pop(name)`. -/
def pop (todo : List (Key × Data)) (key : Key) : Option (Data × List (Key × Data)) :=
  match todo with
  | [] => none
  | e :: rest =>
    if e.1 = key then some (e.2, rest)
    else match pop rest key with
      | none => none
      | some (d, r) => some (d, e :: r)

/-- Creating a component with an optional name: `Component.__init__`/`name.__set__`, `_component.pyx:94-102` (for parameters the name is set
after the object is created, `_parameters.pyx:2341-2344`, for recorders when it is created). -/
def create (s : State) (kind : Kind) (name : Option String) (args : List Value) : Except Error (Value × State) :=
  match name with
  | some n =>
    if s.objs.any fun o => o.name = some n then .error (.collision n)
    else .ok (.obj s.objs.length, { s with objs := s.objs ++ [⟨kind, name, args⟩] })
  | none => .ok (.obj s.objs.length, { s with objs := s.objs ++ [⟨kind, name, args⟩] })

/-- Loading several one after the other. -/
def loadList (load : State → Data → Except Error (Value × State)) : State → List Data → Except Error (List Value × State)
  | s, [] => .ok ([], s)
  | s, d :: ds =>
    match load s d with
    | .error e => .error e
    | .ok (v, s') =>
      match loadList load s' ds with
      | .error e => .error e
      | .ok (vs, s'') => .ok (v :: vs, s'')

/-- `load_parameter` and `load_recorder` without an explicit name. The first argument bounds the depth of the recursion. -/
def load : Nat → State → Data → Except Error (Value × State)
  | 0, _, _ => .error .running
  | fuel + 1, s, .ref key =>
    match find s.objs key with
    | some i => .ok (.obj i, s)
    | none =>
      match pop s.todo key with
      | none => .error (.unknown key)
      | some (d, rest) => load fuel { s with todo := rest } d
  | _ + 1, s, .literal => .ok (.lit, s)
  | fuel + 1, s, .mapping kind typed name args =>
    if typed then
      match loadList (load fuel) s args with
      | .error e => .error e
      | .ok (vs, s') => create s' kind name vs
    else match kind with
      | .param => .ok (.lit, s)
      | .recorder => .error .noType

/-- `dict.popitem()` on the definitions of one kind: the last one. -/
def popitem (todo : List (Key × Data)) (kind : Kind) : Option (Key × Data × List (Key × Data)) :=
  match todo with
  | [] => none
  | e :: rest =>
    match popitem rest kind with
    | some (k, d, r) => some (k, d, e :: r)
    | none => if e.1.kind = kind then some (e.1, e.2, rest) else none

/-- `load_components` (`_model.pyx:424-440`). Recorders whose name is already in use are passed over (`_recorders.pyx:2217-2221`). Result: the state
and whether a parameter turned out to be a literal (`_model.pyx:447-449`, checked when all are loaded). `n` bounds the number of turns (one for each
definition). -/
def loadComponents (fuel : Nat) (kind : Kind) : Nat → State → Except Error (Bool × State)
  | 0, s => .ok (false, s)
  | n + 1, s =>
    match popitem s.todo kind with
    | none => .ok (false, s)
    | some (key, d, rest) =>
      if kind = .recorder ∧ (find s.objs key).isSome then loadComponents fuel kind n { s with todo := rest }
      else
        match load fuel { s with todo := rest } d with
        | .error e => .error e
        | .ok (v, s') =>
          match loadComponents fuel kind n s' with
          | .error e => .error e
          | .ok (l, s'') => .ok (v = .lit || l, s'')

/-- `Model.load_from_dict`, `:420-453`: recorders, then parameters, then what the nodes refer to (`nodes.py:78-88`). -/
def loadAll (fuel : Nat) (defs : List (Key × Data)) (nodes : List Data) : Except Error (List Value × State) :=
  match loadComponents fuel .recorder defs.length ⟨[], defs⟩ with
  | .error e => .error e
  | .ok (_, s) =>
    match loadComponents fuel .param defs.length s with
    | .error e => .error e
    | .ok (true, _) => .error .literalNamed
    | .ok (false, s) => loadList (load fuel) s nodes

end Verif.References

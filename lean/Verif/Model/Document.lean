/-!
# Loading a whole document

Models `Model.load_from_dict` (`/repo/pywr/_model.pyx:309-472`) as far as settings, nodes and edges are concerned, `Model.pre_load_node` and `finalise_node` (`_model.pyx:481-494`),
`Loadable.pre_load` and `finalise_load` (`/repo/pywr/nodes.py:47-88`) and the look-up of nodes by name (`_model.pyx:946-957`).  Loading may stop half-way, and then the model that was passed in keeps what was
added to it; so every function gives the state it leaves behind and the exception, if any.  What the attributes of a node become is in `Model/NodeLoading.lean`, the sub-nodes and connections of the classes are in
`Model/Network.lean`, parameters and recorders in `Model/References.lean`, included files in `Model/Includes.lean`, scenarios in `Model/Scenarios.lean`.
-/

namespace Verif.Document

/-- What a document says about a node (an entry of `nodes`, without its name). -/
structure Def where
  /-- All its attributes that do not concern us here. -/
  tag : Nat
  /-- Whether its `type` is in the registry (`_model.pyx:487-488`). -/
  registered : Bool
  /-- The names in the entries that refer to nodes (`nodes.py:59-65`; `__node_attributes__`, `nodes.py:457, 541, 1039, 1066`), in order. -/
  refs : List String
  /-- The names of the sub-nodes its constructor makes. -/
  subs : List String
  /-- Whether its constructor accepts the other entries. -/
  accepts : Bool
  /-- Whether its parameters can be loaded and assigned (`nodes.py:78-87`). -/
  params : Bool
deriving DecidableEq

/-- A node of `model.graph`. -/
structure Node where
  name : String
  /-- Whether it is a sub-node (`parent` is not `None`). -/
  sub : Bool
  /-- The entry it was made from; `none` if it was not loaded. -/
  entry : Option Def
  /-- The nodes passed to its constructor, by position in the graph. -/
  refs : List Nat
  /-- Whether its `__parameters_to_load` is a mapping: before, it is `None` (`nodes.py:40`), afterwards there is no such attribute (`:88`). -/
  pending : Bool
deriving DecidableEq

/-- Exceptions. -/
inductive Error
  /-- `KeyError`: no node of that name in the model or document (`_model.pyx:486, 957`). -/
  | unknownNode (name : String)
  /-- `KeyError`: `type` has already been taken out of the entry (`_model.pyx:487`). -/
  | noType
  /-- `KeyError`: no class of that name (`_model.pyx:488`). -/
  | unknownType
  /-- `ValueError` of the name setter (`/repo/pywr/_core.pyx:385-391`). -/
  | nameUsed
  /-- The constructor raises an exception for its arguments. -/
  | refused
  /-- A parameter of a node cannot be loaded or assigned. -/
  | parameters
  /-- A recorder or named parameter cannot be loaded. -/
  | components
  /-- `AttributeError`: `__parameters_to_load` is `None` or missing (`nodes.py:80`). -/
  | attribute
  /-- `ValueError`: an edge has three entries, or more than four (`_model.pyx:463-464`). -/
  | unpack
  /-- `connect` raises an exception. -/
  | connect
  /-- `KeyError`: no `metadata` (`_model.pyx:372`). -/
  | noMetadata
  /-- Not an exception: the bound on the depth of the recursion is exhausted. -/
  | running
deriving DecidableEq

/-- An edge of a document: two names and what follows them (`_model.pyx:460-466`).  Fewer than two entries are left out. -/
structure Edge where
  source : String
  target : String
  slots : List String
deriving DecidableEq

/-- The two slots (`_model.pyx:463-466`); `none` for an exception. -/
def Edge.pair (e : Edge) : Option (Option (String × String)) :=
  match e.slots with
  | [] => some none
  | [a, b] => some (some (a, b))
  | _ => none

/-- A call of `connect`: the two nodes and the two slots. -/
structure Call where
  source : Nat
  target : Nat
  slots : Option (String × String)
deriving DecidableEq

/-- The nodes and connections of a model.  Connections are represented by the calls of `connect`. -/
structure Graph where
  nodes : List Node
  calls : List Call
deriving DecidableEq

/-- A document. `components`: whether its recorders and parameters can be loaded. -/
structure Doc where
  nodes : List (String × Def)
  components : Bool
  edges : List Edge

/-- `d[name] = value` for a dict. -/
def dictSet (d : List (String × Def)) (name : String) (v : Def) : List (String × Def) :=
  match d with
  | [] => [(name, v)]
  | e :: rest => if e.1 = name then (name, v) :: rest else e :: dictSet rest name v

/-- `nodes_to_load` (`_model.pyx:407-412`). -/
def collect (nodes : List (String × Def)) : List (String × Def) :=
  nodes.foldl (fun d e => dictSet d e.1 e.2) []

/-- `model.nodes[name]` (`_model.pyx:952-957`): sub-nodes are included. -/
def find (nodes : List Node) (name : String) : Option Nat := nodes.findIdx? fun n => n.name = name

/-- The names of `model.nodes` (`_model.pyx:975-977`): sub-nodes are left out. -/
def tops (nodes : List Node) : List String := (nodes.filter fun n => !n.sub).map Node.name

/-- The state of loading: the nodes, and the entries from which `type` has been taken. -/
structure State where
  nodes : List Node
  started : List String

/-- Calls one after the other, until one raises an exception. -/
def each (f : State → String → State × Except Error Nat) : State → List String → State × Except Error (List Nat)
  | s, [] => (s, .ok [])
  | s, n :: ns =>
    match f s n with
    | (s, .error e) => (s, .error e)
    | (s, .ok i) =>
      match each f s ns with
      | (s, .error e) => (s, .error e)
      | (s, .ok is) => (s, .ok (i :: is))

/-- The sub-nodes of a node are made and added to the graph.  (Here before the node itself; a `Storage` is added before its sub-nodes, `nodes.py:384-389`.) -/
def addSubs (nodes : List Node) : List String → List Node × Option Error
  | [] => (nodes, none)
  | n :: ns =>
    if n ∈ tops nodes then (nodes, some .nameUsed)
    else addSubs (nodes ++ [⟨n, true, none, [], false⟩]) ns

/-- `cls(model=model, **non_param_data)` and what follows (`nodes.py:74-76`, `:189-196`). -/
def construct (nodes : List Node) (name : String) (d : Def) (refs : List Nat) : List Node × Except Error Nat :=
  if d.accepts then
    match addSubs nodes d.subs with
    | (nodes, some e) => (nodes, .error e)
    | (nodes, none) =>
      if name ∈ tops nodes then (nodes, .error .nameUsed)
      else (nodes ++ [⟨name, false, some d, refs, true⟩], .ok nodes.length)
  else (nodes, .error .refused)

/-- `Model.pre_load_node` (`_model.pyx:481-490`) with `Loadable.pre_load` (`nodes.py:47-76`).  The number bounds the depth of the recursion. -/
def preLoad (todo : List (String × Def)) : Nat → State → String → State × Except Error Nat
  | 0, s, _ => (s, .error .running)
  | fuel + 1, s, name =>
    match find s.nodes name with
    | some i => (s, .ok i)
    | none =>
      match todo.lookup name with
      | none => (s, .error (.unknownNode name))
      | some d =>
        if name ∈ s.started then (s, .error .noType)
        else
          let s : State := ⟨s.nodes, name :: s.started⟩
          if d.registered then
            match each (preLoad todo fuel) s d.refs with
            | (s, .error e) => (s, .error e)
            | (s, .ok refs) =>
              match construct s.nodes name d refs with
              | (nodes, r) => (⟨nodes, s.started⟩, r)
          else (s, .error .unknownType)

/-- `Model.finalise_node` (`_model.pyx:492-494`) with `finalise_load` (`nodes.py:78-88`). -/
def finalise (nodes : List Node) (name : String) : List Node × Option Error :=
  match find nodes name with
  | none => (nodes, some (.unknownNode name))
  | some i =>
    match nodes[i]? with
    | none => (nodes, some (.unknownNode name))
    | some n =>
      if n.pending then
        if (n.entry.map Def.params).getD true then (nodes.set i { n with pending := false }, none)
        else (nodes, some .parameters)
      else (nodes, some .attribute)

/-- All of them (`_model.pyx:452-453`). -/
def finaliseAll : List Node → List String → List Node × Option Error
  | nodes, [] => (nodes, none)
  | nodes, n :: ns =>
    match finalise nodes n with
    | (nodes, some e) => (nodes, some e)
    | (nodes, none) => finaliseAll nodes ns

/-- The edges (`_model.pyx:459-469`).  `accepts` says whether `connect` goes through; that is a matter of the classes of the nodes and the slots (`Model/Network.lean`). -/
def connectAll (accepts : Edge → Bool) (g : Graph) : List Edge → Graph × Option Error
  | [] => (g, none)
  | e :: es =>
    match e.pair with
    | none => (g, some .unpack)
    | some slots =>
      match find g.nodes e.source with
      | none => (g, some (.unknownNode e.source))
      | some i =>
        match find g.nodes e.target with
        | none => (g, some (.unknownNode e.target))
        | some j =>
          if accepts e then connectAll accepts ⟨g.nodes, g.calls ++ [⟨i, j, slots⟩]⟩ es
          else (g, some .connect)

/-- `Model.load_from_dict` from `_model.pyx:407` on: the nodes are made, then recorders and parameters are loaded, then the parameters of the nodes, then the edges. -/
def load (accepts : Edge → Bool) (g : Graph) (doc : Doc) : Graph × Option Error :=
  let todo := collect doc.nodes
  match each (preLoad todo (todo.length + 1)) ⟨g.nodes, []⟩ (todo.map Prod.fst) with
  | (s, .error e) => (⟨s.nodes, g.calls⟩, some e)
  | (s, .ok _) =>
    if doc.components then
      match finaliseAll s.nodes (todo.map Prod.fst) with
      | (nodes, some e) => (⟨nodes, g.calls⟩, some e)
      | (nodes, none) => connectAll accepts ⟨nodes, g.calls⟩ doc.edges
    else (⟨s.nodes, g.calls⟩, some .components)

/-- The other entries of a document that matter: `metadata`, `solver` (its name and the rest of the mapping), `timestepper` (`start`, `end`, `timestep`). -/
structure Head where
  metadata : Option String
  solver : Option (String × String)
  timestepper : Option (String × String × String)
deriving DecidableEq

/-- What these entries and the arguments determine in a model. `stepper`: `none` for the default (start and end not given, a step of one day). -/
structure Settings where
  solver : Option String
  solverArgs : String
  stepper : Option (String × String × String)
  path : Option String
  metadata : String
deriving DecidableEq

/-- `Model.load_from_dict` (`_model.pyx:343-372`): arguments `model` (`given`), `path`, `solver`, `solver_args`.  No arguments for the solver are written as `""`. -/
def settings (given : Option Settings) (path solver solverArgs : Option String) (h : Head) : Except Error Settings :=
  let name := match solver with | some n => some n | none => h.solver.map Prod.fst
  let args := match solver, h.solver with | none, some (_, a) => a | _, _ => solverArgs.getD ""
  match h.metadata with
  | none => .error .noMetadata
  | some md =>
    match given with
    | some m => .ok { m with metadata := md }
    | none => .ok ⟨name, args, h.timestepper, path, md⟩

end Verif.Document

import Mathlib.Data.List.Basic
/-!
# Diagrams of the network

Models `pywr_model_to_d3_json` (`/repo/pywr/notebook/__init__.py:171-234`) and `pywr_json_to_d3_json` (`:294-362`), which make the diagrams of a model and of a document.  Nodes of a model are given
by their names, which are unique (C55), and a part of a compound node by the name of that node.  The classes of a node are in `Model/ClassTrees`. Not modelled: positions, the attributes of the nodes of a model (`get_node_attr`), the web page.
-/

namespace Verif.Schematic

/-- A node of the graph: its name, the name of the node it is a part of, `virtual`. -/
structure Node where
  name : String
  parent : Option String
  virt : Bool
deriving DecidableEq

/-- The graph of a model, nodes and edges in the order in which they were added. -/
structure Graph where
  nodes : List Node
  edges : List (Node × Node)

/-- A diagram: the names of the boxes and the links, by index. -/
structure Diagram where
  boxes : List String
  links : List (Nat × Nat)
deriving DecidableEq

/-- `list.index`; `none` for the `ValueError`. -/
def position (names : List String) (x : String) : Option Nat :=
  match names with
  | [] => none
  | n :: rest => if n = x then some 0 else (position rest x).map (· + 1)

/-- `node_source = node_source.parent` (`:193-196`). -/
def Node.owner (n : Node) : String :=
  match n.parent with
  | some p => p
  | none => n.name

/-- The nodes of the diagram (`:181-186`). -/
def Graph.boxes (g : Graph) : List String := (g.nodes.filter fun n => n.parent.isNone && !n.virt).map Node.name

/-- One turn of the loop over the edges (`:189-204`); `none` for an exception. -/
def link (names : List String) (e : Node × Node) : Option (List (Nat × Nat)) :=
  if e.1.owner = e.2.owner then some []
  else (position names e.1.owner).bind fun i => (position names e.2.owner).map fun j => [(i, j)]

/-- `pywr_model_to_d3_json`. -/
def ofModel (g : Graph) : Option Diagram :=
  (g.edges.mapM (link g.boxes)).map fun ls => ⟨g.boxes, ls.flatten⟩

/-- A value in a document. -/
inductive Value
  | text (s : String)
  /-- a number, a boolean or null, with what `str` makes of it -/
  | plain (shown : String)
  | list (items : List String)
  /-- an object with its type, if it has one -/
  | object (type : Option String)
deriving DecidableEq

/-- A node in a document; `type` is the name in lower case. -/
structure Entry where
  name : String
  type : String
  /-- all items except the type, the name among them -/
  items : List (String × Value)

/-- A document: `parameters` with the types, if there are any. -/
structure Doc where
  nodes : List Entry
  edges : List (String × String)
  parameters : Option (List (String × String))

/-- The types that are left out (`:311-317`). -/
def hidden : List String := ["annualvirtualstorage", "virtualstorage", "aggregatednode", "aggregatedstorage", "seasonalvirtualstorage"]

/-- What is shown for an item (`:333-345`); `none` for an exception.  `cls` is `get_parameter_from_registry(…).__name__`, which raises for unknown types; a `KeyError` is caught in the first case, where it
comes from an object without type (simplified: it could also come from the registry).  `val in model["parameters"].keys()` computes a hash of `val`, which lists do not have.  An object that is not a
parameter is shown as it is. -/
def shown (cls : String → Option String) (parameters : Option (List (String × String))) : Value → Option String
  | .object none => some "{}"
  | .object (some t) => cls t
  | v =>
    match parameters with
    | none => none
    | some ps =>
      match v with
      | .list _ => none
      | .text s =>
        match ps.lookup s with
        | some t => (cls t).map fun c => s ++ " - " ++ c
        | none => some s
      | .plain s => some s
      | .object _ => none

/-- A box of the diagram of a document with its attributes, if these were asked for (`:321-350`).  `known` are the node types. -/
def box (cls : String → Option String) (known : List String) (attributes : Bool) (parameters : Option (List (String × String))) (e : Entry) : Option (String × List (String × String)) :=
  if e.type ∈ known then
    if attributes then (e.items.mapM fun i => (shown cls parameters i.2).map fun v => (i.1, v)).map fun is => (e.name, is)
    else some (e.name, [])
  else none

/-- `pywr_json_to_d3_json`. -/
def ofDocument (cls : String → Option String) (known : List String) (attributes : Bool) (d : Doc) : Option (Diagram × List (List (String × String))) :=
  ((d.nodes.filter fun e => !hidden.contains e.type).mapM (box cls known attributes d.parameters)).bind fun bs =>
    (d.edges.mapM fun e => (position (bs.map Prod.fst) e.1).bind fun i => (position (bs.map Prod.fst) e.2).map fun j => (i, j)).map fun ls =>
      (⟨bs.map Prod.fst, ls⟩, bs.map Prod.snd)

end Verif.Schematic

/-!
# Nodes of a model: creation, names, deletion and connections

Models the graph of nodes of one model: `AbstractNode.__init__` and the name setter (`/repo/pywr/_core.pyx:344-391`), the constructors of the
node classes (`/repo/pywr/nodes.py`, `/repo/pywr/domains/river.py`), `NodeMeta.__call__` (`/repo/pywr/nodes.py:188-196`), `NodeIterator`
(`/repo/pywr/_model.pyx:935-1011`) and `Connectable` (`/repo/pywr/nodes.py:91-173`).
-/

namespace Verif.Network

/-- The identifier of a slot given by a user: a number or a text. -/
inductive Slot
  | int (i : Int)
  | str (s : String)
deriving DecidableEq

/-- How a class answers `iter_slots`; the numbers are node objects. -/
inductive Slots
  /-- `Connectable.iter_slots` (`nodes.py:94-107`). -/
  | plain
  /-- `Storage.iter_slots` (`nodes.py:391-418`). -/
  | storage (outputs inputs : List Nat)
  /-- `PiecewiseLink` (`:874-878`), `BreakLink` (`:1160-1166`), `DelayNode` (`:1230-1234`), `LossLink` (`:1355-1359`). `out`: the sub-node from
  which connections leave. -/
  | compound (out into : Nat)
  /-- `MultiSplitLink` (`:1007-1015`). `outs`: first `self.input`, then `self._extra_inputs`. -/
  | split (names : List Slot) (outs : List Nat) (into : Nat)
  /-- Classes without `Connectable`: the virtual and aggregated nodes and `StorageInput`, `StorageOutput`. -/
  | none
deriving DecidableEq

/-- A node object. `owner`: the model it belongs to; the graph followed here is that of model 0. -/
structure Obj where
  name : String
  parent : Option Nat
  slots : Slots
  owner : Nat
deriving DecidableEq

/-- Node objects (position = identity) and `model.graph`, a networkx `DiGraph`: its nodes in order of insertion, and its edges. -/
structure St where
  heap : List Obj
  nodes : List Nat
  edges : List (Nat × Nat)
deriving DecidableEq

/-- Exceptions. -/
inductive Error
  /-- `ValueError` of the name setter. -/
  | nameUsed
  /-- `AssertionError` of a constructor. -/
  | assertion
  /-- Another exception of a constructor. -/
  | other
  /-- `KeyError` -/
  | key
  /-- `NetworkXError` -/
  | network
  /-- `RuntimeError` -/
  | runtime
  /-- `TypeError` -/
  | type
  /-- `ValueError` -/
  | value
  /-- `IndexError` -/
  | index
  /-- `AttributeError` -/
  | attribute
deriving DecidableEq

/-- `node.name`; the default is for positions without an object. -/
def St.name (s : St) (i : Nat) : String := (s.heap[i]?.map Obj.name).getD ""

/-- `node.parent` -/
def St.parent (s : St) (i : Nat) : Option Nat := s.heap[i]?.bind Obj.parent

/-- `list(NodeIterator._nodes())` (`_model.pyx:950-954`): children are hidden. -/
def St.top (s : St) : List Nat := s.nodes.filter fun i => (s.parent i).isNone

/-- `list(model.nodes.keys())` (`_model.pyx:980-982`). -/
def St.keys (s : St) : List String := s.top.map s.name

/-- `graph.add_node`: nothing happens if the node is in the graph. -/
def St.addNode (s : St) (i : Nat) : St := if i ∈ s.nodes then s else { s with nodes := s.nodes ++ [i] }

/-- `graph.add_edge`: adds the nodes as needed. -/
def St.addEdge (s : St) (a b : Nat) : St :=
  let s := (s.addNode a).addNode b
  if (a, b) ∈ s.edges then s else { s with edges := s.edges ++ [(a, b)] }

/-- The name setter (`_core.pyx:385-391`). -/
def St.setName (s : St) (i : Nat) (name : String) : St × Option Error :=
  if name ∈ s.keys then (s, some .nameUsed)
  else ({ s with heap := s.heap.modify i fun o => { o with name := name } }, none)

/-- A step of a constructor. The numbers are the objects it creates, counted from the node itself. -/
inductive Act
  /-- `assert name not in model.nodes` (`_model.pyx:995-999`). -/
  | absent (name : String)
  /-- `AbstractNode.__init__` (`_core.pyx:344-360`), which sets the name. -/
  | init (r : Nat) (name : String)
  /-- The node is added to the graph: after `__init__` by `NodeMeta.__call__` (`nodes.py:188-196`), or by `Storage.__init__` (`:384-389`). -/
  | add (r : Nat)
  /-- A connection between two sub-nodes. -/
  | edge (a b : Nat)
  /-- A place where an exception may be raised (for an invalid argument, for instance). -/
  | may (k : Nat)
deriving DecidableEq

/-- A constructor: what it creates (the parent counted as in `Act`), and its steps. -/
structure Script where
  objs : List (Option Nat × Slots)
  acts : List Act

/-- Node classes. -/
inductive Kind
  /-- `Input`, `Output`, `Link`, `Catchment`, `River`, ... (`nodes.py:199-298`, `river.py`). -/
  | plain
  /-- Virtual and aggregated nodes (`nodes.py:427-757`, `:1018-1071`, `:1367-1372`). -/
  | virtual
  /-- `Storage` (`nodes.py:300-389`), `Reservoir`. -/
  | storage (outputs inputs : Nat)
  /-- `PiecewiseLink` (`nodes.py:795-830`), `RiverGauge`. -/
  | piecewise (nsteps : Nat)
  /-- `MultiSplitLink` (`nodes.py:941-1005`), `RiverSplit`, `RiverSplitWithGauge`. `nsteps` does not count the extra slots. -/
  | split (nsteps extra : Nat) (names : List Slot) (factors : Bool)
  /-- `BreakLink` (`nodes.py:1108-1127`). -/
  | breakLink
  /-- `DelayNode` (`nodes.py:1199-1228`). -/
  | delay
  /-- `LossLink` (`nodes.py:1270-1293`). -/
  | loss
deriving DecidableEq

/-- The name and the place in the graph of a sub-node with `NodeMeta` as its metaclass. -/
def sub (r : Nat) (name : String) : List Act := [.init r name, .add r]

/-- The sub-nodes of `PiecewiseLink.__init__` (`nodes.py:803-823`): 1 `input`, 2 `output`, 3 `sub_output`, then the sublinks. -/
def piecewiseSubs (name : String) (n : Nat) : List Act :=
  sub 1 (name ++ " Input") ++ sub 2 (name ++ " Output") ++ sub 3 (name ++ " Sub Output") ++ [.edge 3 1] ++
  (List.range n).flatMap fun i => sub (4 + i) (name ++ " Sublink " ++ toString i) ++ [.edge (4 + i) 3, .edge 2 (4 + i)]

/-- The constructors. Parameters and recorders which they create are left out. -/
def script : Kind → String → Script
  | .plain, name => ⟨[(none, .plain)], [.may 0, .init 0 name, .may 1, .add 0]⟩
  | .virtual, name => ⟨[(none, .none)], [.may 0, .init 0 name, .may 1, .add 0]⟩
  | .storage o i, name =>
    ⟨(none, .storage (List.range' 1 o) (List.range' (1 + o) i)) :: List.replicate (o + i) (some 0, .none),
      [.may 0, .init 0 name] ++
      (List.range o).map (fun n => .init (1 + n) ("[output" ++ toString n ++ "]")) ++
      (List.range i).map (fun n => .init (1 + o + n) ("[input" ++ toString n ++ "]")) ++
      [.may 1] ++ (List.range (o + i)).map (fun n => .add (1 + n)) ++ [.may 2, .add 0]⟩
  | .piecewise n, name =>
    ⟨(none, .compound 1 2) :: List.replicate (3 + n) (some 0, .plain),
      [.may 0] ++ piecewiseSubs name n ++ [.may 1, .init 0 name, .may 2, .add 0]⟩
  | .split n extra names factors, name =>
    let m := n + extra
    ⟨(none, .split names (1 :: (List.range extra).map fun i => 4 + m + 2 * i + 1) 2) ::
      (List.replicate (3 + m + 2 * extra) (some 0, .plain) ++ (if factors then [(none, .none)] else [])),
      [.may 0] ++ piecewiseSubs name m ++ [.may 1, .init 0 name, .may 2] ++
      ((List.range extra).flatMap fun i =>
        sub (4 + m + 2 * i) (name ++ " Extra Output " ++ toString i) ++ sub (4 + m + 2 * i + 1) (name ++ " Extra Input " ++ toString i) ++
        [.edge (4 + m + 2 * i) (4 + m + 2 * i + 1), .edge (4 + n + i) (4 + m + 2 * i)]) ++
      [.may 3] ++ (if factors then sub (4 + m + 2 * extra) (name ++ " Agg") else []) ++ [.may 4, .add 0]⟩
  | .breakLink, name =>
    ⟨[(none, .compound 4 2), (none, .storage [2] [3]), (some 1, .none), (some 1, .none), (none, .plain)],
      [.absent (name ++ " (storage)"), .absent (name ++ " (link)"), .init 1 (name ++ " (storage)"), .init 2 "[output0]", .init 3 "[input0]",
       .add 2, .add 3, .add 1] ++ sub 4 (name ++ " (link)") ++ [.edge 3 4, .may 0, .init 0 name, .may 1, .add 0]⟩
  | .delay, name =>
    ⟨[(none, .compound 2 1), (some 0, .plain), (some 0, .plain)],
      [.absent (name ++ " Output"), .absent (name ++ " Input"), .may 0] ++ sub 1 (name ++ " Output") ++ [.may 1] ++ sub 2 (name ++ " Input") ++
      [.may 2, .init 0 name, .may 3, .add 0]⟩
  | .loss, name =>
    ⟨[(none, .compound 3 2), (some 0, .plain), (some 0, .plain), (some 0, .plain), (none, .none)],
      [.absent (name ++ " Output"), .absent (name ++ " Gross"), .absent (name ++ " Net"), .absent (name ++ " Aggregated")] ++
      sub 1 (name ++ " Output") ++ sub 2 (name ++ " Gross") ++ sub 3 (name ++ " Net") ++ [.edge 2 1, .edge 2 3] ++
      sub 4 (name ++ " Aggregated") ++ [.may 0, .init 0 name, .may 1, .add 0]⟩

/-- `Slots` with its objects counted from `base`. -/
def Slots.shift (base : Nat) : Slots → Slots
  | .plain => .plain
  | .storage os is => .storage (os.map (base + ·)) (is.map (base + ·))
  | .compound o i => .compound (base + o) (base + i)
  | .split ns os i => .split ns (os.map (base + ·)) (base + i)
  | .none => .none

/-- The steps of a constructor, until an exception is raised. `raises k`: an exception is raised at the place marked `k`. -/
def exec (raises : Nat → Bool) (base : Nat) : List Act → St → St × Option Error
  | [], s => (s, none)
  | .absent n :: l, s => if n ∈ s.keys then (s, some .assertion) else exec raises base l s
  | .init r n :: l, s =>
    match s.setName (base + r) n with
    | (s', none) => exec raises base l s'
    | (s', some e) => (s', some e)
  | .add r :: l, s => exec raises base l (s.addNode (base + r))
  | .edge a b :: l, s => exec raises base l (s.addEdge (base + a) (base + b))
  | .may k :: l, s => if raises k then (s, some .other) else exec raises base l s

/-- A call of a class. Objects exist before they have a name; that they all exist from the start makes no difference, as nothing refers to them. -/
def create (raises : Nat → Bool) (k : Kind) (name : String) (s : St) : St × Option Error :=
  let base := s.heap.length
  exec raises base (script k name).acts
    { s with heap := s.heap ++ (script k name).objs.map fun (p, sl) => ⟨"", p.map (base + ·), sl.shift base, 0⟩ }

/-- `NodeIterator.__getitem__` (`_model.pyx:956-961`). -/
def lookup (s : St) (name : String) : Except Error Nat :=
  match s.nodes.find? fun i => s.name i == name with
  | some i => .ok i
  | none => .error .key

/-- `graph.remove_node`: removes the node and its edges. -/
def St.removeNode (s : St) (i : Nat) : St × Option Error :=
  if i ∈ s.nodes then ({ s with nodes := s.nodes.filter (· != i), edges := s.edges.filter fun e => e.1 != i && e.2 != i }, none)
  else (s, some .network)

/-- The loop over the children (`_model.pyx:975-976`): stops at an exception. -/
def deleteAll (del : Nat → St → St × Option Error) : List Nat → St → St × Option Error
  | [], s => (s, none)
  | c :: cs, s =>
    match del c s with
    | (s', none) => deleteAll del cs s'
    | (s', some e) => (s', some e)

/-- `NodeIterator.__delitem__` for a node object (`_model.pyx:963-977`); `fuel` bounds the depth of the recursion. -/
def delete : Nat → Nat → St → St × Option Error
  | 0, _, s => (s, some .other)
  | fuel + 1, i, s =>
    match deleteAll (delete fuel) (s.nodes.filter fun j => s.parent j == some i) s with
    | (s', none) => s'.removeNode i
    | (s', some e) => (s', some e)

/-- `del model.nodes[node]`. -/
def deleteNode (i : Nat) (s : St) : St × Option Error := delete (s.heap.length + 1) i s

/-- `del model.nodes[name]`. -/
def deleteName (name : String) (s : St) : St × Option Error :=
  match lookup s name with
  | .ok i => deleteNode i s
  | .error e => (s, some e)

/-- `l[i]` in Python, with negative positions. -/
def pyGet (l : List Nat) (i : Int) : Option Nat :=
  if 0 ≤ i then l[i.toNat]? else if -i ≤ l.length then l[l.length - (-i).toNat]? else none

/-- `Storage.iter_slots` for one side (`nodes.py:391-418`). A `raise StopIteration` inside a generator is a `RuntimeError`. -/
def storageSlots (l : List Nat) (slot : Option Slot) (all : Bool) : Except Error (List Nat) :=
  if l = [] then .error .runtime
  else match slot with
    | none => if all || l.length == 1 then .ok l else .error .value
    | some (.int i) => match pyGet l i with
      | some x => .ok [x]
      | none => .error .index
    | some (.str _) => .error .type

/-- `iter_slots(slot_name, is_connector=True)`, as called by `connect`. -/
def exits (self : Nat) (sl : Slots) (slot : Option Slot) : Except Error (List Nat) :=
  match sl with
  | .plain => if slot.isSome then .error .value else .ok [self]
  | .storage _ is => storageSlots is slot false
  | .compound o _ => .ok [o]
  | .split names outs _ =>
    match slot with
    | none => .error .value
    | some x => if x ∈ names then match outs[names.idxOf x]? with
        | some o => .ok [o]
        | none => .error .index
      else .error .value
  | .none => .error .attribute

/-- `iter_slots(slot_name, is_connector=False)`, as called by `connect`. -/
def entries (self : Nat) (sl : Slots) (slot : Option Slot) : Except Error (List Nat) :=
  match sl with
  | .plain => if slot.isSome then .error .value else .ok [self]
  | .storage os _ => storageSlots os slot false
  | .compound _ i => .ok [i]
  | .split _ _ i => .ok [i]
  | .none => .error .attribute

/-- `self.connect(node, from_slot, to_slot)` (`nodes.py:109-131`), for a node of model 0. No class yields more than one slot here. -/
def connect (s : St) (a b : Nat) (fromSlot toSlot : Option Slot) : St × Option Error :=
  match s.heap[a]?, s.heap[b]? with
  | some x, some y =>
    if x.slots = .none then (s, some .attribute)
    else if x.owner ≠ y.owner then (s, some .runtime)
    else if y.slots = .none then (s, some .type)
    else match exits a x.slots fromSlot with
      | .error e => (s, some e)
      | .ok us => match entries b y.slots toSlot with
        | .error e => (s, some e)
        | .ok vs => (us.foldl (fun s u => vs.foldl (fun s v => s.addEdge u v) s) s, none)
  | _, _ => (s, some .attribute)

/-- `graph.remove_edge`: `NetworkXError` if there is no such edge. -/
def St.removeEdge (s : St) (a b : Nat) : Option St :=
  if (a, b) ∈ s.edges then some { s with edges := s.edges.filter (· != (a, b)) } else none

/-- The loop of `_disconnect` over the slots (`nodes.py:158-166`): edges which do not exist are passed over. -/
def removeEach (a : Nat) : List Nat → St × Bool → St × Bool
  | [], r => r
  | v :: vs, (s, done) =>
    match s.removeEdge a v with
    | some s' => removeEach a vs (s', true)
    | none => removeEach a vs (s, done)

/-- `_disconnect` (`nodes.py:152-173`). Only `Storage.iter_slots` has an argument `all_slots`; the others answer with a `TypeError`. -/
def disconnectFrom (s : St) (a b : Nat) (slot : Option Slot) (all : Bool) : St × Option Error :=
  match s.removeEdge a b with
  | some s' => (s', none)
  | none =>
    match (s.heap[b]?).map Obj.slots with
    | some (.storage os _) =>
      match storageSlots os slot all with
      | .error e => (s, some e)
      | .ok vs =>
        match removeEach a vs (s, false) with
        | (s', true) => (s', none)
        | (s', false) => (s', some .network)
    | some .none => (s, some .attribute)
    | some _ => (s, some .type)
    | none => (s, some .attribute)

/-- The loop of `disconnect` over the neighbours (`nodes.py:148-150`). -/
def disconnectEach (a : Nat) (slot : Option Slot) (all : Bool) : List Nat → St → St × Option Error
  | [], s => (s, none)
  | v :: vs, s =>
    match disconnectFrom s a v slot all with
    | (s', none) => disconnectEach a slot all vs s'
    | (s', some e) => (s', some e)

/-- `self.disconnect(node, slot_name, all_slots)` (`nodes.py:133-150`). -/
def disconnect (s : St) (a : Nat) (node : Option Nat) (slot : Option Slot) (all : Bool) : St × Option Error :=
  match (s.heap[a]?).map Obj.slots with
  | none | some .none => (s, some .attribute)
  | some _ =>
    match node with
    | some b => disconnectFrom s a b slot all
    | none =>
      -- `graph.neighbors` of a node which is not in the graph raises a `NetworkXError`
      if a ∈ s.nodes then disconnectEach a slot all ((s.edges.filter (·.1 == a)).map Prod.snd) s else (s, some .network)

/-- What a user does. -/
inductive Op
  | create (k : Kind) (name : String) (raises : Nat → Bool)
  | rename (i : Nat) (name : String)
  | delete (i : Nat)
  | deleteName (name : String)
  | connect (a b : Nat) (fromSlot toSlot : Option Slot)
  | disconnect (a : Nat) (node : Option Nat) (slot : Option Slot) (all : Bool)

/-- The effect of one operation. -/
def Op.run : Op → St → St × Option Error
  | .create k n r, s => Network.create r k n s
  | .rename i n, s => if i < s.heap.length then s.setName i n else (s, some .attribute)
  | .delete i, s => deleteNode i s
  | .deleteName n, s => Network.deleteName n s
  | .connect a b f t, s => Network.connect s a b f t
  | .disconnect a n sl all, s => Network.disconnect s a n sl all

/-- A history. Exceptions reach the user, who goes on. -/
def runAll : List Op → St → St
  | [], s => s
  | o :: os, s => runAll os (o.run s).1

/-- A new model. -/
def St.empty : St := ⟨[], [], []⟩

end Verif.Network

import Mathlib.Algebra.Order.Field.Rat
import Verif.Model.Aquifer
/-!
# Nodes in a document

Models `Loadable.pre_load` and `finalise_load` (`/repo/pywr/nodes.py:25-88`), the constructors of the node classes as far as the attributes they assign
(`nodes.py:199-1330`, `/repo/pywr/domains/river.py`) and the setters of those attributes (`/repo/pywr/_core.pyx:547-552, 587-595, 639-647, 697-702`, `:1078-1083, 1110-1130, 1190-1195, 1216-1221, 1243-1251, 1264-1272`).
Numbers are rationals; an exception is `none`.  A parameter is known by its name (a reference in the document, or an inline definition, which is loaded by the same call).  Keys that only
describe the node (`name`, `comment`, `position`, `color`, `tags`, …), node references and `initial_volume` given by a mapping are left out.  Creation of sub-nodes and edges is in `Model/Network.lean`
and `Model/Composite.lean`.
-/

namespace Verif.NodeLoading

/-- A parameter object: one of the model's, or one made by the constructor of a `Reservoir` (`river.py:80-90`): a `ConstantParameter`, or a
`ControlCurveParameter` with one curve and two values. -/
inductive Param
  | named (name : String)
  | const (value : Rat)
  | curve (curve : Param) (above below : Rat)
deriving DecidableEq, Inhabited

/-- A Python value: a number, infinity, `None`, a parameter, or a string. -/
inductive Value
  | num (q : Rat)
  | inf
  | none
  | param (p : Param)
  | text (s : String)
deriving DecidableEq, Inhabited

/-- An argument: a value or a list of values. -/
inductive Arg
  | one (v : Value)
  | many (vs : List Value)
deriving DecidableEq, Inhabited

/-- Keyword arguments, or the entries of the mapping of a node in a document.  The keys are distinct, as those of a Python dict. -/
abbrev Kw := List (String × Arg)

/-- An attribute of the node itself (`none`; also of the one sub-node that it delegates to, e.g. the link of a `BreakLink`, `nodes.py:1120-1150`, or the net link of a `LossLink`,
`:1318-1350`) or of sub-link `i` (`some i`). -/
abbrev Key := Option Nat × String

/-- The attributes that have been assigned. -/
abbrev Obj := Key → Option Value

/-- Assignments, in order. -/
def Obj.set (o : Obj) (ws : List (Key × Value)) : Obj :=
  ws.foldl (fun o w k => if k = w.1 then some w.2 else o k) o

/-- `load_parameter` (`/repo/pywr/parameters/_parameters.pyx:2292-2344`) on a reference, a number or `null`; `known` finds a parameter by name.  (Infinity is a `float`.) -/
def loadValue (known : String → Option Param) : Value → Option Value
  | .text s => (known s).map .param
  | .param _ => none
  | v => some v

/-- The two cases of `finalise_load` (`nodes.py:79-84`): a list is loaded item by item. -/
def load (known : String → Option Param) : Arg → Option Arg
  | .one v => (loadValue known v).map .one
  | .many vs => (vs.mapM (loadValue known)).map .many

/-- An attribute that the constructor assigns: the keyword, the value when the keyword is not given (`none`: then nothing is assigned), what the constructor makes of
the given value before it assigns it, and the setter. -/
structure Attr where
  name : String
  default : Option Arg
  given : Arg → Option Arg
  write : Arg → Option (List (Key × Value))

/-- A node class: `__parameter_attributes__`, the keywords that the constructor accepts, what it does to the keywords first, and the attributes it assigns, in order. -/
structure Class where
  held : List String
  keywords : List String
  prepare : Kw → Option Kw
  attrs : List Attr

/-- One assignment of the constructor. -/
def assign (kw : Kw) (a : Attr) : Option (List (Key × Value)) :=
  match kw.lookup a.name with
  | some v => (a.given v).bind a.write
  | none =>
    match a.default with
    | some d => a.write d
    | none => some []

/-- `cls(model, **kw)`.  An unknown keyword is a `TypeError` (`/repo/pywr/_core.pyx:344-360`). -/
def construct (c : Class) (kw : Kw) : Option Obj :=
  if kw.any (fun e => !c.keywords.contains e.1) then none
  else (c.prepare kw).bind fun kw => c.attrs.foldlM (fun o a => (assign kw a).map (Obj.set o)) fun _ => none

/-- `setattr(node, key, v)`; every key in `__parameter_attributes__` is an attribute with a setter. -/
def setattr (c : Class) (key : String) (v : Arg) (o : Obj) : Option Obj :=
  match c.attrs.find? fun a => a.name == key with
  | some a => (a.write v).map (Obj.set o)
  | none => some o

/-- `pre_load` (`nodes.py:50-75`): the entries in `__parameter_attributes__` are kept for later and the others are passed on as they are. -/
def preLoad (c : Class) (doc : Kw) : Option Obj := construct c (doc.filter fun e => !c.held.contains e.1)

/-- `finalise_load` (`:77-88`). -/
def finaliseLoad (known : String → Option Param) (c : Class) (doc : Kw) (o : Obj) : Option Obj :=
  (doc.filter fun e => c.held.contains e.1).foldlM (fun o e => (load known e.2).bind fun v => setattr c e.1 v o) o

/-- The node that a document describes. -/
def fromDocument (known : String → Option Param) (c : Class) (doc : Kw) : Option Obj := (preLoad c doc).bind (finaliseLoad known c doc)

/-! ## Setters -/

/-- A number or a parameter; `None` and strings are a `TypeError` (`cost`, `_core.pyx:547-552, 1078-1083`, `min_volume`, `max_volume`, `:1190-1195, 1216-1221`; all are `double`). -/
def strict : Value → Option Value
  | .none => none
  | .text _ => none
  | v => some v

/-- `None` stands for `d` (`min_flow` with zero, `:587-595`; `max_flow` with infinity, `:639-647`; `level` and `area` with zero, `:1243-1251, 1264-1272`). -/
def orElse (d : Value) : Value → Option Value
  | .none => some d
  | .text _ => none
  | v => some v

/-- Anything is accepted (`loss_factor`, a plain Python attribute). -/
def any (v : Value) : Option Value := some v

/-- A number (`conversion_factor`, `_core.pyx:697-702`; a parameter is a `ValueError`). -/
def constant : Value → Option Value
  | .num q => some (.num q)
  | .inf => some .inf
  | _ => none

/-- A number or `None` (`initial_volume`, `initial_volume_pc`, `_core.pyx:1110-1130`, where `None` is stored as NaN). -/
def number : Value → Option Value
  | .num q => some (.num q)
  | .inf => some .inf
  | .none => some .none
  | _ => none

/-- Setter of one attribute of the node. -/
def scalar (key : Key) (conv : Value → Option Value) : Arg → Option (List (Key × Value))
  | .one v => (conv v).map fun v => [(key, v)]
  | .many _ => none

/-- Setter of `flow` of a `Catchment` (`river.py:50-55`). -/
def flowWrite : Arg → Option (List (Key × Value))
  | .one v =>
    (orElse (.num 0) v).bind fun a => (orElse .inf v).map fun b => [((none, "min_flow"), a), ((none, "max_flow"), b)]
  | .many _ => none

/-- Setters of `costs` and `max_flows` of a `PiecewiseLink` with `n` sub-links (`nodes.py:842-871`). -/
def perLink (n : Nat) (attr : String) (conv : Value → Option Value) : Arg → Option (List (Key × Value))
  | .one _ => none
  | .many vs => if vs.length = n then (vs.mapM conv).map fun vs => vs.zipIdx.map fun p => ((some p.2, attr), p.1) else none

/-- `if min_flow is None: min_flow = 0.0` (`nodes.py:221-222`; also `min_volume`, `:341-342, 454-455`). -/
def noneIsZero : Arg → Option Arg
  | .one .none => some (.one (.num 0))
  | v => some v

/-- `max_flow` and such: `pop_kwarg_parameter` and nothing else. -/
def asGiven (v : Arg) : Option Arg := some v

/-! ## Classes -/

/-- Assignments of `Node.__init__` (`nodes.py:219-236`). -/
def nodeAttrs : List Attr :=
  [⟨"min_flow", some (.one (.num 0)), noneIsZero, scalar (none, "min_flow") (orElse (.num 0))⟩,
   ⟨"max_flow", some (.one .inf), asGiven, scalar (none, "max_flow") (orElse .inf)⟩,
   ⟨"cost", some (.one (.num 0)), asGiven, scalar (none, "cost") strict⟩,
   ⟨"conversion_factor", some (.one (.num 1)), asGiven, scalar (none, "conversion_factor") constant⟩]

/-- Keywords of `Node`. -/
def nodeKeywords : List String := ["min_flow", "max_flow", "cost", "conversion_factor"]

/-- `Node`, `Input`, `Output`, `Link`, `River`, `BreakLink` (`nodes.py:1058-1170`) and `DelayNode` (`:1173-1240`, whose `days`, `timesteps` and `initial_flow` are plain numbers). -/
def node : Class := ⟨["cost", "min_flow", "max_flow"], nodeKeywords, some, nodeAttrs⟩

/-- `LossLink` (`nodes.py:1243-1370`): `loss_factor` is assigned before `Node.__init__` runs. -/
def lossLink : Class :=
  ⟨["loss_factor", "max_flow", "min_flow", "cost"], "loss_factor" :: nodeKeywords, some,
    ⟨"loss_factor", some (.one (.num 0)), asGiven, scalar (none, "loss_factor") any⟩ :: nodeAttrs⟩

/-- `Catchment` and `Discharge` (`river.py:22-55, 236-243`). -/
def catchment : Class :=
  ⟨["cost", "flow"], "flow" :: nodeKeywords, some, nodeAttrs ++ [⟨"flow", some (.one (.num 0)), asGiven, flowWrite⟩]⟩

/-- Assignments of `Storage.__init__` (`nodes.py:339-376`). -/
def storageAttrs : List Attr :=
  [⟨"min_volume", some (.one (.num 0)), noneIsZero, scalar (none, "min_volume") strict⟩,
   ⟨"max_volume", some (.one (.num 0)), asGiven, scalar (none, "max_volume") strict⟩,
   ⟨"initial_volume", some (.one .none), asGiven, scalar (none, "initial_volume") number⟩,
   ⟨"initial_volume_pc", some (.one .none), asGiven, scalar (none, "initial_volume_pc") number⟩,
   ⟨"cost", some (.one (.num 0)), asGiven, scalar (none, "cost") strict⟩,
   ⟨"level", some (.one .none), asGiven, scalar (none, "level") (orElse (.num 0))⟩,
   ⟨"area", some (.one .none), asGiven, scalar (none, "area") (orElse (.num 0))⟩]

/-- Keywords of `Storage`. -/
def storageKeywords : List String := ["min_volume", "max_volume", "initial_volume", "initial_volume_pc", "cost", "level", "area"]

/-- `Storage` (`nodes.py:300-390`). -/
def storage : Class := ⟨["cost", "min_volume", "max_volume", "level", "area"], storageKeywords, some, storageAttrs⟩

/-- `VirtualStorage` (`nodes.py:425-484`) and the classes made from it; `cost` is not a parameter attribute. -/
def virtualStorage : Class :=
  ⟨["min_volume", "max_volume"], ["min_volume", "max_volume", "initial_volume", "initial_volume_pc", "cost"], some, storageAttrs.take 5⟩

/-- `PiecewiseLink` with `n` steps (`nodes.py:760-887`). -/
def piecewise (n : Nat) : Class :=
  ⟨["costs", "max_flows"], "costs" :: "max_flows" :: nodeKeywords, some,
    nodeAttrs ++ [⟨"costs", none, asGiven, perLink n "cost" strict⟩, ⟨"max_flows", none, asGiven, perLink n "max_flow" (orElse .inf)⟩]⟩

/-- `costs + [0.0] * extra_slots` (`nodes.py:985-990`); adding a list to anything else is a `TypeError`. -/
def pad (extra : Nat) (v : Value) : Arg → Option Arg
  | .one _ => none
  | .many vs => some (.many (vs ++ List.replicate extra v))

/-- `MultiSplitLink` with `n` steps and `extra` slots (`nodes.py:890-1015`); its parameter attributes are those of `PiecewiseLink`. -/
def multiSplit (n extra : Nat) : Class :=
  ⟨["costs", "max_flows"], "costs" :: "max_flows" :: nodeKeywords, some,
    nodeAttrs ++ [⟨"costs", none, pad extra (.num 0), perLink (n + extra) "cost" strict⟩,
      ⟨"max_flows", none, pad extra .none, perLink (n + extra) "max_flow" (orElse .inf)⟩]⟩

/-- `RiverSplit` with `n` steps (one by default) and `extra + 1` factors (`river.py:112-153`). -/
def riverSplit (n extra : Nat) : Class :=
  ⟨["costs", "max_flows"], "costs" :: "max_flows" :: nodeKeywords, some,
    nodeAttrs ++ [⟨"costs", some (.many (.num 0 :: List.replicate extra (.num 0))), pad extra (.num 0), perLink (n + extra) "cost" strict⟩,
      ⟨"max_flows", some (.many (.none :: List.replicate extra .none)), pad extra .none, perLink (n + extra) "max_flow" (orElse .inf)⟩]⟩

/-- `RiverGauge` (`extra = 0`, `river.py:246-300`) and `RiverSplitWithGauge` (`:156-233`): the arguments become `costs = [mrf_cost, cost]` and `max_flows = [mrf, None]`, padded for the extra
slots.  Simplified: the items of the two lists are assigned one by one.  `Node.__init__` assigns `cost = 0.0` first, which is the cost of sub-link 1 here and is overwritten by `costs`. -/
def gauge (extra : Nat) : Class :=
  ⟨["cost", "mrf_cost", "mrf"], ["min_flow", "max_flow", "conversion_factor", "mrf_cost", "cost", "mrf"], some,
    [⟨"min_flow", some (.one (.num 0)), noneIsZero, scalar (none, "min_flow") (orElse (.num 0))⟩,
     ⟨"max_flow", some (.one .inf), asGiven, scalar (none, "max_flow") (orElse .inf)⟩,
     ⟨"conversion_factor", some (.one (.num 1)), asGiven, scalar (none, "conversion_factor") constant⟩,
     ⟨"mrf_cost", some (.one (.num 0)), asGiven, scalar (some 0, "cost") strict⟩,
     ⟨"cost", some (.one (.num 0)), asGiven, scalar (some 1, "cost") strict⟩,
     ⟨"mrf", some (.one (.num 0)), asGiven, scalar (some 0, "max_flow") (orElse .inf)⟩,
     ⟨"", some (.one .none), asGiven, scalar (some 1, "max_flow") (orElse .inf)⟩] ++
    (List.range extra).flatMap fun i : Nat =>
      [⟨"", some (.one (.num 0)), asGiven, scalar (some (i + 2), "cost") strict⟩, ⟨"", some (.one .none), asGiven, scalar (some (i + 2), "max_flow") (orElse .inf)⟩]⟩

/-- Setter of `factors` of an `AggregatedNode` (`_core.pyx:770-795`); item by item, numbers and parameters. -/
def factorsWrite : Arg → Option (List (Key × Value))
  | .one .none => some [((none, "factors"), .none)]
  | .one _ => none
  | .many vs => (vs.mapM strict).map fun vs => vs.zipIdx.map fun p => ((some p.2, "factors"), p.1)

/-- `AggregatedNode` (`nodes.py:1030-1055`): the constructor takes only `nodes` and `flow_weights`.  (`min_flow = None` is minus infinity, `_core.pyx:840-842`; not needed here.) -/
def aggregatedNode : Class :=
  ⟨["factors", "min_flow", "max_flow"], [], some,
    [⟨"factors", none, asGiven, factorsWrite⟩, ⟨"min_flow", none, asGiven, scalar (none, "min_flow") strict⟩,
     ⟨"max_flow", none, asGiven, scalar (none, "max_flow") (orElse .inf)⟩]⟩

/-- The control curve of a `Reservoir` (`river.py:78-83`).  A string reaches `ConstantParameter` and is a `TypeError`. -/
def reservoirCurve : Option Arg → Option Param
  | none => some (.const 1)
  | some (.one .none) => some (.const 1)
  | some (.one (.param p)) => some p
  | some (.one (.num q)) => some (.const q)
  | some _ => none

/-- Keywords after the first part of `Reservoir.__init__` (`river.py:74-97`): `control_curve` and `above_curve_cost` are consumed and `cost` is replaced. -/
def reservoirPrepare (kw : Kw) : Option Kw :=
  let rest := kw.filter fun e => e.1 != "control_curve" && e.1 != "above_curve_cost" && e.1 != "cost"
  let cost := (kw.lookup "cost").getD (.one (.num 0))
  match kw.lookup "above_curve_cost" with
  | none => some (("cost", cost) :: rest)
  | some (.one .none) => some (("cost", cost) :: rest)
  | some (.one (.num above)) =>
    (reservoirCurve (kw.lookup "control_curve")).bind fun p =>
      match cost with
      | .one (.num below) => some (("cost", .one (.param (.curve p above below))) :: rest)
      | _ => none
  | some _ => none

/-- `Reservoir` (`river.py:58-98`); its parameter attributes are those of `Storage`. -/
def reservoir : Class :=
  ⟨storage.held, "control_curve" :: "above_curve_cost" :: storageKeywords, reservoirPrepare, storageAttrs⟩

/-- `KeatingAquifer` (`/repo/pywr/domains/groundwater.py:9-113`) from a document with the arguments `a`: `area` is a parameter attribute of `Storage`, so that the constructor does not get it.  (The
area is assigned afterwards, which changes nothing else.) -/
def aquiferFromDocument (a : Groundwater.Args) : Except Groundwater.Err Groundwater.Aquifer := Groundwater.make { a with area := none }

end Verif.NodeLoading

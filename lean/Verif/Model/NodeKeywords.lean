import Verif.Model.Keywords
/-!
# What is said about a node when it is made

Models how the constructors of all classes of nodes (`/repo/pywr/nodes.py`, `/repo/pywr/domains/river.py`, `/repo/pywr/domains/groundwater.py`) hand their arguments on to `Drawable.__init__` (`nodes.py:18-22`) and
`AbstractNode.__init__` (`/repo/pywr/_core.pyx:344-358`): names, comments, tags, parents, domains, positions, colours and visibility. A class is the list of the constructors in the order of method resolution, those before `Drawable` and
those between `Drawable` and `AbstractNode`; classes without a constructor are left out. Keywords that a constructor takes out of `kwargs` with `pop` count as keyword-only arguments (a missing one without default
raises `KeyError`, here as `TypeError`). What the constructors do with their own arguments, and the nodes they make inside of compound nodes, is left out (`Model/Composite` and others).
-/

namespace Verif.NodeKeywords
open Verif.Keywords

/-- What a constructor does with `self.color`. -/
inductive Paint
  | no
  /-- assigns a colour before the call of the base class -/
  | before (c : Val)
  /-- the same, if `"color"` is not in `kwargs` -/
  | beforeUnless (c : Val)
  /-- assigns a colour after the call of the base class -/
  | after (c : Val)
  /-- assigns its argument `color` after the call of the base class -/
  | own

/-- A constructor, those of its arguments that it passes on as keywords, further keywords that it passes, and what it does with the colour. -/
structure Level where
  ctor : Ctor
  puts : List String
  also : Kw
  paint : Paint

/-- The keywords that are passed besides `**kwargs`. -/
def Level.named (l : Level) (e : Env) : Kw := l.puts.map (fun s => (s, e.get s)) ++ l.also

/-- The arguments of the call of the base class; `none`: `TypeError`, a keyword is given twice. -/
def Level.next (l : Level) (e : Env) : Option (List Val × Kw) :=
  if (superCall l.ctor e).2.any fun p => ((l.named e).map (·.1)).contains p.1 then none
  else some ((superCall l.ctor e).1, l.named e ++ (superCall l.ctor e).2)

/-- An empty dictionary. -/
def emptyDict : Val := .other 0

/-- `Drawable.__init__`, `nodes.py:18-22`. -/
def drawable : Ctor := ⟨[], true, [("position", some emptyDict), ("color", some (.str "black")), ("visible", some (.flag true))], true, [], true, false, true⟩

/-- `AbstractNode.__init__`, `_core.pyx:344-358`; other keywords are refused. -/
def abstractNode : Ctor := ⟨[req "model", req "name", opt "comment"], false, [opt "parent", opt "domain", ("tags", some emptyDict)], false, [], false, false, false⟩

/-- What a node says about itself. -/
structure Attrs where
  name : Val
  comment : Val
  parent : Val
  domain : Val
  tags : Val
  position : Val
  color : Val
  visible : Val
deriving DecidableEq, Repr

/-- The object before its constructors. -/
def blank : Attrs := ⟨.none, .none, .none, .none, .none, .none, .none, .none⟩

/-- The constructors between `Drawable` and `AbstractNode`. -/
def pass : List Level → List Val → Kw → Option (List Val × Kw)
  | [], pos, kw => some (pos, kw)
  | l :: ls, pos, kw => match bind l.ctor pos kw with
    | none => none
    | some e => match l.next e with
      | none => none
      | some (pos, kw) => pass ls pos kw

/-- `Drawable.__init__` (`nodes.py:18-22`), the constructors below it and `AbstractNode.__init__` (`_core.pyx:344-358`) on the object `s`. -/
def base (below : List Level) (s : Attrs) (pos : List Val) (kw : Kw) : Option Attrs :=
  match bind drawable pos kw with
  | none => none
  | some e => match pass below (superCall drawable e).1 (superCall drawable e).2 with
    | none => none
    | some (pos, kw) => match bind abstractNode pos kw with
      | none => none
      | some e' => some { s with position := e.get "position", color := e.get "color", visible := e.get "visible", name := e'.get "name", comment := e'.get "comment", parent := e'.get "parent", domain := e'.get "domain", tags := e'.get "tags" }

/-- The colour of the object before the call of the base class. -/
def Paint.first (p : Paint) (kw : Kw) (s : Attrs) : Attrs :=
  match p with
  | .before c => { s with color := c }
  | .beforeUnless c => if (kw.map (·.1)).contains "color" then s else { s with color := c }
  | _ => s

/-- The colour of the object after the call of the base class. -/
def Paint.last (p : Paint) (e : Env) (s : Attrs) : Attrs :=
  match p with
  | .after c => { s with color := c }
  | .own => { s with color := e.get "color" }
  | _ => s

/-- A constructor calls that of its base class, and so on. -/
def call (below : List Level) : List Level → Attrs → List Val → Kw → Option Attrs
  | [], s, pos, kw => base below s pos kw
  | l :: ls, s, pos, kw => match bind l.ctor pos kw with
    | none => none
    | some e => match l.next e with
      | none => none
      | some (pos', kw') => match call below ls (l.paint.first kw s) pos' kw' with
        | none => none
        | some a => some (l.paint.last e a)

/-- A class of nodes: the constructors before `Drawable`, and those between `Drawable` and `AbstractNode`. -/
structure Cls where
  above : List Level
  below : List Level

/-- A node is made; `none`: `TypeError` or `KeyError`. That no other node has the name is checked by the setter of `name` (`Model/Network`). -/
def construct (c : Cls) (pos : List Val) (kw : Kw) : Option Attrs := call c.below c.above blank pos kw

/-! ## The classes -/

/-- `Loadable.__init__`, `nodes.py:38-40`. -/
def loadable : Level := ⟨⟨[], true, [], true, [], true, false, true⟩, [], [], .no⟩

/-- `Node.__init__`, `nodes.py:210-236`. -/
def node : List Level :=
  [⟨⟨[req "model", req "name"], false, [("color", some (.str "black")), opt "min_flow", opt "max_flow", opt "cost", opt "conversion_factor"], true, ["model", "name"], false, false, true⟩, [], [], .own⟩, loadable]

/-- `Input.__init__`, `nodes.py:248-259`. -/
def input : List Level := ⟨⟨[], true, [], true, [], true, false, true⟩, [], [], .after (.str "#F26C4F")⟩ :: node

/-- `Output.__init__`, `nodes.py:265-276`. -/
def output : List Level := ⟨⟨[], true, [("color", some (.str "#FFF467"))], true, [], true, false, true⟩, ["color"], [], .no⟩ :: node

/-- `Link.__init__`, `nodes.py:288-297`. -/
def link : List Level := ⟨⟨[], true, [("color", some (.str "#A0A0A0"))], true, [], true, false, true⟩, ["color"], [], .no⟩ :: node

/-- `Storage.__init__`, `nodes.py:350-361`; further arguments by position are ignored. -/
def storage : List Level :=
  [⟨⟨[req "model", req "name", opt "outputs", opt "inputs"], true, [opt "min_volume", opt "max_volume", opt "initial_volume", opt "initial_volume_pc", opt "cost", opt "level", opt "area"], true,
    ["model", "name"], false, false, true⟩, [], [], .no⟩, loadable]

/-- `VirtualStorage.__init__`, `nodes.py:459-470`. -/
def virtualStorage : List Level :=
  [⟨⟨[req "model", req "name", req "nodes"], false, [opt "min_volume", opt "max_volume", opt "initial_volume", opt "initial_volume_pc", opt "cost", opt "factors"], true,
    ["model", "name"], false, false, true⟩, [], [], .no⟩, loadable]

/-- `RollingVirtualStorage.__init__`, `nodes.py:543-558`. -/
def rollingVirtualStorage : List Level :=
  [⟨⟨[req "model", req "name", req "nodes"], false, [opt "min_volume", opt "max_volume", opt "initial_volume", opt "initial_volume_pc", opt "cost", opt "factors", opt "days", opt "timesteps"], true,
    ["model", "name"], false, false, true⟩, [], [], .no⟩, loadable]

/-- `AnnualVirtualStorage.__init__`, `nodes.py:612-624`. It looks `nodes` up in `kwargs`. -/
def annualVirtualStorage : List Level :=
  ⟨⟨[], true, [opt "reset_day", opt "reset_month", opt "reset_to_initial_volume", req "nodes"], true, [], true, false, true⟩, ["nodes"], [], .no⟩ :: virtualStorage

/-- `SeasonalVirtualStorage.__init__`, `nodes.py:687-692`. -/
def seasonalVirtualStorage : List Level := ⟨⟨[], true, [opt "end_day", opt "end_month"], true, [], true, false, true⟩, [], [], .no⟩ :: annualVirtualStorage

/-- `MonthlyVirtualStorage.__init__`, `nodes.py:735-741`. -/
def monthlyVirtualStorage : List Level := ⟨⟨[], true, [opt "months", opt "initial_months", opt "reset_to_initial_volume"], true, [], true, false, true⟩, [], [], .no⟩ :: virtualStorage

/-- `PiecewiseLink.__init__`, `nodes.py:795-827`. -/
def piecewiseLink : List Level := ⟨⟨[req "model", req "nsteps"], true, [req "name", opt "costs", opt "max_flows"], true, ["model"], true, false, true⟩, ["name"], [], .no⟩ :: node

/-- `MultiSplitLink.__init__`, `nodes.py:940-961`; the number of steps that is passed on is another. -/
def multiSplitLink : List Level :=
  ⟨⟨[req "model", req "nsteps"], true, [opt "costs", opt "max_flows", opt "extra_slots", opt "slot_names", opt "factors"], true, ["model", "nsteps"], true, false, true⟩, [], [], .no⟩ :: piecewiseLink

/-- `AggregatedStorage.__init__`, `nodes.py:1041-1043`. -/
def aggregatedStorage : List Level := [⟨⟨[req "model", req "name", req "storage_nodes"], false, [], true, ["model", "name"], false, false, true⟩, [], [], .no⟩, loadable]

/-- `AggregatedNode.__init__`, `nodes.py:1068-1071`. -/
def aggregatedNode : List Level := [⟨⟨[req "model", req "name", req "nodes", opt "flow_weights"], false, [], true, ["model", "name"], false, false, true⟩, [], [], .no⟩, loadable]

/-- `BreakLink.__init__`, `nodes.py:1108-1125`. -/
def breakLink : List Level := ⟨⟨[req "model", req "name"], false, [], true, ["model", "name"], false, false, true⟩, [], [], .no⟩ :: node

/-- `DelayNode.__init__`, `nodes.py:1199-1228`. -/
def delayNode : List Level := ⟨⟨[req "model", req "name"], false, [opt "days", opt "timesteps", opt "initial_flow"], true, ["model", "name"], false, false, true⟩, [], [], .no⟩ :: node

/-- `LossLink.__init__`, `nodes.py:1270-1293`. -/
def lossLink : List Level := ⟨⟨[req "model", req "name"], false, [opt "loss_factor_type", opt "loss_factor"], true, ["model", "name"], false, false, true⟩, [], [], .no⟩ :: node

/-- `ShadowStorage.__init__` and `ShadowNode.__init__`, `_core.pyx:1547-1548`, `:1578-1579`. -/
def shadow : Level := ⟨⟨[req "model", req "other_model", req "node"], true, [], true, ["model"], true, false, true⟩, [], [], .no⟩

/-- `RiverDomainMixin.__init__`, `domains/river.py:14-19`. -/
def riverDomainMixin : Level := ⟨⟨[], true, [], true, [], true, false, true⟩, [], [], .beforeUnless (.str "#6ECFF6")⟩

/-- `Catchment.__init__`, `domains/river.py:27-43`; also of `Discharge`. -/
def catchment : List Level := ⟨⟨[], true, [opt "flow"], true, [], true, false, true⟩, [], [], .before (.str "#82CA9D")⟩ :: riverDomainMixin :: input

/-- `Reservoir.__init__`, `domains/river.py:67-98`. -/
def reservoir : List Level :=
  ⟨⟨[req "model"], true, [opt "control_curve", opt "above_curve_cost", opt "cost"], true, ["model"], true, false, true⟩, ["cost"], [], .no⟩ :: riverDomainMixin :: storage

/-- `River.__init__`, `domains/river.py:108-109`. -/
def river : List Level := ⟨⟨[], true, [], true, [], true, false, true⟩, [], [], .no⟩ :: riverDomainMixin :: link

/-- `RiverSplit.__init__`, `domains/river.py:134-153`. -/
def riverSplit : List Level :=
  ⟨⟨[req "model"], true, [opt "nsteps", req "factors", opt "costs", opt "max_flows"], true, ["model", "nsteps"], true, false, true⟩, ["factors", "costs", "max_flows"], [("extra_slots", .other 1)], .no⟩ :: multiSplitLink

/-- `RiverSplitWithGauge.__init__`, `domains/river.py:192-200`. -/
def riverSplitWithGauge : List Level :=
  ⟨⟨[req "model"], true, [opt "mrf", opt "cost", opt "mrf_cost"], true, ["model"], true, false, true⟩, [], [("nsteps", .num 2), ("max_flows", .other 1), ("costs", .other 2)], .no⟩ :: riverSplit

/-- `RiverGauge.__init__`, `domains/river.py:251-267`; `costs` and `max_flows` are overwritten in `kwargs`. -/
def riverGauge : List Level :=
  ⟨⟨[], true, [opt "cost", opt "mrf_cost", opt "mrf", opt "costs", opt "max_flows"], true, [], true, false, true⟩, [], [("nsteps", .num 2), ("costs", .other 1), ("max_flows", .other 2)], .no⟩ :: riverDomainMixin :: piecewiseLink

/-- `KeatingAquifer.__init__`, `domains/groundwater.py:10-66`. -/
def keatingAquifer : List Level :=
  ⟨⟨[req "model", req "name", req "num_streams", req "num_additional_inputs", req "stream_flow_levels", req "transmissivity", req "coefficient", req "levels", opt "volumes", opt "area", opt "storativity"], false, [], true,
    ["model", "name"], false, false, true⟩, [], [("inputs", .other 1)], .no⟩ :: storage

/-- The classes of nodes that are inputs. -/
def inputs : List (String × Cls) := [("Input", ⟨input, []⟩), ("Catchment", ⟨catchment, []⟩), ("Discharge", ⟨catchment, []⟩)]

/-- The other classes of nodes. -/
def others : List (String × Cls) :=
  [("Node", ⟨node, []⟩), ("Output", ⟨output, []⟩), ("Link", ⟨link, []⟩), ("Storage", ⟨storage, []⟩), ("VirtualStorage", ⟨virtualStorage, []⟩), ("RollingVirtualStorage", ⟨rollingVirtualStorage, []⟩),
    ("AnnualVirtualStorage", ⟨annualVirtualStorage, []⟩), ("SeasonalVirtualStorage", ⟨seasonalVirtualStorage, []⟩), ("MonthlyVirtualStorage", ⟨monthlyVirtualStorage, []⟩), ("PiecewiseLink", ⟨piecewiseLink, []⟩),
    ("MultiSplitLink", ⟨multiSplitLink, []⟩), ("AggregatedStorage", ⟨aggregatedStorage, []⟩), ("AggregatedNode", ⟨aggregatedNode, []⟩), ("BreakLink", ⟨breakLink, []⟩), ("DelayNode", ⟨delayNode, []⟩),
    ("LossLink", ⟨lossLink, []⟩), ("Reservoir", ⟨reservoir, []⟩), ("River", ⟨river, []⟩), ("RiverSplit", ⟨riverSplit, []⟩), ("RiverSplitWithGauge", ⟨riverSplitWithGauge, []⟩), ("RiverGauge", ⟨riverGauge, []⟩),
    ("KeatingAquifer", ⟨keatingAquifer, []⟩)]

/-- The classes of nodes that stand for nodes of other models. -/
def shadows : List (String × Cls) := [("ShadowNode", ⟨[loadable], [shadow]⟩), ("ShadowStorage", ⟨[loadable], [shadow]⟩)]

end Verif.NodeKeywords

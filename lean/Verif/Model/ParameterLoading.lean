import Mathlib.Algebra.Order.Field.Rat
import Verif.Model.Components
/-!
# Parameters in a document

Models `load` of the parameter classes made from other parameters, nodes and numbers (`/repo/pywr/parameters/_control_curves.pyx`, `_thresholds.pyx`, `_polynomial.pyx`,
`_hydropower.pyx`, `_parameters.pyx`, `parameters.py`, `licenses.py`), their constructors as far as the attributes they assign, and what a refused construction leaves in the model
(`/repo/pywr/_component.pyx:78-101`).  `load_parameter` (`_parameters.pyx:2292-2344`) takes `type`, `name` and `tags` from the entries and passes the others to `load`.  Numbers are rationals;
an exception is `none`.  A parameter is known by its name (a reference, or an inline definition, which is loaded by the same call); strings in the place of numbers, and values read from
files (`Model/Datasets.lean`), are left out.
-/

namespace Verif.ParameterLoading

/-- A parameter object: one of the model's, or a `ConstantParameter` made from a number. -/
inductive Param
  | named (name : String)
  | const (value : Rat)
deriving DecidableEq, Inhabited

/-- A Python value. -/
inductive Value
  | num (q : Rat)
  | null
  | flag (b : Bool)
  | text (s : String)
  | param (p : Param)
  | node (name : String)
  | recorder (name : String)
  | scenario (name : String)
deriving DecidableEq, Inhabited

/-- An argument: a value, a list of values, or a list of lists of numbers. -/
inductive Arg
  | one (v : Value)
  | many (vs : List Value)
  | rows (rs : List (List Rat))
deriving DecidableEq, Inhabited

/-- Keyword arguments, or the entries of the mapping of a parameter in a document. -/
abbrev Kw := List (String × Arg)

/-- The names of the nodes, parameters, recorders and scenarios of a model (loaded, or still to be loaded). -/
structure World where
  nodes : List String
  params : List String
  recorders : List String
  scenarios : List String

/-- `model.nodes[name]`; anything that is not the name of a node is a `KeyError`. -/
def loadNode (w : World) : Value → Option Value
  | .text s => if s ∈ w.nodes then some (.node s) else none
  | _ => none

/-- `load_parameter` (`_parameters.pyx:2292-2344`) on a reference, a number or `null`.  (`true` and `false` are `int`s.) -/
def loadParam (w : World) : Value → Option Value
  | .text s => if s ∈ w.params then some (.param (.named s)) else none
  | .num q => some (.num q)
  | .null => some .null
  | .flag b => some (.flag b)
  | _ => none

/-- `load_recorder` (`/repo/pywr/recorders/_recorders.pyx:2211-2255`) on a reference. -/
def loadRecorder (w : World) : Value → Option Value
  | .text s => if s ∈ w.recorders then some (.recorder s) else none
  | _ => none

/-- `load_parameter`, and `load_recorder` if that raises a `KeyError` (`/repo/pywr/recorders/events.py:195-199`). -/
def loadEither (w : World) (v : Value) : Option Value :=
  match loadParam w v with
  | some p => some p
  | none => loadRecorder w v

/-- `int(…)` of a number: the fraction is dropped. -/
def loadInteger : Value → Option Value
  | .num q => some (.num (q.num.tdiv q.den : Int))
  | .flag b => some (.num (if b then 1 else 0))
  | _ => none

/-- `wrap_const` (`_parameters.pyx:1433-1436`). -/
def wrapConst : Value → Value
  | .num q => .param (.const q)
  | .flag b => .param (.const (if b then 1 else 0))
  | v => v

/-- What `load` does to an entry before it passes it on. -/
inductive Kind
  /-- `model.nodes[…]` -/
  | node
  /-- `load_parameter(model, …)` -/
  | param
  /-- `[load_parameter(model, d) for d in …]` -/
  | params
  /-- `[load_parameter(model, …)]` (`_control_curves.pyx:81-83`) -/
  | single
  /-- `[wrap_const(model, load_parameter(model, d)) for d in …]` (`_parameters.pyx:1463-1467`) -/
  | wrapped
  /-- `[model.nodes[n] for n in …]` (`/repo/pywr/recorders/_recorders.pyx:2148`) -/
  | nodes
  /-- `load_recorder(model, …)` -/
  | recorder
  /-- `[load_recorder(model, name) for name in …]` (`_recorders.pyx:451`) -/
  | recorders
  /-- a parameter or a recorder (`events.py:195-199`) -/
  | either
  /-- `int(…)` (`_recorders.pyx:1622, 1711-1716`) -/
  | integer
  /-- `model.scenarios[…]` if it is not `None` (`_recorders.pyx:1088-1090`) -/
  | scenario
  /-- nothing -/
  | plain
deriving DecidableEq

/-- The conversion of an entry.  A string in the place of a list would be taken letter by letter; it is refused here. -/
def convert (w : World) : Kind → Arg → Option Arg
  | .node, .one v => (loadNode w v).map .one
  | .node, _ => none
  | .param, .one v => (loadParam w v).map .one
  | .param, _ => none
  | .params, .many vs => (vs.mapM (loadParam w)).map .many
  | .params, _ => none
  | .single, .one v => (loadParam w v).map fun v => .many [v]
  | .single, _ => none
  | .wrapped, .many vs => (vs.mapM (loadParam w)).map fun vs => .many (vs.map wrapConst)
  | .wrapped, _ => none
  | .nodes, .many vs => (vs.mapM (loadNode w)).map .many
  | .nodes, _ => none
  | .recorder, .one v => (loadRecorder w v).map .one
  | .recorder, _ => none
  | .recorders, .many vs => (vs.mapM (loadRecorder w)).map .many
  | .recorders, _ => none
  | .either, .one v => (loadEither w v).map .one
  | .either, _ => none
  | .integer, .one v => (loadInteger v).map .one
  | .integer, _ => none
  | .scenario, .one .null => some (.one .null)
  | .scenario, .one (.text s) => if s ∈ w.scenarios then some (.one (.scenario s)) else none
  | .scenario, _ => none
  | .plain, v => some v

/-- One entry that `load` takes out of the mapping: the argument of the constructor it is passed to, the names it may have in the document (the first that is there is taken), the keys in whose
presence it is not looked for, and the value that is passed if it is not there (`none`: a `KeyError`). -/
structure Step where
  key : String
  alts : List (String × Kind)
  blockers : List String
  default : Option Arg

/-- The attributes a constructor assigned. -/
abbrev Obj := List (String × Arg)

/-- A parameter class: what `load` takes from the entries, the arguments of the constructor with their defaults (`none`: required; those of `Parameter`, `_parameters.pyx:43` and `_component.pyx:78`,
included), the checks it makes before it calls `Component.__init__`, and the attributes it assigns after that. -/
structure Class where
  steps : List Step
  args : List (String × Option Arg)
  early : (String → Arg) → Bool
  body : (String → Arg) → Option Obj

/-- The value of an argument: as given, or the default. -/
def Class.arg (c : Class) (kw : Kw) (k : String) : Arg :=
  match kw.lookup k with
  | some v => v
  | none =>
    match c.args.lookup k with
    | some (some d) => d
    | _ => .one .null

/-- Python calls `cls(model, **kw)`: no argument twice, none unknown, none missing (`TypeError`). -/
def Class.callable (c : Class) (kw : Kw) : Bool :=
  decide (kw.map Prod.fst).Nodup && kw.all (fun e => c.args.any fun a => a.1 == e.1) && c.args.all (fun a => a.2.isSome || kw.any fun e => e.1 == a.1)

/-- The constructor. -/
def construct (c : Class) (kw : Kw) : Option Obj :=
  if c.callable kw && c.early (c.arg kw) then c.body (c.arg kw) else none

/-- Whether the mapping has a key. -/
def has (doc : Kw) (k : String) : Bool := doc.any fun e => e.1 == k

/-- The entry that a step takes. -/
def Step.found (s : Step) (doc : Kw) : Option (String × Kind) :=
  if s.blockers.any (has doc) then none else s.alts.find? fun a => has doc a.1

/-- The value that a step passes on. -/
def Step.take (w : World) (s : Step) (doc : Kw) : Option Arg :=
  match s.found doc with
  | some a => (doc.lookup a.1).bind (convert w a.2)
  | none => if s.blockers.any (has doc) then some (.one .null) else s.default

/-- `cls.load(model, data)`: the entries taken out and converted are passed by name or position, the others as `**data`.  (Steps take different keys, so the order does not matter.) -/
def fromDocument (w : World) (c : Class) (doc : Kw) : Option Obj :=
  (c.steps.mapM fun s : Step => (s.take w doc).map fun v => (s.key, v)).bind fun passed =>
    construct c (passed ++ doc.filter fun e => !(c.steps.any fun s => (s.found doc).any fun a => a.1 == e.1))

/-! ## Pieces of constructors -/

/-- Arguments of `Parameter` and `Component` that are not taken out by `load_parameter`. -/
def base : List (String × Option Arg) := [("is_variable", some (.one (.flag false))), ("comment", some (.one .null))]

/-- A required argument. -/
def req (k : String) : String × Option Arg := (k, none)

/-- An argument with a default. -/
def opt (k : String) (d : Value) : String × Option Arg := (k, some (.one d))

/-- `if not isinstance(p, (float, int))` … `ConstantParameter(model, p)`, and the use of `p.parents` after it (`_control_curves.pyx:59-67, 345-353`): anything else is an `AttributeError`. -/
def curve : Value → Option Value
  | .num q => some (.param (.const q))
  | .flag b => some (.param (.const (if b then 1 else 0)))
  | .param p => some (.param p)
  | _ => none

/-- The setter of `control_curves` (`_control_curves.pyx:52-68, 338-353`). -/
def curves : Arg → Option (List Value)
  | .one (.param p) => some [.param p]
  | .many vs => vs.mapM curve
  | _ => none

/-- `p.parents.add(self)` for every `p` in a list (`_control_curves.pyx:163-168, 435-440`). -/
def paramsOnly : Arg → Option (List Value)
  | .many vs => vs.mapM fun v => match v with
    | .param p => some (.param p)
    | _ => none
  | _ => none

/-- A list that becomes an array of doubles. -/
def numbers : Arg → Option (List Value)
  | .many vs => vs.mapM fun v => match v with
    | .num q => some (.num q)
    | .flag b => some (.num (if b then 1 else 0))
    | _ => none
  | _ => none

/-- An attribute of the type `double`. -/
def number : Arg → Option Arg
  | .one (.num q) => some (.one (.num q))
  | .one (.flag b) => some (.one (.num (if b then 1 else 0)))
  | _ => none

/-- An attribute whose declared type is `Parameter` (e.g. `_parameters.pxd:180-190`): a parameter or `None`; a number is a `TypeError`. -/
def parameter : Arg → Option Arg
  | .one (.param p) => some (.one (.param p))
  | .one .null => some (.one .null)
  | _ => none

/-- An attribute whose declared type is a class of nodes: a node or `None`. -/
def node : Arg → Option Arg
  | .one (.node n) => some (.one (.node n))
  | .one .null => some (.one .null)
  | _ => none

/-- Attribute `k` with a conversion of argument `k`. -/
def attr (k : String) (conv : Arg → Option Arg) (a : String → Arg) : Option Obj := (conv (a k)).map fun v => [(k, v)]

/-- Any value. -/
def whatever (v : Arg) : Option Arg := some v

/-- Assignments one after the other. -/
def seq (fs : List ((String → Arg) → Option Obj)) (a : String → Arg) : Option Obj := (fs.mapM fun f : (String → Arg) → Option Obj => f a).map List.flatten

/-- Base arguments. -/
def baseAttrs : (String → Arg) → Option Obj := seq [attr "is_variable" whatever, attr "comment" whatever]

/-- No checks before `Component.__init__`. -/
def noEarly (_ : String → Arg) : Bool := true

/-- The declared type of an argument is that of a node (`_control_curves.pyx:31`, `_thresholds.pyx:142, 167`).  (That a storage is not any node is not modelled.) -/
def typedNode (k : String) (a : String → Arg) : Bool := (node (a k)).isSome

/-- The declared type of an argument is `Parameter` (`_thresholds.pyx:302`). -/
def typedParameter (k : String) (a : String → Arg) : Bool := (parameter (a k)).isSome

/-! ## Control curves (`_control_curves.pyx`) -/

/-- `_load_control_curves` (`:76-87`); without either key there are no curves. -/
def curvesStep : Step := ⟨"control_curves", [("control_curve", .single), ("control_curves", .params)], [], some (.many [])⟩

/-- `_load_storage_node` (`:89-93`). -/
def storageStep : Step := ⟨"storage_node", [("storage_node", .node)], [], none⟩

/-- `BaseControlCurveParameter.__init__` (`:30-47`): the curves, then the storage, which must be given. -/
def baseCurve (a : String → Arg) : Option Obj :=
  (curves (a "control_curves")).bind fun cs =>
    match a "storage_node" with
    | .one (.node n) => some [("control_curves", .many cs), ("storage_node", .one (.node n))]
    | _ => none

/-- The number of curves. -/
def curveCount (a : String → Arg) : Nat := ((curves (a "control_curves")).getD []).length

/-- `values` if given, else `parameters`, of the given number (`:144-170, 423-443`). -/
def valuesOr (n : Nat) (otherwise : Option Obj) (a : String → Arg) : Option Obj :=
  match a "values" with
  | .one .null =>
    match a "parameters" with
    | .one .null => otherwise
    | ps => (paramsOnly ps).bind fun ps => if ps.length = n then some [("parameters", .many ps)] else none
  | vs => (numbers vs).bind fun vs => if vs.length = n then some [("values", .many vs)] else none

/-- Bounds of variables (`:451-470`): only with `variable_indices` and as many. -/
def bounds (k : String) (a : String → Arg) : Option Obj :=
  match a k with
  | .one .null => some [(k, .one .null)]
  | bs => (numbers bs).bind fun bs =>
    match a "variable_indices" with
    | .many is => if bs.length = is.length then some [(k, .many bs)] else none
    | _ => none

/-- `ControlCurveParameter` (`:418-470, 484-500`). -/
def controlCurve : Class :=
  ⟨[curvesStep, storageStep, ⟨"values", [("values", .plain)], [], some (.one .null)⟩, ⟨"parameters", [("parameters", .params)], ["values"], some (.one .null)⟩],
    base ++ [req "storage_node", req "control_curves", opt "values" .null, opt "parameters" .null, opt "variable_indices" .null, opt "upper_bounds" .null, opt "lower_bounds" .null], typedNode "storage_node",
    fun a => seq [baseAttrs, baseCurve,
      valuesOr (curveCount a + 1) (some [("values", .many ((List.range (curveCount a + 1)).map fun i => .num i))]), attr "variable_indices" whatever, bounds "upper_bounds", bounds "lower_bounds"] a⟩

/-- `ControlCurveInterpolatedParameter` (`:143-170, 214-226`): with `parameters` the values are not looked for. -/
def interpolated : Class :=
  ⟨[curvesStep, storageStep, ⟨"parameters", [("parameters", .params)], [], some (.one .null)⟩, ⟨"values", [("values", .plain)], ["parameters"], none⟩],
    base ++ [req "storage_node", req "control_curves", opt "values" .null, opt "parameters" .null], typedNode "storage_node",
    fun a => seq [baseAttrs, baseCurve, valuesOr (curveCount a + 2) none] a⟩

/-- The setter of `values` of `ControlCurvePiecewiseInterpolatedParameter` (`:266-274`); rows of different lengths make no array. -/
def pairs (n : Nat) (a : String → Arg) : Option Obj :=
  match a "values" with
  | .rows rs => if rs.length = n ∧ ∀ r ∈ rs, r.length = 2 then some [("values", .rows rs)] else none
  | _ => none

/-- `ControlCurvePiecewiseInterpolatedParameter` (`:257-275, 299-304`). -/
def piecewise : Class :=
  ⟨[curvesStep, storageStep, ⟨"values", [("values", .plain)], [], none⟩],
    base ++ [req "storage_node", req "control_curves", req "values", opt "minimum" (.num 0), opt "maximum" (.num 1)], typedNode "storage_node",
    fun a => seq [baseAttrs, baseCurve, pairs (curveCount a + 1), attr "minimum" number, attr "maximum" number] a⟩

/-- `ControlCurveIndexParameter` (`:317-320, 379-383`), which reads only `control_curves`. -/
def curveIndex : Class :=
  ⟨[storageStep, ⟨"control_curves", [("control_curves", .params)], [], none⟩], base ++ [req "storage_node", req "control_curves"], noEarly,
    seq [baseAttrs, attr "storage_node" node, fun a => (curves (a "control_curves")).map fun cs => [("control_curves", .many cs)]]⟩

/-! ## Thresholds (`_thresholds.pyx`) -/

/-- The setter of `threshold` (`:124-132`): a parameter or a number. -/
def threshold : Arg → Option Arg
  | .one (.param p) => some (.one (.param p))
  | .one (.num q) => some (.one (.num q))
  | .one (.flag b) => some (.one (.num (if b then 1 else 0)))
  | _ => none

/-- `_predicate_lookup` (`:5-17`) with the names of the cases. -/
def predicates : List (String × String) :=
  [("LT", "LT"), ("<", "LT"), ("GT", "GT"), (">", "GT"), ("EQ", "EQ"), ("=", "EQ"), ("LE", "LE"), ("<=", "LE"), ("GE", "GE"), (">=", "GE")]

/-- The predicate (`:55-59`).  Strings are given in upper case here (the code applies `upper`); an integer would be taken as the number of the case. -/
def predicate : Arg → Option Arg
  | .one .null => some (.one (.text "LT"))
  | .one (.text s) => (predicates.lookup s).map fun p => .one (.text p)
  | _ => none

/-- The two values (`:51-54`); their number is not checked. -/
def thresholdValues : Arg → Option Arg
  | .one .null => some (.one .null)
  | v => (numbers v).map .many

/-- `AbstractThresholdParameter.__init__` (`:48-61`). -/
def thresholdAttrs : (String → Arg) → Option Obj :=
  seq [baseAttrs, attr "threshold" threshold, attr "values" thresholdValues, attr "predicate" predicate, attr "ratchet" whatever]

/-- Arguments of the threshold parameters. -/
def thresholdArgs : List (String × Option Arg) := base ++ [req "threshold", opt "values" .null, opt "predicate" .null, opt "ratchet" (.flag false)]

/-- What `load` of the threshold parameters takes besides what is compared (`:149-155, 178-184, 315-321, 371-376`). -/
def thresholdSteps : List Step :=
  [⟨"threshold", [("threshold", .param)], [], none⟩, ⟨"values", [("values", .plain)], [], some (.one .null)⟩, ⟨"predicate", [("predicate", .plain)], [], some (.one .null)⟩]

/-- `StorageThresholdParameter` (`:134-156`; the constructor calls the node `storage`). -/
def storageThreshold : Class :=
  ⟨⟨"storage", [("storage_node", .node)], [], none⟩ :: thresholdSteps, req "storage" :: thresholdArgs, typedNode "storage", seq [thresholdAttrs, attr "storage" node]⟩

/-- `NodeThresholdParameter` (`:159-185`). -/
def nodeThreshold : Class :=
  ⟨⟨"node", [("node", .node)], [], none⟩ :: thresholdSteps, req "node" :: thresholdArgs, typedNode "node", seq [thresholdAttrs, attr "node" node]⟩

/-- `ParameterThresholdParameter` (`:294-322`; the constructor calls the parameter `param`; the declared type of the argument refuses a number and allows `None`). -/
def parameterThreshold : Class :=
  ⟨⟨"param", [("parameter", .param)], [], none⟩ :: thresholdSteps, req "param" :: thresholdArgs, typedParameter "param", seq [thresholdAttrs, attr "param" parameter]⟩

/-- `CurrentYearThresholdParameter` and `CurrentOrdinalDayThresholdParameter` (`:363-390`). -/
def yearThreshold : Class := ⟨thresholdSteps, thresholdArgs, noEarly, thresholdAttrs⟩

/-- A list in which everything that is not a parameter becomes a `ConstantParameter` (`:200-205, 252-257`; `_parameters.pyx:1283-1288`). -/
def wrappedList (k : String) (a : String → Arg) : Option Obj :=
  match a k with
  | .many vs => (vs.mapM curve).map fun vs => [(k, .many vs)]
  | _ => none

/-- `MultipleThresholdIndexParameter` (`:188-240`). -/
def multipleThreshold : Class :=
  ⟨[⟨"node", [("node", .node)], [], none⟩, ⟨"thresholds", [("thresholds", .params)], [], none⟩], base ++ [req "node", req "thresholds", opt "use_max_flow" (.flag false)], noEarly,
    seq [baseAttrs, attr "node" node, wrappedList "thresholds"]⟩

/-- `MultipleThresholdParameterIndexParameter` (`:243-291`). -/
def multipleThresholdParameter : Class :=
  ⟨[⟨"parameter", [("parameter", .param)], [], none⟩, ⟨"thresholds", [("thresholds", .params)], [], none⟩], base ++ [req "parameter", req "thresholds", opt "use_max_flow" (.flag false)],
    noEarly, seq [baseAttrs, attr "parameter" parameter, wrappedList "thresholds"]⟩

/-! ## Polynomials (`_polynomial.pyx`) -/

/-- Whether an argument is not `None`. -/
def given (a : Arg) : Bool := decide (a ≠ .one .null)

/-- A list of numbers. -/
def coefficients (a : String → Arg) : Option Obj := (numbers (a "coefficients")).map fun vs => [("coefficients", .many vs)]

/-- A table of numbers, all rows of the same length. -/
def coefficientRows (a : String → Arg) : Option Obj :=
  match a "coefficients" with
  | .rows rs => if ∀ r ∈ rs, r.length = (rs.headD []).length then some [("coefficients", .rows rs)] else none
  | _ => none

/-- Assignments of `Polynomial1DParameter` (`:37-43`) that come before the call of `Component.__init__`. -/
def polynomialAttrs : (String → Arg) → Option Obj :=
  seq [coefficients, attr "node" node, attr "storage_node" node, attr "parameter" parameter, attr "use_proportional_volume" whatever, attr "offset" number, attr "scale" number]

/-- `Polynomial1DParameter` (`:36-60, 87-101`): at most one source of the input is given; all checks are made first. -/
def polynomial1 : Class :=
  ⟨[⟨"node", [("node", .node)], [], some (.one .null)⟩, ⟨"storage_node", [("storage_node", .node)], [], some (.one .null)⟩, ⟨"parameter", [("parameter", .param)], [], some (.one .null)⟩,
      ⟨"coefficients", [("coefficients", .plain)], [], none⟩],
    base ++ [req "coefficients", opt "node" .null, opt "storage_node" .null, opt "parameter" .null, opt "use_proportional_volume" (.flag false), opt "offset" (.num 0), opt "scale" (.num 1)],
    fun a => (polynomialAttrs a).isSome && decide (([a "node", a "storage_node", a "parameter"].filter given).length ≤ 1),
    seq [baseAttrs, polynomialAttrs]⟩

/-- Assignments of `Polynomial2DStorageParameter` (`:135-142`) that come before the call of `Component.__init__`. -/
def polynomialAttrs2 : (String → Arg) → Option Obj :=
  seq [coefficientRows, attr "storage_node" node, attr "parameter" parameter, attr "use_proportional_volume" whatever, attr "storage_offset" number, attr "storage_scale" number,
    attr "parameter_offset" number, attr "parameter_scale" number]

/-- `Polynomial2DStorageParameter` (`:134-147, 170-176`). -/
def polynomial2 : Class :=
  ⟨[storageStep, ⟨"parameter", [("parameter", .param)], [], none⟩, ⟨"coefficients", [("coefficients", .plain)], [], none⟩],
    base ++ [req "coefficients", req "storage_node", req "parameter", opt "use_proportional_volume" (.flag false), opt "storage_offset" (.num 0), opt "storage_scale" (.num 1),
      opt "parameter_offset" (.num 0), opt "parameter_scale" (.num 1)],
    fun a => (polynomialAttrs2 a).isSome, seq [baseAttrs, polynomialAttrs2]⟩

/-! ## Parameters of parameters and of nodes (`_parameters.pyx`) -/

/-- The entry `parameter`. -/
def parameterStep : Step := ⟨"parameter", [("parameter", .param)], [], none⟩

/-- The entry `node`. -/
def nodeStep : Step := ⟨"node", [("node", .node)], [], none⟩

/-- `NegativeParameter` (`:1742-1766`). -/
def negative : Class := ⟨[parameterStep], base ++ [req "parameter"], noEarly, seq [baseAttrs, attr "parameter" parameter]⟩

/-- `MaxParameter`, `MinParameter` and their negatives (`:1769-1855`). -/
def maxMin : Class :=
  ⟨[parameterStep], base ++ [req "parameter", opt "threshold" (.num 0)], noEarly, seq [baseAttrs, attr "parameter" parameter, attr "threshold" number]⟩

/-- `OffsetParameter` (`:1858-1907`); the bounds are left out of the attributes. -/
def offset : Class :=
  ⟨[parameterStep], base ++ [req "parameter", opt "offset" (.num 0), opt "lower_bounds" (.num 0), opt "upper_bounds" .null], noEarly,
    seq [baseAttrs, attr "parameter" parameter, attr "offset" number]⟩

/-- `DivisionParameter` (`:1684-1739`). -/
def division : Class :=
  ⟨[⟨"numerator", [("numerator", .param)], [], none⟩, ⟨"denominator", [("denominator", .param)], [], none⟩], base ++ [req "numerator", req "denominator"], noEarly,
    seq [baseAttrs, attr "numerator" parameter, attr "denominator" parameter]⟩

/-- `DeficitParameter` (`:1910-1956`). -/
def deficit : Class := ⟨[nodeStep], base ++ [req "node"], noEarly, seq [baseAttrs, attr "node" node]⟩

/-- `FlowParameter` (`:1959-2008`). -/
def flow : Class :=
  ⟨[nodeStep], base ++ [req "node", opt "initial_value" (.num 0)], fun a => (number (a "initial_value")).isSome, seq [baseAttrs, attr "node" node, attr "initial_value" number]⟩

/-- `StorageParameter` (`:2011-2043`). -/
def storage : Class :=
  ⟨[storageStep], base ++ [req "storage_node", opt "use_proportional_volume" (.flag false)], noEarly, seq [baseAttrs, attr "storage_node" node, attr "use_proportional_volume" whatever]⟩

/-- `StorageLicense` and `AnnualLicense` (`licenses.py:70-110`). -/
def licence : Class :=
  ⟨[nodeStep, ⟨"amount", [("amount", .plain)], [], none⟩], base ++ [req "node", req "amount"], noEarly, seq [baseAttrs, attr "node" whatever, attr "amount" whatever]⟩

/-- `TimestepLicense` (`licenses.py:31-57`) has no `load` of its own: that of `Parameter` (`_parameters.pyx:126-142`) takes `values` (or reads them from a file or table, with the same effect) and passes them on by name, which the
constructor does not know.  `scenario`, which it takes out too, is left out: it would be one more unknown argument. -/
def timestepLicence : Class :=
  ⟨[⟨"values", [("values", .plain), ("url", .plain), ("table", .plain)], [], none⟩], base ++ [req "node", req "amount"], noEarly, seq [baseAttrs, attr "node" whatever, attr "amount" whatever]⟩

/-- `IndexedArrayParameter` (`:1263-1312`): an `assert` needs an index parameter (whether the parameter is one is not modelled); the list is called `params` by the constructor, and `params` or
`parameters` in a document. -/
def indexedArray : Class :=
  ⟨[⟨"index_parameter", [("index_parameter", .param)], [], none⟩, ⟨"params", [("params", .params), ("parameters", .params)], [], none⟩], base ++ [req "index_parameter", req "params"],
    noEarly, seq [baseAttrs, (fun a => match a "index_parameter" with | .one (.param p) => some [("index_parameter", .one (.param p))] | _ => none), wrappedList "params"]⟩

/-- The names of `_agg_func_lookup` (`:1408-1430`), in lower case (the code applies `lower`); anything else is refused, `None` too.  A function given by the caller is left out. -/
def aggFunc : Arg → Option Arg
  | .one (.text s) => if s ∈ ["sum", "min", "max", "mean", "product", "custom", "any", "all", "median"] then some (.one (.text s)) else none
  | _ => none

/-- `list(parameters)`: a list of anything (`:1458-1460`). -/
def anyList : Arg → Option Arg
  | .many vs => some (.many vs)
  | _ => none

/-- `AggregatedParameter` and `AggregatedIndexParameter` (`:1439-1470, 1559-1590`). -/
def aggregated : Class :=
  ⟨[⟨"parameters", [("parameters", .wrapped)], [], none⟩, ⟨"agg_func", [("agg_func", .plain)], [], some (.one .null)⟩], base ++ [req "parameters", opt "agg_func" .null], noEarly,
    seq [baseAttrs, attr "agg_func" aggFunc, attr "parameters" anyList]⟩

/-! ## Other parameters -/

/-- A number, a parameter or `None` for each of the inputs of `HydropowerTargetParameter` (the setters, `_hydropower.pyx:134-168`, whose declared type is `Parameter`), and numbers. -/
def hydropower : Class :=
  ⟨[⟨"target", [("target", .param)], [], none⟩, ⟨"water_elevation_parameter", [("water_elevation_parameter", .param)], [], some (.one .null)⟩,
      ⟨"max_flow", [("max_flow", .param)], [], some (.one .null)⟩, ⟨"min_flow", [("min_flow", .param)], [], some (.one .null)⟩],
    base ++ [req "target", opt "water_elevation_parameter" .null, opt "max_flow" .null, opt "min_flow" .null, opt "turbine_elevation" (.num 0), opt "efficiency" (.num 1),
      opt "density" (.num 1000), opt "min_head" (.num 0), opt "flow_unit_conversion" (.num 1), opt "energy_unit_conversion" (.num (1 / 1000000))], noEarly,
    seq [baseAttrs, attr "target" parameter, attr "water_elevation_parameter" parameter, attr "max_flow" parameter, attr "min_flow" parameter, attr "min_head" number,
      attr "turbine_elevation" number, attr "efficiency" number, attr "density" number, attr "flow_unit_conversion" number, attr "energy_unit_conversion" number]⟩

/-! ## What is left in the model -/

/-- The components of a model, by their names (`none`: no name).  `Component.__init__` (`_component.pyx:78-101`): a name in use is a `ValueError`; then the component is part of the model, before the rest
of the constructor of its class runs. -/
def create (m : List (Option String)) (c : Class) (name : Option String) (kw : Kw) : List (Option String) × Option Obj :=
  if c.callable kw && c.early (c.arg kw) then
    if name.isSome && m.contains name then (m, none) else (m ++ [name], c.body (c.arg kw))
  else (m, none)

end Verif.ParameterLoading

import Verif.Model.ParameterLoading
/-!
# Recorders in a document

Models `load` of the recorder classes (`/repo/pywr/recorders/_recorders.pyx`, `_thresholds.pyx`, `_hydropower.pyx`, `events.py`, `calibration.py`, `kde.py`), their constructors as far as the attributes they
assign, and the names of recorders that are given none, with the readers of documents of `Model/ParameterLoading.lean`.  `load_recorder` (`_recorders.pyx:2211-2255`) takes `type` from the entries and
passes the others to `load`; the entry `name` is put there by `collect_components` (`/repo/pywr/_model.pyx:414-418`).  The recorders that write files (`Model/CsvRecorder.lean`, `Model/OutputFile.lean`),
aggregation functions given as mappings or Python functions (`Model/Aggregators.lean`), values read from files and the kinds of nodes and parameters are left out; factors kept in single precision
(`_recorders.pxd:45`) are kept as they are.
-/

namespace Verif.RecorderLoading
open Verif.ParameterLoading

/-- An argument that was not given, where the code asks for that (`"agg_func" in kwargs`, `kwargs.get("agg_func")`). -/
def absent : Arg := .rows []

/-- An argument that may be absent. -/
def may (k : String) : String × Option Arg := (k, some absent)

/-- `_agg_func_lookup` (`_recorders.pyx:21-32`); the code applies `lower`. -/
def aggNames : List String := ["sum", "min", "max", "mean", "median", "product", "custom", "percentile", "percentileofscore", "count_nonzero"]

/-- `Aggregator(…)` of a string (`:85-103`); `None` and numbers are refused. -/
def aggregator : Arg → Option Arg
  | .one (.text s) => if s ∈ aggNames then some (.one (.text s)) else none
  | _ => none

/-- `_obj_direction_lookup` (`:40-47`) and the name the property gives back (`:241-255`). -/
def objective : Arg → Option Arg
  | .one .null => some (.one .null)
  | .one (.text s) =>
    if s ∈ ["maximize", "maximise", "max"] then some (.one (.text "maximise"))
    else if s ∈ ["minimise", "minimize", "min"] then some (.one (.text "minimise"))
    else none
  | _ => none

/-- A number or `None`. -/
def limit : Arg → Option (Option Rat)
  | .one .null => some none
  | .one (.num q) => some (some q)
  | .one (.flag b) => some (some (if b then 1 else 0))
  | _ => none

/-- `None` again for an absent limit. -/
def asArg : Option Rat → Arg
  | none => .one .null
  | some q => .one (.num q)

/-- The setters of the bounds in the order of the constructor (`:257-283, 231-232`): the upper is compared with the lower. -/
def constraint (a : String → Arg) : Option Obj :=
  (limit (a "constraint_lower_bounds")).bind fun l =>
    (limit (a "constraint_upper_bounds")).bind fun u =>
      match l, u with
      | some l', some u' => if u' < l' then none else some [("constraint_lower_bounds", asArg l), ("constraint_upper_bounds", asArg u)]
      | _, _ => some [("constraint_lower_bounds", asArg l), ("constraint_upper_bounds", asArg u)]

/-- Arguments of `Recorder` and `Component` (`:218-219`, `/repo/pywr/_component.pyx:84`). -/
def recorderArgs : List (String × Option Arg) :=
  [opt "agg_func" (.text "mean"), opt "ignore_nan" (.flag false), opt "is_objective" .null, opt "epsilon" (.num 1), opt "name" .null, opt "constraint_lower_bounds" .null,
    opt "constraint_upper_bounds" .null, opt "comment" .null, opt "tags" .null]

/-- The same where the class asks whether `agg_func` was given. -/
def recorderArgs' : List (String × Option Arg) := may "agg_func" :: recorderArgs.tail

/-- The name: as given, or made from that of the class (`:224-225`), of the node or of the parameter (`:461-462, 482-483, 512-513, 550-551`). -/
def nameOr (default : (String → Arg) → Option String) (a : String → Arg) : Option Obj :=
  match a "name" with
  | .one .null => (default a).map fun n => [("name", .one (.text n))]
  | v => some [("name", v)]

/-- `"{}.{}".format(class, node.name)`. -/
def ofNode (cls : String) (a : String → Arg) : Option String :=
  match a "node" with
  | .one (.node n) => some (cls ++ "." ++ n)
  | _ => none

/-- `"{}.{}".format(class, param.name)`; a constant made from a number has the name `None`. -/
def ofParam (k cls : String) (a : String → Arg) : Option String :=
  match a k with
  | .one (.param (.named p)) => some (cls ++ "." ++ p)
  | .one (.param (.const _)) => some (cls ++ ".None")
  | _ => none

/-- The name of the class. -/
def ofClass (cls : String) (_ : String → Arg) : Option String := some cls

/-- `agg_func` of the base class, `"mean"` if absent. -/
def scenarioAgg : Arg → Option Arg
  | .rows [] => some (.one (.text "mean"))
  | v => aggregator v

/-- `Recorder.__init__` (`:218-234`). -/
def recorderAttrs (default : (String → Arg) → Option String) : (String → Arg) → Option Obj :=
  seq [nameOr default, attr "comment" whatever, attr "tags" whatever, attr "ignore_nan" whatever, attr "is_objective" objective, attr "epsilon" number, constraint, attr "agg_func" scenarioAgg]

/-- An argument that is a node. -/
def isNode : Arg → Option Arg
  | .one (.node n) => some (.one (.node n))
  | _ => none

/-- An argument that is a parameter. -/
def isParam : Arg → Option Arg
  | .one (.param p) => some (.one (.param p))
  | _ => none

/-- An argument of the C type `int`: a number with a fraction is refused. -/
def whole : Arg → Option Arg
  | .one (.num q) => if q.den = 1 then some (.one (.num q)) else none
  | .one (.flag b) => some (.one (.num (if b then 1 else 0)))
  | _ => none

/-- An array of doubles. -/
def array : Arg → Option Arg
  | v => (numbers v).map .many

/-! ## Recorders of nodes -/

/-- `Recorder.load` (`:340-348`): without the entry, the constructor misses its argument. -/
def nodeOnly : List Step := [⟨"node", [("node", .node)], [], none⟩]

/-- `NodeRecorder` and `StorageRecorder` (`:458-498`), and the recorders below them without arguments of their own (`:1722, 1740, 1805, 1825, 1843`).  The declared types `AbstractNode` and
`AbstractStorage` are refused or not before anything is done; `None` has no name and no list of recorders. -/
def nodeRecorder (cls : String) : Class := ⟨nodeOnly, recorderArgs ++ [req "node"], typedNode "node", seq [recorderAttrs (ofNode cls), attr "node" isNode]⟩

/-- A recorder of a node with further arguments. -/
def nodeWith (cls : String) (steps : List Step) (args : List (String × Option Arg)) (body : List ((String → Arg) → Option Obj)) : Class :=
  ⟨nodeOnly ++ steps, recorderArgs ++ [req "node"] ++ args, typedNode "node", seq ([recorderAttrs (ofNode cls), attr "node" isNode] ++ body)⟩

/-- `NumpyArrayNodeRecorder` (`:599-605`) and the recorders below it without arguments of their own (`:650, 692, 738, 783`). -/
def numpyNode (cls : String) : Class :=
  nodeWith cls [] [opt "temporal_agg_func" (.text "mean"), opt "factor" (.num 1)] [attr "temporal_agg_func" aggregator, attr "factor" number]

/-- `TotalFlowNodeRecorder` and `MeanFlowNodeRecorder` (`:1764-1766, 1785-1787`). -/
def totalFlow (cls : String) : Class := nodeWith cls [] [opt "factor" (.num 1)] [attr "factor" number]

/-- The old name of `temporal_agg_func` (`:834-843, 1264-1273`): not both. -/
def temporal (old : String) (a : String → Arg) : Option Obj :=
  match decide (a old = absent), decide (a "temporal_agg_func" = absent) with
  | true, true => some [("temporal_agg_func", .one (.text "mean"))]
  | true, false => (aggregator (a "temporal_agg_func")).map fun v => [("temporal_agg_func", v)]
  | false, true => (aggregator (a old)).map fun v => [("temporal_agg_func", v)]
  | false, false => none

/-- Assignments of `FlowDurationCurveRecorder` (`:832-846`). -/
def fdcBody : List ((String → Arg) → Option Obj) := [temporal "fdc_agg_func", attr "factor" number, attr "percentiles" array]

/-- Arguments of `FlowDurationCurveRecorder`. -/
def fdcArgs : List (String × Option Arg) := [req "percentiles", may "temporal_agg_func", may "fdc_agg_func", opt "factor" (.num 1)]

/-- `FlowDurationCurveRecorder` (`:814-846`). -/
def fdc (cls : String) : Class := nodeWith cls [] fdcArgs fdcBody

/-- `SeasonalFlowDurationCurveRecorder` (`:897-899`). -/
def seasonal (cls : String) : Class := nodeWith cls [] (req "months" :: fdcArgs) (fdcBody ++ [attr "months" anyList])

/-- A target: none, a number for each percentile, or a row for each (`:955-980`). -/
def target (k : String) (a : String → Arg) : Option Obj :=
  let n := ((numbers (a "percentiles")).getD []).length
  match a k with
  | .one .null => some [(k, .one .null)]
  | .one _ => none
  | .many vs => (numbers (.many vs)).bind fun vs => if vs.length = n then some [(k, .many vs)] else none
  | .rows rs => if rs.length = n ∧ ∀ r ∈ rs, r.length = (rs.headD []).length then some [(k, .rows rs)] else none

/-- One of the targets is given (`:951-952`). -/
def oneTarget (a : String → Arg) : Option Obj := if given (a "lower_target_fdc") || given (a "upper_target_fdc") then some [] else none

/-- The attribute of the type `Scenario` (`_recorders.pxd:95`). -/
def scenario : Arg → Option Arg
  | .one .null => some (.one .null)
  | .one (.scenario s) => some (.one (.scenario s))
  | _ => none

/-- `FlowDurationCurveDeviationRecorder` (`:948-980, 1084-1101`), without the entry `scenario`; targets read from files are left out. -/
def deviation (cls : String) : Class :=
  nodeWith cls [⟨"percentiles", [("percentiles", .plain)], [], none⟩, ⟨"upper_target_fdc", [("upper_target_fdc", .plain)], [], some (.one .null)⟩,
      ⟨"lower_target_fdc", [("lower_target_fdc", .plain)], [], some (.one .null)⟩]
    (fdcArgs ++ [opt "lower_target_fdc" .null, opt "upper_target_fdc" .null, opt "scenario" .null])
    (fdcBody ++ [oneTarget, target "lower_target_fdc", target "upper_target_fdc", attr "scenario" scenario])

/-- `AbstractComparisonNodeRecorder` and the recorders below it (`calibration.py:20-26`). -/
def comparison (cls : String) : Class :=
  nodeWith cls [] [req "observed", opt "temporal_agg_func" (.text "mean"), opt "factor" (.num 1)] [attr "temporal_agg_func" aggregator, attr "factor" number, attr "observed" whatever]

/-- `NodeThresholdRecorder` and `StorageThresholdRecorder` (`_thresholds.pyx:52-60, 97-105`). -/
def thresholdRecorder (cls : String) : Class := nodeWith cls [] [req "threshold", opt "predicate" .null] [attr "threshold" number, attr "predicate" predicate]

/-- Numbers of the recorders of power. -/
def powerArgs : List (String × Option Arg) :=
  [opt "water_elevation_parameter" .null, opt "turbine_elevation" (.num 0), opt "efficiency" (.num 1), opt "density" (.num 1000), opt "flow_unit_conversion" (.num 1),
    opt "energy_unit_conversion" (.num (1 / 1000000))]

/-- Their assignments (`_hydropower.pyx:110-125, 215-230`). -/
def powerBody : List ((String → Arg) → Option Obj) :=
  [attr "water_elevation_parameter" parameter, attr "turbine_elevation" number, attr "efficiency" number, attr "density" number, attr "flow_unit_conversion" number, attr "energy_unit_conversion" number]

/-- The entry of the level (`_hydropower.pyx:159-162, 266-269`). -/
def levelStep : Step := ⟨"water_elevation_parameter", [("water_elevation_parameter", .param)], [], some (.one .null)⟩

/-- `HydropowerRecorder` (`_hydropower.pyx:106-165`). -/
def hydropower (cls : String) : Class :=
  nodeWith cls [levelStep] (powerArgs ++ [opt "temporal_agg_func" (.text "mean"), opt "factor" (.num 1)]) ([attr "temporal_agg_func" aggregator, attr "factor" number] ++ powerBody)

/-- `TotalHydroEnergyRecorder` (`_hydropower.pyx:211-272`). -/
def energy (cls : String) : Class := nodeWith cls [levelStep] powerArgs powerBody

/-- A number of timesteps or days (`:1650-1660`): nothing, zero and `false` are taken as 0. -/
def count : Arg → Option Rat
  | .one .null => some 0
  | .one (.num q) => some (q.num.tdiv q.den : Int)
  | .one (.flag b) => some (if b then 1 else 0)
  | _ => none

/-- `RollingMeanFlowNodeRecorder` (`:1644-1660`).  The question whether either was given is asked before the fraction is dropped. -/
def rollingCounts (a : String → Arg) : Option Obj :=
  (count (a "timesteps")).bind fun t => (count (a "days")).bind fun d =>
    if ([a "timesteps", a "days"].all fun v => decide (v = .one .null ∨ v = .one (.num 0) ∨ v = .one (.flag false))) then none else some [("timesteps", .one (.num t)), ("days", .one (.num d))]

/-- `RollingMeanFlowNodeRecorder` (`:1644-1660, 1706-1718`). -/
def rollingMean (cls : String) : Class :=
  nodeWith cls [⟨"timesteps", [("timesteps", .integer)], [], some (.one .null)⟩, ⟨"days", [("days", .integer)], [], some (.one .null)⟩] [opt "timesteps" .null, opt "days" .null] [rollingCounts]

/-! ## Recorders of storages -/

/-- `NumpyArrayLevelRecorder` and `NumpyArrayAreaRecorder` (`:1106-1112, 1305, 1333`). -/
def numpyStorageBase (cls : String) : Class := nodeWith cls [] [opt "temporal_agg_func" (.text "mean")] [attr "temporal_agg_func" aggregator]

/-- `NumpyArrayStorageRecorder` (`:1170-1173`). -/
def numpyStorage (cls : String) : Class :=
  nodeWith cls [] [opt "temporal_agg_func" (.text "mean"), opt "proportional" (.flag false)] [attr "temporal_agg_func" aggregator, attr "proportional" whatever]

/-- `NumpyArrayNormalisedStorageRecorder` (`:1207-1211, 1234-1239`); `None` is not refused. -/
def normalised (cls : String) : Class :=
  nodeWith cls [⟨"parameter", [("parameter", .param)], [], none⟩] [req "parameter", opt "temporal_agg_func" (.text "mean")] [attr "temporal_agg_func" aggregator, attr "parameter" parameter]

/-- `StorageDurationCurveRecorder` (`:1263-1277`). -/
def sdc (cls : String) : Class :=
  nodeWith cls [] [req "percentiles", may "temporal_agg_func", may "sdc_agg_func", opt "proportional" (.flag false)]
    [temporal "sdc_agg_func", attr "proportional" whatever, attr "percentiles" array]

/-- `MinimumThresholdVolumeStorageRecorder` (`:1861-1863`). -/
def minimumThreshold (cls : String) : Class := nodeWith cls [] [req "threshold"] [attr "threshold" number]

/-- `GaussianKDEStorageRecorder` (`kde.py:36-46`), which gives `proportional` itself. -/
def kde (cls : String) : Class :=
  nodeWith cls [] [opt "temporal_agg_func" (.text "mean"), opt "resample_freq" .null, opt "resample_func" .null, req "target_volume_pc", opt "use_reflection" (.flag true), opt "num_pdf" (.num 101)]
    [attr "temporal_agg_func" aggregator, attr "resample_freq" whatever, attr "resample_func" whatever, attr "target_volume_pc" whatever, attr "use_reflection" whatever, attr "num_pdf" whatever]

/-- `NormalisedGaussianKDEStorageRecorder` (`kde.py:135-143`). -/
def normalisedKde (cls : String) : Class :=
  nodeWith cls [⟨"parameter", [("parameter", .param)], [], none⟩]
    [req "parameter", opt "temporal_agg_func" (.text "mean"), opt "resample_freq" .null, opt "resample_func" .null, opt "use_reflection" (.flag true), opt "num_pdf" (.num 101)]
    [attr "temporal_agg_func" aggregator, attr "parameter" parameter, attr "resample_freq" whatever, attr "resample_func" whatever, attr "use_reflection" whatever, attr "num_pdf" whatever]

/-! ## Recorders of parameters -/

/-- The entry `parameter`, which the constructors call differently. -/
def parameterStep (arg : String) : List Step := [⟨arg, [("parameter", .param)], [], none⟩]

/-- A recorder of a parameter with further arguments.  `ParameterRecorder` and `IndexParameterRecorder` (`:511-517, 528-543, 548-571`); the declared types refuse numbers, `None` has no name and no parents. -/
def paramWith (cls arg : String) (steps : List Step) (args : List (String × Option Arg)) (body : List ((String → Arg) → Option Obj)) : Class :=
  ⟨parameterStep arg ++ steps, recorderArgs ++ [req arg] ++ args, typedParameter arg, seq ([recorderAttrs (ofParam arg cls), attr arg isParam] ++ body)⟩

/-- `ParameterRecorder`, `IndexParameterRecorder`. -/
def parameterRecorder (cls : String) : Class := paramWith cls "param" [] [] []

/-- `NumpyArrayParameterRecorder`, `NumpyArrayDailyProfileParameterRecorder`, `NumpyArrayIndexParameterRecorder` (`:1378-1383, 1449-1454, 1512-1517`). -/
def numpyParameter (cls : String) : Class := paramWith cls "param" [] [opt "temporal_agg_func" (.text "mean")] [attr "temporal_agg_func" aggregator]

/-- `TotalParameterRecorder` (`:2295-2298`). -/
def totalParameter (cls : String) : Class := paramWith cls "param" [] [opt "factor" (.num 1), opt "integrate" (.flag false)] [attr "factor" number, attr "integrate" whatever]

/-- `MeanParameterRecorder` (`:2334-2336`). -/
def meanParameter (cls : String) : Class := paramWith cls "param" [] [opt "factor" (.num 1)] [attr "factor" number]

/-- The aggregation of `RollingWindowParameterRecorder` (`:1560-1567`): without `temporal_agg_func`, that of the scenarios. -/
def windowAgg (a : String → Arg) : Option Obj :=
  (aggregator (if a "temporal_agg_func" = absent then a "agg_func" else a "temporal_agg_func")).map fun v => [("temporal_agg_func", v)]

/-- `RollingWindowParameterRecorder` (`:1558-1571, 1618-1623`). -/
def rollingWindow (cls : String) : Class :=
  paramWith cls "param" [⟨"window", [("window", .integer)], [], none⟩] [req "window", may "temporal_agg_func"] [attr "window" whole, windowAgg]

/-- `TimestepCountIndexParameterRecorder` (`:1891-1893`), whose constructor calls the parameter `parameter`. -/
def timestepCount (cls : String) : Class := paramWith cls "parameter" [] [req "threshold"] [attr "threshold" whole]

/-- `AnnualCountIndexParameterRecorder` (`:2155-2157`). -/
def annualCount (cls : String) : Class := paramWith cls "param" [] [req "threshold"] [attr "threshold" whole]

/-! ## Recorders of several things -/

/-- A list in the place of an attribute of the type `list`, or `None`. -/
def listOrNone : Arg → Option Arg
  | .one .null => some (.one .null)
  | .many vs => some (.many vs)
  | _ => none

/-- `AnnualCountIndexThresholdRecorder` (`:1948-1966, 2051-2055`): the name is an argument without a default (`None` is of the type `str` too). -/
def annualThreshold (cls : String) : Class :=
  ⟨[⟨"parameters", [("parameters", .params)], [], none⟩],
    recorderArgs.filter (fun e => e.1 != "name") ++ [req "name", req "parameters", req "threshold", opt "exclude_months" .null, opt "include_from_month" .null, opt "include_from_day" .null,
      opt "include_to_month" .null, opt "include_to_day" .null, opt "temporal_agg_func" (.text "sum")],
    fun a => (listOrNone (a "exclude_months")).isSome && (whole (a "threshold")).isSome && (listOrNone (a "parameters")).isSome,
    seq [recorderAttrs (ofClass cls), attr "parameters" anyList, attr "threshold" whole, attr "exclude_months" listOrNone, attr "include_from_month" whatever, attr "include_from_day" whatever,
      attr "include_to_month" whatever, attr "include_to_day" whatever, attr "temporal_agg_func" aggregator]⟩

/-- The factors of `AnnualTotalFlowRecorder` (`:2082-2098`): one for each node if there are none; their number is not checked. -/
def flowFactors (a : String → Arg) : Option Obj :=
  match a "nodes" with
  | .many ns =>
    match a "factors" with
    | .one .null => some [("nodes", .many ns), ("factors", .many (ns.map fun _ => .num 1))]
    | fs => (numbers fs).map fun fs => [("nodes", .many ns), ("factors", .many fs)]
  | _ => none

/-- `AnnualTotalFlowRecorder` (`:2076-2098, 2146-2149`). -/
def annualFlow (cls : String) : Class :=
  ⟨[⟨"nodes", [("nodes", .nodes)], [], none⟩],
    recorderArgs.filter (fun e => e.1 != "name") ++ [req "name", req "nodes", opt "factors" .null, opt "temporal_agg_func" (.text "sum")],
    fun a => (listOrNone (a "nodes")).isSome, seq [recorderAttrs (ofClass cls), flowFactors, attr "temporal_agg_func" aggregator]⟩

/-- How `AggregatedRecorder` aggregates the recorders (`:384-395`): as given, or as the scenarios; without either it is `None`, which is refused. -/
def acrossRecorders (a : String → Arg) : Option Arg := aggregator (if a "recorder_agg_func" = absent then a "agg_func" else a "recorder_agg_func")

/-- `AggregatedRecorder` (`:382-401, 448-453`). -/
def aggregatedRecorder (cls : String) : Class :=
  ⟨[⟨"recorders", [("recorders", .recorders)], [], none⟩], recorderArgs' ++ [req "recorders", may "recorder_agg_func"], fun a => (acrossRecorders a).isSome,
    seq [recorderAttrs (ofClass cls), fun a => (acrossRecorders a).map fun v => [("recorder_agg_func", v)], attr "recorders" anyList]⟩

/-! ## Events (`events.py`) -/

/-- A parameter or a recorder: anything that has parents. -/
def component : Arg → Option Arg
  | .one (.param p) => some (.one (.param p))
  | .one (.recorder r) => some (.one (.recorder r))
  | _ => none

/-- At least 1 (`:65-67`). -/
def eventLength : Arg → Option Arg
  | .one (.num q) => if 1 ≤ q then some (.one (.num q)) else none
  | .one (.flag true) => some (.one (.flag true))
  | _ => none

/-- An aggregation of events: as given, or that of the scenarios if that was given, or another (`:61, 233, 310-313`).  It is not checked. -/
def eventAgg (k : String) (otherwise : Arg) (a : String → Arg) : Option Obj :=
  some [(k, if a k ≠ absent then a k else if a "agg_func" ≠ absent then a "agg_func" else otherwise)]

/-- `EventRecorder` (`:58-74, 191-203`). -/
def eventRecorder (cls : String) : Class :=
  ⟨[⟨"threshold", [("threshold", .either)], [], none⟩, ⟨"tracked_parameter", [("tracked_parameter", .param)], [], some (.one .null)⟩],
    recorderArgs' ++ [req "threshold", opt "minimum_event_length" (.num 1), opt "tracked_parameter" .null, may "event_agg_func"], noEarly,
    seq [recorderAttrs (ofClass cls), eventAgg "event_agg_func" (.one .null), attr "threshold" component, attr "minimum_event_length" eventLength, attr "tracked_parameter" parameter]⟩

/-- A recorder (whether it is one of events is not asked here). -/
def isRecorder : Arg → Option Arg
  | .one (.recorder r) => some (.one (.recorder r))
  | _ => none

/-- `EventDurationRecorder` (`:231-238, 270-273`). -/
def eventDuration (cls : String) : Class :=
  ⟨[⟨"event_recorder", [("event_recorder", .recorder)], [], none⟩], recorderArgs' ++ [req "event_recorder", may "recorder_agg_func"], noEarly,
    seq [recorderAttrs (ofClass cls), eventAgg "recorder_agg_func" (.one (.text "mean")), attr "event_recorder" isRecorder]⟩

/-- `EventStatisticRecorder` (`:308-317, 355-358`). -/
def eventStatistic (cls : String) : Class :=
  ⟨[⟨"event_recorder", [("event_recorder", .recorder)], [], none⟩], recorderArgs' ++ [req "event_recorder", may "recorder_agg_func", may "event_agg_func"], noEarly,
    seq [recorderAttrs (ofClass cls), eventAgg "recorder_agg_func" (.one (.text "mean")), eventAgg "event_agg_func" (.one (.text "mean")), attr "event_recorder" isRecorder]⟩

/-! ## Entries that are not passed on -/

/-- A `load` that reads entries without passing them on, or passes only some. -/
structure Reader where
  cls : Class
  ignored : List (String × Kind)
  only : Option (List String)

/-- The entries that are passed on or converted. -/
def Reader.kept (r : Reader) (doc : Kw) : Kw :=
  doc.filter fun e => !(r.ignored.any fun k => k.1 == e.1) && (match r.only with | some l => l.contains e.1 | none => true)

/-- `load`: entries that are ignored must still be names of something. -/
def Reader.read (w : World) (r : Reader) (doc : Kw) : Option Obj :=
  if r.ignored.all fun k => match doc.lookup k.1 with
    | some v => (convert w k.2 v).isSome
    | none => true
  then fromDocument w r.cls (r.kept doc) else none

/-- `ParameterRecorder.load` (`:528-543`) and those that inherit it: the node is looked up, so that it is loaded, and not passed on. -/
def parameterReader (c : Class) : Reader := ⟨c, [("node", .node)], none⟩

/-- `FlowDurationCurveDeviationRecorder.load` (`:1084-1101`): the scenario is looked up, and not passed on. -/
def deviationReader (cls : String) : Reader := ⟨deviation cls, [("scenario", .scenario)], none⟩

/-- `RollingMeanFlowNodeRecorder.load` (`:1706-1718`): only four entries are passed on. -/
def rollingMeanReader (cls : String) : Reader := ⟨rollingMean cls, [], some ["name", "node", "timesteps", "days"]⟩

/-! ## What is left in the model -/

/-- The names of the components after a recorder is made: the name is taken in `Component.__init__`.  What a refused construction leaves behind is the subject of `create` in
`Model/ParameterLoading.lean`, and is left out here. -/
def record (m : List String) (c : Class) (kw : Kw) : List String × Option Obj :=
  match construct c kw with
  | none => (m, none)
  | some o =>
    match o.lookup "name" with
    | some (.one (.text n)) => if n ∈ m then (m, none) else (n :: m, some o)
    | _ => (m, none)

end Verif.RecorderLoading

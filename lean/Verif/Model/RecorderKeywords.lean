import Verif.Model.Keywords
/-!
# What is said about a recorder when it is made

Models how the constructors of all classes of recorders (`/repo/pywr/recorders/*.pyx`, `*.py`) hand their arguments on to `Recorder.__init__` (`/repo/pywr/recorders/_recorders.pyx:218-234`) and
`Component.__init__` (`/repo/pywr/_component.pyx:84-102`), and the names that recorders get when none is given. A class is the list of the constructors from its own to the last before `Recorder`. Keywords that a constructor
takes out of `kwargs` with `pop` count as keyword-only arguments (a missing one without default raises `KeyError`, here `TypeError`); `fdc_agg_func` and `sdc_agg_func` are taken out and not passed on as `temporal_agg_func`. What the
constructors do with their own arguments is left out, and so are the checks and conversions by the setters of `is_objective`, `agg_func` and the bounds (modelled in `Model/Constraints` and `Model/Aggregators`).
-/

namespace Verif.RecorderKeywords
open Verif.Keywords

/-- A constructor, the further keywords it passes to the constructor of the base class, and whether it passes `name=name` (`some none`), or with `some (some a)` in place of a missing name the name of the class and that of the
argument `a`. -/
structure Level where
  ctor : Ctor
  also : Kw
  names : Option (Option String)

/-- The name that is passed. `self` is the name of the class in lower case, `nameOf` the name of an object as it is formatted (`None` if it has none). -/
def Level.name (self : String) (nameOf : Val → String) (l : Level) (e : Env) : Kw :=
  match l.names with
  | none => []
  | some d => [("name", match e.get "name", d with
    | .none, some a => .str (self ++ "." ++ nameOf (e.get a))
    | v, _ => v)]

/-- The arguments of the call of the base class; `none`: `TypeError`, a keyword is given twice. -/
def Level.next (self : String) (nameOf : Val → String) (l : Level) (e : Env) : Option (List Val × Kw) :=
  if (superCall l.ctor e).2.any fun p => ((l.name self nameOf e ++ l.also).map (·.1)).contains p.1 then none
  else some ((superCall l.ctor e).1, l.name self nameOf e ++ l.also ++ (superCall l.ctor e).2)

/-- `Recorder.__init__`, `_recorders.pyx:218-219`. -/
def recorderInit : Ctor :=
  ⟨[req "model", ("agg_func", some (.str "mean")), ("ignore_nan", some (.flag false)), opt "is_objective", ("epsilon", some (.num 1)), opt "name", opt "constraint_lower_bounds", opt "constraint_upper_bounds"],
    false, [], true, ["model"], false, false, true⟩

/-- What a recorder says about itself. -/
structure Attrs where
  name : Val
  comment : Val
  tags : Val
  aggFunc : Val
  ignoreNan : Val
  isObjective : Val
  epsilon : Val
  lower : Val
  upper : Val
deriving DecidableEq, Repr

/-- `Recorder.__init__` and `Component.__init__` (`_recorders.pyx:224-233`, `_component.pyx:84-88`). -/
def base (self : String) (pos : List Val) (kw : Kw) : Option Attrs :=
  match bind recorderInit pos kw with
  | none => none
  | some e =>
    match bind component [e.get "model"] (("name", if e.get "name" = .none then .str self else e.get "name") :: e.kwargs) with
    | none => none
    | some e' => some ⟨e'.get "name", e'.get "comment", e'.get "tags", e.get "agg_func", e.get "ignore_nan", e.get "is_objective", e.get "epsilon", e.get "constraint_lower_bounds", e.get "constraint_upper_bounds"⟩

/-- A constructor calls that of its base class, and so on. -/
def call (self : String) (nameOf : Val → String) : List Level → List Val → Kw → Option Attrs
  | [], pos, kw => base self pos kw
  | l :: ls, pos, kw => match bind l.ctor pos kw with
    | none => none
    | some e => match l.next self nameOf e with
      | none => none
      | some (pos, kw) => call self nameOf ls pos kw

/-- A recorder is made in a model that has components of the names `taken`. -/
def construct (self : String) (nameOf : Val → String) (cls : List Level) (taken : List Val) (pos : List Val) (kw : Kw) : Except Err Attrs :=
  match call self nameOf cls pos kw with
  | none => .error .type
  | some a => if a.name ≠ .none ∧ a.name ∈ taken then .error .value else .ok a

/-! ## The classes -/

/-- `Recorder` itself. -/
def recorder : List Level := []

/-- `NodeRecorder.__init__`, `/repo/pywr/recorders/_recorders.pyx:459-462`. -/
def nodeRecorder : List Level :=
  ⟨⟨[req "model", req "node", opt "name"], false, [], true, ["model"], false, false, true⟩, [], some (some "node")⟩ :: recorder

/-- `NumpyArrayNodeRecorder.__init__` with the keywords it takes out of `kwargs`, `/repo/pywr/recorders/_recorders.pyx:599-603`. -/
def numpyArrayNodeRecorder : List Level :=
  ⟨⟨[req "model", req "node"], false, [opt "temporal_agg_func", opt "factor"], true, ["model", "node"], false, false, true⟩, [], none⟩ :: nodeRecorder

/-- `HydropowerRecorder.__init__`, `/repo/pywr/recorders/_hydropower.pyx:106-108`. -/
def hydropowerRecorder : List Level :=
  ⟨⟨[req "model", req "node", opt "water_elevation_parameter", opt "turbine_elevation", opt "efficiency", opt "density", opt "flow_unit_conversion", opt "energy_unit_conversion"], false, [], true, ["model", "node"], false, false, true⟩, [], none⟩ :: numpyArrayNodeRecorder

/-- `BaseConstantNodeRecorder` has no `__init__` of its own (`/repo/pywr/recorders/_recorders.pyx:1722`). -/
def baseConstantNodeRecorder : List Level := nodeRecorder

/-- `TotalHydroEnergyRecorder.__init__`, `/repo/pywr/recorders/_hydropower.pyx:211-213`. -/
def totalHydroEnergyRecorder : List Level :=
  ⟨⟨[req "model", req "node", opt "water_elevation_parameter", opt "turbine_elevation", opt "efficiency", opt "density", opt "flow_unit_conversion", opt "energy_unit_conversion"], false, [], true, ["model", "node"], false, false, true⟩, [], none⟩ :: baseConstantNodeRecorder

/-- `AggregatedRecorder.__init__` with the keywords it takes out of `kwargs`, `/repo/pywr/recorders/_recorders.pyx:382-395`. -/
def aggregatedRecorder : List Level :=
  ⟨⟨[req "model", req "recorders"], false, [opt "recorder_agg_func"], true, ["model"], false, false, true⟩, [], none⟩ :: recorder

/-- `StorageRecorder.__init__`, `/repo/pywr/recorders/_recorders.pyx:480-483`. -/
def storageRecorder : List Level :=
  ⟨⟨[req "model", req "node", opt "name"], false, [], true, ["model"], false, false, true⟩, [], some (some "node")⟩ :: recorder

/-- `ParameterRecorder.__init__`, `/repo/pywr/recorders/_recorders.pyx:511-514`. -/
def parameterRecorder : List Level :=
  ⟨⟨[req "model", req "param", opt "name"], false, [], true, ["model"], false, false, true⟩, [], some (some "param")⟩ :: recorder

/-- `IndexParameterRecorder.__init__`, `/repo/pywr/recorders/_recorders.pyx:548-551`. -/
def indexParameterRecorder : List Level :=
  ⟨⟨[req "model", req "param", opt "name"], false, [], true, ["model"], false, false, true⟩, [], some (some "param")⟩ :: recorder

/-- `NumpyArrayNodeDeficitRecorder` has no `__init__` of its own (`/repo/pywr/recorders/_recorders.pyx:650`). -/
def numpyArrayNodeDeficitRecorder : List Level := numpyArrayNodeRecorder

/-- `NumpyArrayNodeSuppliedRatioRecorder` has no `__init__` of its own (`/repo/pywr/recorders/_recorders.pyx:692`). -/
def numpyArrayNodeSuppliedRatioRecorder : List Level := numpyArrayNodeRecorder

/-- `NumpyArrayNodeCurtailmentRatioRecorder` has no `__init__` of its own (`/repo/pywr/recorders/_recorders.pyx:738`). -/
def numpyArrayNodeCurtailmentRatioRecorder : List Level := numpyArrayNodeRecorder

/-- `NumpyArrayNodeCostRecorder` has no `__init__` of its own (`/repo/pywr/recorders/_recorders.pyx:783`). -/
def numpyArrayNodeCostRecorder : List Level := numpyArrayNodeRecorder

/-- `FlowDurationCurveRecorder.__init__` with the keywords it takes out of `kwargs`, `/repo/pywr/recorders/_recorders.pyx:832-845`. -/
def flowDurationCurveRecorder : List Level :=
  ⟨⟨[req "model", req "node", req "percentiles"], false, [opt "fdc_agg_func"], true, ["model", "node"], false, false, true⟩, [], none⟩ :: numpyArrayNodeRecorder

/-- `SeasonalFlowDurationCurveRecorder.__init__`, `/repo/pywr/recorders/_recorders.pyx:897-898`. -/
def seasonalFlowDurationCurveRecorder : List Level :=
  ⟨⟨[req "model", req "node", req "percentiles", req "months"], false, [], true, ["model", "node", "percentiles"], false, false, true⟩, [], none⟩ :: flowDurationCurveRecorder

/-- `FlowDurationCurveDeviationRecorder.__init__`, `/repo/pywr/recorders/_recorders.pyx:948-949`. -/
def flowDurationCurveDeviationRecorder : List Level :=
  ⟨⟨[req "model", req "node", req "percentiles", opt "lower_target_fdc", opt "upper_target_fdc", opt "scenario"], false, [], true, ["model", "node", "percentiles"], false, false, true⟩, [], none⟩ :: flowDurationCurveRecorder

/-- `NumpyArrayAbstractStorageRecorder.__init__` with the keywords it takes out of `kwargs`, `/repo/pywr/recorders/_recorders.pyx:1107-1110`. -/
def numpyArrayAbstractStorageRecorder : List Level :=
  ⟨⟨[req "model", req "node"], false, [opt "temporal_agg_func"], true, ["model", "node"], false, false, true⟩, [], none⟩ :: storageRecorder

/-- `NumpyArrayStorageRecorder.__init__` with the keywords it takes out of `kwargs`, `/repo/pywr/recorders/_recorders.pyx:1170-1173`. -/
def numpyArrayStorageRecorder : List Level :=
  ⟨⟨[], true, [opt "proportional"], true, [], true, false, true⟩, [], none⟩ :: numpyArrayAbstractStorageRecorder

/-- `NumpyArrayNormalisedStorageRecorder.__init__` with the keywords it takes out of `kwargs`, `/repo/pywr/recorders/_recorders.pyx:1207-1210`. -/
def numpyArrayNormalisedStorageRecorder : List Level :=
  ⟨⟨[], true, [req "parameter"], true, [], true, false, true⟩, [], none⟩ :: numpyArrayAbstractStorageRecorder

/-- `StorageDurationCurveRecorder.__init__` with the keywords it takes out of `kwargs`, `/repo/pywr/recorders/_recorders.pyx:1263-1275`. -/
def storageDurationCurveRecorder : List Level :=
  ⟨⟨[req "model", req "node", req "percentiles"], false, [opt "sdc_agg_func"], true, ["model", "node"], false, false, true⟩, [], none⟩ :: numpyArrayStorageRecorder

/-- `NumpyArrayLevelRecorder` has no `__init__` of its own (`/repo/pywr/recorders/_recorders.pyx:1305`). -/
def numpyArrayLevelRecorder : List Level := numpyArrayAbstractStorageRecorder

/-- `NumpyArrayAreaRecorder` has no `__init__` of its own (`/repo/pywr/recorders/_recorders.pyx:1333`). -/
def numpyArrayAreaRecorder : List Level := numpyArrayAbstractStorageRecorder

/-- `NumpyArrayParameterRecorder.__init__` with the keywords it takes out of `kwargs`, `/repo/pywr/recorders/_recorders.pyx:1378-1381`. -/
def numpyArrayParameterRecorder : List Level :=
  ⟨⟨[req "model", req "param"], false, [opt "temporal_agg_func"], true, ["model", "param"], false, false, true⟩, [], none⟩ :: parameterRecorder

/-- `NumpyArrayDailyProfileParameterRecorder.__init__` with the keywords it takes out of `kwargs`, `/repo/pywr/recorders/_recorders.pyx:1449-1452`. -/
def numpyArrayDailyProfileParameterRecorder : List Level :=
  ⟨⟨[req "model", req "param"], false, [opt "temporal_agg_func"], true, ["model", "param"], false, false, true⟩, [], none⟩ :: parameterRecorder

/-- `NumpyArrayIndexParameterRecorder.__init__` with the keywords it takes out of `kwargs`, `/repo/pywr/recorders/_recorders.pyx:1512-1515`. -/
def numpyArrayIndexParameterRecorder : List Level :=
  ⟨⟨[req "model", req "param"], false, [opt "temporal_agg_func"], true, ["model", "param"], false, false, true⟩, [], none⟩ :: indexParameterRecorder

/-- `RollingWindowParameterRecorder.__init__` with the keywords it takes out of `kwargs`, `/repo/pywr/recorders/_recorders.pyx:1558-1569`. -/
def rollingWindowParameterRecorder : List Level :=
  ⟨⟨[req "model", req "param", req "window"], true, [opt "temporal_agg_func"], true, ["model", "param"], true, false, true⟩, [], none⟩ :: parameterRecorder

/-- `RollingMeanFlowNodeRecorder.__init__`, `/repo/pywr/recorders/_recorders.pyx:1644-1649`. -/
def rollingMeanFlowNodeRecorder : List Level :=
  ⟨⟨[req "model", req "node", opt "timesteps", opt "days", opt "name"], false, [], true, ["model", "node"], false, false, true⟩, [], some none⟩ :: nodeRecorder

/-- `TotalDeficitNodeRecorder` has no `__init__` of its own (`/repo/pywr/recorders/_recorders.pyx:1740`). -/
def totalDeficitNodeRecorder : List Level := baseConstantNodeRecorder

/-- `TotalFlowNodeRecorder.__init__` with the keywords it takes out of `kwargs`, `/repo/pywr/recorders/_recorders.pyx:1764-1766`. -/
def totalFlowNodeRecorder : List Level :=
  ⟨⟨[], true, [opt "factor"], true, [], true, false, true⟩, [], none⟩ :: baseConstantNodeRecorder

/-- `MeanFlowNodeRecorder.__init__` with the keywords it takes out of `kwargs`, `/repo/pywr/recorders/_recorders.pyx:1785-1787`. -/
def meanFlowNodeRecorder : List Level :=
  ⟨⟨[], true, [opt "factor"], true, [], true, false, true⟩, [], none⟩ :: baseConstantNodeRecorder

/-- `DeficitFrequencyNodeRecorder` has no `__init__` of its own (`/repo/pywr/recorders/_recorders.pyx:1805`). -/
def deficitFrequencyNodeRecorder : List Level := baseConstantNodeRecorder

/-- `BaseConstantStorageRecorder` has no `__init__` of its own (`/repo/pywr/recorders/_recorders.pyx:1825`). -/
def baseConstantStorageRecorder : List Level := storageRecorder

/-- `MinimumVolumeStorageRecorder` has no `__init__` of its own (`/repo/pywr/recorders/_recorders.pyx:1843`). -/
def minimumVolumeStorageRecorder : List Level := baseConstantStorageRecorder

/-- `MinimumThresholdVolumeStorageRecorder.__init__`, `/repo/pywr/recorders/_recorders.pyx:1861-1863`. -/
def minimumThresholdVolumeStorageRecorder : List Level :=
  ⟨⟨[req "model", req "node", req "threshold"], true, [], true, ["model", "node"], true, false, true⟩, [], none⟩ :: baseConstantStorageRecorder

/-- `TimestepCountIndexParameterRecorder.__init__`, `/repo/pywr/recorders/_recorders.pyx:1891-1892`. -/
def timestepCountIndexParameterRecorder : List Level :=
  ⟨⟨[req "model", req "parameter", req "threshold"], true, [], true, ["model", "parameter"], true, false, true⟩, [], none⟩ :: indexParameterRecorder

/-- `AnnualCountIndexThresholdRecorder.__init__` with the keywords it takes out of `kwargs`, `/repo/pywr/recorders/_recorders.pyx:1948-1956`. -/
def annualCountIndexThresholdRecorder : List Level :=
  ⟨⟨[req "model", req "parameters", req "name", req "threshold"], true, [opt "exclude_months", opt "include_from_month", opt "include_from_day", opt "include_to_month", opt "include_to_day", opt "temporal_agg_func"], true, ["model"], true, false, true⟩, [], some none⟩ :: recorder

/-- `AnnualTotalFlowRecorder.__init__` with the keywords it takes out of `kwargs`, `/repo/pywr/recorders/_recorders.pyx:2076-2079`. -/
def annualTotalFlowRecorder : List Level :=
  ⟨⟨[req "model", req "name", req "nodes"], true, [opt "temporal_agg_func", opt "factors"], true, ["model"], true, false, true⟩, [], some none⟩ :: recorder

/-- `AnnualCountIndexParameterRecorder.__init__`, `/repo/pywr/recorders/_recorders.pyx:2155-2156`. -/
def annualCountIndexParameterRecorder : List Level :=
  ⟨⟨[req "model", req "param", req "threshold"], true, [], true, ["model", "param"], true, false, true⟩, [], none⟩ :: indexParameterRecorder

/-- `BaseConstantParameterRecorder` has no `__init__` of its own (`/repo/pywr/recorders/_recorders.pyx:2258`). -/
def baseConstantParameterRecorder : List Level := parameterRecorder

/-- `TotalParameterRecorder.__init__` with the keywords it takes out of `kwargs`, `/repo/pywr/recorders/_recorders.pyx:2295-2298`. -/
def totalParameterRecorder : List Level :=
  ⟨⟨[], true, [opt "factor", opt "integrate"], true, [], true, false, true⟩, [], none⟩ :: baseConstantParameterRecorder

/-- `MeanParameterRecorder.__init__` with the keywords it takes out of `kwargs`, `/repo/pywr/recorders/_recorders.pyx:2334-2336`. -/
def meanParameterRecorder : List Level :=
  ⟨⟨[], true, [opt "factor"], true, [], true, false, true⟩, [], none⟩ :: baseConstantParameterRecorder

/-- `TablesRecorder2.__init__` with the keywords it takes out of `kwargs`, `/repo/pywr/recorders/_tables_recorders.pyx:37-110`. -/
def tablesRecorder2 : List Level :=
  ⟨⟨[req "model", req "h5file", opt "nodes", opt "parameters", opt "where", opt "time", opt "routes_flows", opt "routes", opt "scenarios"], false, [opt "filter_kwds", opt "mode", opt "metadata", opt "create_directories", opt "buffer_size", opt "buffer_timesteps", opt "title"], true, ["model"], false, false, true⟩, [], none⟩ :: recorder

/-- `StorageThresholdRecorder.__init__`, `/repo/pywr/recorders/_thresholds.pyx:52-53`. -/
def storageThresholdRecorder : List Level :=
  ⟨⟨[req "model", req "node", req "threshold"], true, [opt "predicate"], true, ["model", "node"], true, false, true⟩, [], none⟩ :: storageRecorder

/-- `NodeThresholdRecorder.__init__`, `/repo/pywr/recorders/_thresholds.pyx:97-98`. -/
def nodeThresholdRecorder : List Level :=
  ⟨⟨[req "model", req "node", req "threshold"], true, [opt "predicate"], true, ["model", "node"], true, false, true⟩, [], none⟩ :: nodeRecorder

/-- `AbstractComparisonNodeRecorder.__init__`, `/repo/pywr/recorders/calibration.py:23-24`. -/
def abstractComparisonNodeRecorder : List Level :=
  ⟨⟨[req "model", req "node", req "observed"], false, [], true, ["model", "node"], false, false, true⟩, [], none⟩ :: numpyArrayNodeRecorder

/-- `RootMeanSquaredErrorNodeRecorder` has no `__init__` of its own (`/repo/pywr/recorders/calibration.py:38`). -/
def rootMeanSquaredErrorNodeRecorder : List Level := abstractComparisonNodeRecorder

/-- `MeanAbsoluteErrorNodeRecorder` has no `__init__` of its own (`/repo/pywr/recorders/calibration.py:47`). -/
def meanAbsoluteErrorNodeRecorder : List Level := abstractComparisonNodeRecorder

/-- `MeanSquareErrorNodeRecorder` has no `__init__` of its own (`/repo/pywr/recorders/calibration.py:56`). -/
def meanSquareErrorNodeRecorder : List Level := abstractComparisonNodeRecorder

/-- `PercentBiasNodeRecorder` has no `__init__` of its own (`/repo/pywr/recorders/calibration.py:65`). -/
def percentBiasNodeRecorder : List Level := abstractComparisonNodeRecorder

/-- `RMSEStandardDeviationRatioNodeRecorder` has no `__init__` of its own (`/repo/pywr/recorders/calibration.py:74`). -/
def rmseStandardDeviationRatioNodeRecorder : List Level := abstractComparisonNodeRecorder

/-- `NashSutcliffeEfficiencyNodeRecorder` has no `__init__` of its own (`/repo/pywr/recorders/calibration.py:83`). -/
def nashSutcliffeEfficiencyNodeRecorder : List Level := abstractComparisonNodeRecorder

/-- `EventRecorder.__init__` with the keywords it takes out of `kwargs`, `/repo/pywr/recorders/events.py:58-62`. -/
def eventRecorder : List Level :=
  ⟨⟨[req "model", req "threshold", opt "minimum_event_length", opt "tracked_parameter"], false, [opt "event_agg_func"], true, ["model"], false, false, true⟩, [], none⟩ :: recorder

/-- `EventDurationRecorder.__init__` with the keywords it takes out of `kwargs`, `/repo/pywr/recorders/events.py:231-236`. -/
def eventDurationRecorder : List Level :=
  ⟨⟨[req "model", req "event_recorder"], false, [opt "recorder_agg_func"], true, ["model"], false, false, true⟩, [], none⟩ :: recorder

/-- `EventStatisticRecorder.__init__` with the keywords it takes out of `kwargs`, `/repo/pywr/recorders/events.py:308-315`. -/
def eventStatisticRecorder : List Level :=
  ⟨⟨[req "model", req "event_recorder"], false, [opt "event_agg_func", opt "recorder_agg_func"], true, ["model"], false, false, true⟩, [], none⟩ :: recorder

/-- `GaussianKDEStorageRecorder.__init__` with the keywords it takes out of `kwargs`, `/repo/pywr/recorders/kde.py:36-43`. -/
def gaussianKDEStorageRecorder : List Level :=
  ⟨⟨[], true, [opt "resample_freq", opt "resample_func", req "target_volume_pc", opt "use_reflection", opt "num_pdf"], true, [], true, false, true⟩, [("proportional", .flag true)], none⟩ :: numpyArrayStorageRecorder

/-- `NormalisedGaussianKDEStorageRecorder.__init__` with the keywords it takes out of `kwargs`, `/repo/pywr/recorders/kde.py:135-141`. -/
def normalisedGaussianKDEStorageRecorder : List Level :=
  ⟨⟨[], true, [opt "resample_freq", opt "resample_func", opt "use_reflection", opt "num_pdf"], true, [], true, false, true⟩, [], none⟩ :: numpyArrayNormalisedStorageRecorder

/-- `ProgressRecorder.__init__` with the keywords it takes out of `kwargs`, `/repo/pywr/recorders/progress.py:18-20`. -/
def progressRecorder : List Level :=
  ⟨⟨[], true, [opt "print_func"], true, [], true, false, true⟩, [], none⟩ :: recorder

/-- `JupyterProgressRecorder.__init__`, `/repo/pywr/recorders/progress.py:69-70`. -/
def jupyterProgressRecorder : List Level :=
  ⟨⟨[], true, [], true, [], true, false, true⟩, [], none⟩ :: progressRecorder

/-- `AssertionRecorder.__init__`, `/repo/pywr/recorders/recorders.py:40-62`. -/
def assertionRecorder : List Level :=
  ⟨⟨[req "model", req "parameter", opt "expected_data", opt "expected_func", opt "get_index"], false, [], true, ["model"], false, false, true⟩, [], none⟩ :: recorder

/-- `CSVRecorder.__init__`, `/repo/pywr/recorders/recorders.py:134-144`. -/
def csvRecorder : List Level :=
  ⟨⟨[req "model", req "csvfile", opt "scenario_index", opt "nodes", opt "complib", opt "complevel"], false, [], true, ["model"], false, false, true⟩, [], none⟩ :: recorder

/-- `TablesRecorder.__init__` with the keywords it takes out of `kwargs`, `/repo/pywr/recorders/recorders.py:250-319`. -/
def tablesRecorder : List Level :=
  ⟨⟨[req "model", req "h5file", opt "nodes", opt "parameters", opt "where", opt "time", opt "routes_flows", opt "routes", opt "scenarios"], false, [opt "filter_kwds", opt "mode", opt "metadata", opt "create_directories", opt "use_legacy_attribute_naming", opt "title"], true, ["model"], false, false, true⟩, [], none⟩ :: recorder

/-- The classes of the recorders that are not about one node, storage or parameter. -/
def general : List (String × List Level) := [
  ("AggregatedRecorder", aggregatedRecorder),
  ("AnnualCountIndexThresholdRecorder", annualCountIndexThresholdRecorder),
  ("AnnualTotalFlowRecorder", annualTotalFlowRecorder),
  ("TablesRecorder2", tablesRecorder2),
  ("EventRecorder", eventRecorder),
  ("EventDurationRecorder", eventDurationRecorder),
  ("EventStatisticRecorder", eventStatisticRecorder),
  ("ProgressRecorder", progressRecorder),
  ("JupyterProgressRecorder", jupyterProgressRecorder),
  ("AssertionRecorder", assertionRecorder),
  ("CSVRecorder", csvRecorder),
  ("TablesRecorder", tablesRecorder)]

/-- The classes of the recorders of one node, storage or parameter. -/
def about : List (String × List Level) := [
  ("HydropowerRecorder", hydropowerRecorder),
  ("TotalHydroEnergyRecorder", totalHydroEnergyRecorder),
  ("NodeRecorder", nodeRecorder),
  ("StorageRecorder", storageRecorder),
  ("ParameterRecorder", parameterRecorder),
  ("IndexParameterRecorder", indexParameterRecorder),
  ("NumpyArrayNodeRecorder", numpyArrayNodeRecorder),
  ("NumpyArrayNodeDeficitRecorder", numpyArrayNodeDeficitRecorder),
  ("NumpyArrayNodeSuppliedRatioRecorder", numpyArrayNodeSuppliedRatioRecorder),
  ("NumpyArrayNodeCurtailmentRatioRecorder", numpyArrayNodeCurtailmentRatioRecorder),
  ("NumpyArrayNodeCostRecorder", numpyArrayNodeCostRecorder),
  ("FlowDurationCurveRecorder", flowDurationCurveRecorder),
  ("SeasonalFlowDurationCurveRecorder", seasonalFlowDurationCurveRecorder),
  ("FlowDurationCurveDeviationRecorder", flowDurationCurveDeviationRecorder),
  ("NumpyArrayAbstractStorageRecorder", numpyArrayAbstractStorageRecorder),
  ("NumpyArrayStorageRecorder", numpyArrayStorageRecorder),
  ("NumpyArrayNormalisedStorageRecorder", numpyArrayNormalisedStorageRecorder),
  ("StorageDurationCurveRecorder", storageDurationCurveRecorder),
  ("NumpyArrayLevelRecorder", numpyArrayLevelRecorder),
  ("NumpyArrayAreaRecorder", numpyArrayAreaRecorder),
  ("NumpyArrayParameterRecorder", numpyArrayParameterRecorder),
  ("NumpyArrayDailyProfileParameterRecorder", numpyArrayDailyProfileParameterRecorder),
  ("NumpyArrayIndexParameterRecorder", numpyArrayIndexParameterRecorder),
  ("RollingWindowParameterRecorder", rollingWindowParameterRecorder),
  ("RollingMeanFlowNodeRecorder", rollingMeanFlowNodeRecorder),
  ("BaseConstantNodeRecorder", baseConstantNodeRecorder),
  ("TotalDeficitNodeRecorder", totalDeficitNodeRecorder),
  ("TotalFlowNodeRecorder", totalFlowNodeRecorder),
  ("MeanFlowNodeRecorder", meanFlowNodeRecorder),
  ("DeficitFrequencyNodeRecorder", deficitFrequencyNodeRecorder),
  ("BaseConstantStorageRecorder", baseConstantStorageRecorder),
  ("MinimumVolumeStorageRecorder", minimumVolumeStorageRecorder),
  ("MinimumThresholdVolumeStorageRecorder", minimumThresholdVolumeStorageRecorder),
  ("TimestepCountIndexParameterRecorder", timestepCountIndexParameterRecorder),
  ("AnnualCountIndexParameterRecorder", annualCountIndexParameterRecorder),
  ("BaseConstantParameterRecorder", baseConstantParameterRecorder),
  ("TotalParameterRecorder", totalParameterRecorder),
  ("MeanParameterRecorder", meanParameterRecorder),
  ("StorageThresholdRecorder", storageThresholdRecorder),
  ("NodeThresholdRecorder", nodeThresholdRecorder),
  ("AbstractComparisonNodeRecorder", abstractComparisonNodeRecorder),
  ("RootMeanSquaredErrorNodeRecorder", rootMeanSquaredErrorNodeRecorder),
  ("MeanAbsoluteErrorNodeRecorder", meanAbsoluteErrorNodeRecorder),
  ("MeanSquareErrorNodeRecorder", meanSquareErrorNodeRecorder),
  ("PercentBiasNodeRecorder", percentBiasNodeRecorder),
  ("RMSEStandardDeviationRatioNodeRecorder", rmseStandardDeviationRatioNodeRecorder),
  ("NashSutcliffeEfficiencyNodeRecorder", nashSutcliffeEfficiencyNodeRecorder),
  ("GaussianKDEStorageRecorder", gaussianKDEStorageRecorder),
  ("NormalisedGaussianKDEStorageRecorder", normalisedGaussianKDEStorageRecorder)]

end Verif.RecorderKeywords

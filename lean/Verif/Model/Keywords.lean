import Mathlib.Data.List.Basic
/-!
# What is said about a parameter when it is made

Models how the constructors of all classes of parameters (`/repo/pywr/parameters/*.pyx`, `*.py`) hand their arguments on to `Parameter.__init__` (`/repo/pywr/parameters/_parameters.pyx:43-48`) and
`Component.__init__` (`/repo/pywr/_component.pyx:84-102`): names, comments and tags. Arguments are bound to names as Python does it. A class is the list of the constructors from its own to the last before
`Parameter`. Keywords that a constructor takes out of `kwargs` with `pop` count as keyword-only arguments. What the constructors do with their own arguments, and the exceptions they raise for them, is left out;
default values other than those of the base classes are not distinguished.
-/

namespace Verif.Keywords

/-- A value, as far as it matters here. -/
inductive Val
  | none
  | str (s : String)
  | flag (b : Bool)
  | num (n : Nat)
  | other (i : Nat)
deriving DecidableEq, Repr

/-- `kwargs`. -/
abbrev Kw := List (String × Val)

/-- A constructor: its arguments without `self` and their default values (`none`: has to be given), whether it takes `*args`, the arguments after `*args`, whether it takes `**kwargs`; and its call of the constructor of the
base class: the arguments it passes by position, whether `*args`, `*kwargs` (the keys by position) and `**kwargs` follow. -/
structure Ctor where
  formals : List (String × Option Val)
  varArgs : Bool
  kwOnly : List (String × Option Val)
  varKw : Bool
  passes : List String
  passArgs : Bool
  passKeys : Bool
  passKw : Bool

/-- An argument that has to be given. -/
def req (s : String) : String × Option Val := (s, Option.none)

/-- An argument with a default value. -/
def opt (s : String) : String × Option Val := (s, some .none)

/-- The names that can be used as keywords, without those in `**kwargs`. -/
def Ctor.known (c : Ctor) : List String := (c.formals ++ c.kwOnly).map (·.1)

/-- The local variables of a constructor. -/
structure Env where
  vars : Kw
  args : List Val
  kwargs : Kw

/-- The value of an argument. -/
def Env.get (e : Env) (s : String) : Val := (e.vars.lookup s).getD .none

/-- Binding of arguments by Python; `none`: `TypeError` (too many positional arguments, two values for one argument, an unknown keyword, an argument missing). -/
def bind (c : Ctor) (pos : List Val) (kw : Kw) : Option Env :=
  let filled := (c.formals.map (·.1)).zip pos
  let mine := kw.filter fun p => c.known.contains p.1
  let rest := kw.filter fun p => !c.known.contains p.1
  if !c.varArgs && decide (c.formals.length < pos.length) then none
  else if kw.any fun p => (filled.map (·.1)).contains p.1 then none
  else if !c.varKw && !rest.isEmpty then none
  else if (c.formals ++ c.kwOnly).any fun f => f.2.isNone && !((filled ++ mine).map (·.1)).contains f.1 then none
  else some ⟨filled ++ mine ++ (c.formals ++ c.kwOnly).filterMap (fun f => f.2.map fun v => (f.1, v)), pos.drop c.formals.length, rest⟩

/-- The arguments of the call of the base class. -/
def superCall (c : Ctor) (e : Env) : List Val × Kw :=
  (c.passes.map e.get ++ (if c.passArgs then e.args else []) ++ (if c.passKeys then e.kwargs.map fun p => Val.str p.1 else []), if c.passKw then e.kwargs else [])

/-- `Component.__init__`, `_component.pyx:84`. -/
def component : Ctor := ⟨[req "model", opt "name", opt "comment", opt "tags"], false, [], false, [], false, false, false⟩

/-- `Parameter.__init__`, `_parameters.pyx:43-44`. -/
def parameterInit : Ctor := ⟨[], true, [("is_variable", some (.flag false))], true, [], true, false, true⟩

/-- What a parameter says about itself. -/
structure Attrs where
  name : Val
  comment : Val
  tags : Val
  isVariable : Val
deriving DecidableEq, Repr

/-- `Parameter.__init__` and `Component.__init__` (`_parameters.pyx:43-45`, `_component.pyx:84-88`). -/
def base (pos : List Val) (kw : Kw) : Option Attrs :=
  match bind parameterInit pos kw with
  | none => none
  | some e => match bind component (superCall parameterInit e).1 (superCall parameterInit e).2 with
    | none => none
    | some e' => some ⟨e'.get "name", e'.get "comment", e'.get "tags", e.get "is_variable"⟩

/-- A constructor calls that of its base class, and so on. -/
def call : List Ctor → List Val → Kw → Option Attrs
  | [], pos, kw => base pos kw
  | c :: cs, pos, kw => match bind c pos kw with
    | none => none
    | some e => call cs (superCall c e).1 (superCall c e).2

/-- Exceptions: `TypeError`, and `ValueError` of the setter of `name` (`_component.pyx:97-102`). -/
inductive Err
  | type
  | value
deriving DecidableEq, Repr

/-- A parameter is made in a model that has components of the names `taken`. -/
def construct (cls : List Ctor) (taken : List Val) (pos : List Val) (kw : Kw) : Except Err Attrs :=
  match call cls pos kw with
  | none => .error .type
  | some a => if a.name ≠ .none ∧ a.name ∈ taken then .error .value else .ok a

/-! ## The classes -/

/-- `Parameter` itself. -/
def parameter : List Ctor := []

/-- `BinaryStepParameter.__init__`, `/repo/pywr/parameters/_activation_functions.pyx:19-20`. -/
def binaryStepParameter : List Ctor :=
  ⟨[req "model", opt "value", opt "lower_bounds", opt "upper_bounds", opt "output"], false, [], true, ["model"], false, false, true⟩ :: parameter

/-- `RectifierParameter.__init__`, `/repo/pywr/parameters/_activation_functions.pyx:71-72`. -/
def rectifierParameter : List Ctor :=
  ⟨[req "model", opt "value", opt "lower_bounds", opt "upper_bounds", opt "min_output", opt "max_output"], false, [], true, ["model"], false, false, true⟩ :: parameter

/-- `LogisticParameter.__init__`, `/repo/pywr/parameters/_activation_functions.pyx:123-125`. -/
def logisticParameter : List Ctor :=
  ⟨[req "model", opt "value", opt "lower_bounds", opt "upper_bounds", opt "max_output", opt "growth_rate"], false, [], true, ["model"], false, false, true⟩ :: parameter

/-- `BaseControlCurveParameter.__init__`, `/repo/pywr/parameters/_control_curves.pyx:31-41`. -/
def baseControlCurveParameter : List Ctor :=
  ⟨[req "model", req "storage_node", req "control_curves"], false, [], true, ["model"], false, false, true⟩ :: parameter

/-- `ControlCurveInterpolatedParameter.__init__`, `/repo/pywr/parameters/_control_curves.pyx:141-142`. -/
def controlCurveInterpolatedParameter : List Ctor :=
  ⟨[req "model", req "storage_node", req "control_curves", opt "values", opt "parameters"], false, [], true, ["model", "storage_node", "control_curves"], false, false, true⟩ :: baseControlCurveParameter

/-- `ControlCurvePiecewiseInterpolatedParameter.__init__`, `/repo/pywr/parameters/_control_curves.pyx:257-258`. -/
def controlCurvePiecewiseInterpolatedParameter : List Ctor :=
  ⟨[req "model", req "storage_node", req "control_curves", req "values", opt "minimum", opt "maximum"], false, [], true, ["model", "storage_node", "control_curves"], false, false, true⟩ :: baseControlCurveParameter

/-- `IndexParameter` has no `__init__` of its own (`/repo/pywr/parameters/_parameters.pyx:1186`). -/
def indexParameter : List Ctor := parameter

/-- `ControlCurveIndexParameter.__init__`, `/repo/pywr/parameters/_control_curves.pyx:317-318`. -/
def controlCurveIndexParameter : List Ctor :=
  ⟨[req "model", req "storage_node", req "control_curves"], false, [], true, ["model"], false, false, true⟩ :: indexParameter

/-- `ControlCurveParameter.__init__`, `/repo/pywr/parameters/_control_curves.pyx:419-421`. -/
def controlCurveParameter : List Ctor :=
  ⟨[req "model", req "storage_node", req "control_curves", opt "values", opt "parameters", opt "variable_indices", opt "upper_bounds", opt "lower_bounds"], false, [], true, ["model", "storage_node", "control_curves"], false, false, true⟩ :: baseControlCurveParameter

/-- `WeightedAverageProfileParameter.__init__`, `/repo/pywr/parameters/_control_curves.pyx:572-573`. -/
def weightedAverageProfileParameter : List Ctor :=
  ⟨[req "model", req "storages", req "profiles"], false, [], true, ["model"], false, false, true⟩ :: parameter

/-- `HydropowerTargetParameter.__init__`, `/repo/pywr/parameters/_hydropower.pyx:118-121`. -/
def hydropowerTargetParameter : List Ctor :=
  ⟨[req "model", req "target", opt "water_elevation_parameter", opt "max_flow", opt "min_flow", opt "turbine_elevation", opt "efficiency", opt "density", opt "min_head", opt "flow_unit_conversion", opt "energy_unit_conversion"], false, [], true, ["model"], false, false, true⟩ :: parameter

/-- `ConstantParameter.__init__`, `/repo/pywr/parameters/_parameters.pyx:147-148`. -/
def constantParameter : List Ctor :=
  ⟨[req "model", req "value", opt "lower_bounds", opt "upper_bounds", opt "scale", opt "offset"], false, [], true, ["model"], false, false, true⟩ :: parameter

/-- `DataFrameParameter.__init__`, `/repo/pywr/parameters/_parameters.pyx:206-207`. -/
def dataFrameParameter : List Ctor :=
  ⟨[req "model", req "dataframe", opt "scenario", opt "timestep_offset"], false, [], true, ["model"], false, true, false⟩ :: parameter

/-- `ArrayIndexedParameter.__init__`, `/repo/pywr/parameters/_parameters.pyx:287-288`. -/
def arrayIndexedParameter : List Ctor :=
  ⟨[req "model", req "values"], true, [], true, ["model"], true, false, true⟩ :: parameter

/-- `ArrayIndexedScenarioParameter.__init__`, `/repo/pywr/parameters/_parameters.pyx:307-311`. -/
def arrayIndexedScenarioParameter : List Ctor :=
  ⟨[req "model", req "scenario", req "values"], true, [], true, ["model"], true, false, true⟩ :: parameter

/-- `TablesArrayParameter.__init__`, `/repo/pywr/parameters/_parameters.pyx:339-364`. -/
def tablesArrayParameter : List Ctor :=
  ⟨[req "model", req "h5file", req "node", opt "where", opt "scenario", opt "timestep_offset"], false, [], true, ["model"], false, false, true⟩ :: indexParameter

/-- `ConstantScenarioParameter.__init__`, `/repo/pywr/parameters/_parameters.pyx:520-524`. -/
def constantScenarioParameter : List Ctor :=
  ⟨[req "model", req "scenario", req "values"], true, [], true, ["model"], true, false, true⟩ :: parameter

/-- `ArrayIndexedScenarioMonthlyFactorsParameter.__init__`, `/repo/pywr/parameters/_parameters.pyx:553-559`. -/
def arrayIndexedScenarioMonthlyFactorsParameter : List Ctor :=
  ⟨[req "model", req "scenario", req "values", req "factors"], true, [], true, ["model"], true, false, true⟩ :: parameter

/-- `DailyProfileParameter.__init__`, `/repo/pywr/parameters/_parameters.pyx:627-628`. -/
def dailyProfileParameter : List Ctor :=
  ⟨[req "model", req "values"], true, [], true, ["model"], true, false, true⟩ :: parameter

/-- `WeeklyProfileParameter.__init__`, `/repo/pywr/parameters/_parameters.pyx:648-649`. -/
def weeklyProfileParameter : List Ctor :=
  ⟨[req "model", req "values"], true, [], true, ["model"], true, false, true⟩ :: parameter

/-- `MonthlyProfileParameter.__init__`, `/repo/pywr/parameters/_parameters.pyx:697-698`. -/
def monthlyProfileParameter : List Ctor :=
  ⟨[req "model", req "values", opt "lower_bounds", opt "upper_bounds", opt "interp_day"], false, [], true, ["model"], false, false, true⟩ :: parameter

/-- `ScenarioMonthlyProfileParameter.__init__`, `/repo/pywr/parameters/_parameters.pyx:810-811`. -/
def scenarioMonthlyProfileParameter : List Ctor :=
  ⟨[req "model", req "scenario", req "values"], false, [], true, ["model"], false, false, true⟩ :: parameter

/-- `ScenarioWeeklyProfileParameter.__init__`, `/repo/pywr/parameters/_parameters.pyx:849-850`. -/
def scenarioWeeklyProfileParameter : List Ctor :=
  ⟨[req "model", req "scenario", req "values"], true, [], true, ["model"], true, false, true⟩ :: parameter

/-- `ScenarioDailyProfileParameter.__init__`, `/repo/pywr/parameters/_parameters.pyx:887-888`. -/
def scenarioDailyProfileParameter : List Ctor :=
  ⟨[req "model", req "scenario", req "values"], true, [], true, ["model"], true, false, true⟩ :: parameter

/-- `UniformDrawdownProfileParameter.__init__`, `/repo/pywr/parameters/_parameters.pyx:932-933`. -/
def uniformDrawdownProfileParameter : List Ctor :=
  ⟨[req "model", opt "reset_day", opt "reset_month", opt "residual_days"], false, [], true, ["model"], false, false, true⟩ :: parameter

/-- `RbfProfileParameter.__init__`, `/repo/pywr/parameters/_parameters.pyx:1031-1034`. -/
def rbfProfileParameter : List Ctor :=
  ⟨[req "model", req "days_of_year", req "values", opt "lower_bounds", opt "upper_bounds", opt "rbf_kwargs", opt "variable_days_of_year_range", opt "variable_days_lower_bounds", opt "variable_days_upper_bounds", opt "min_value", opt "max_value"], false, [], true, ["model"], false, false, true⟩ :: parameter

/-- `ConstantScenarioIndexParameter.__init__`, `/repo/pywr/parameters/_parameters.pyx:1233-1237`. -/
def constantScenarioIndexParameter : List Ctor :=
  ⟨[req "model", req "scenario", req "values"], true, [], true, ["model"], true, false, true⟩ :: indexParameter

/-- `IndexedArrayParameter.__init__`, `/repo/pywr/parameters/_parameters.pyx:1279-1280`. -/
def indexedArrayParameter : List Ctor :=
  ⟨[req "model", req "index_parameter", req "params"], false, [], true, ["model"], false, false, true⟩ :: parameter

/-- `AnnualHarmonicSeriesParameter.__init__` with the keywords it takes out of `kwargs`, `/repo/pywr/parameters/_parameters.pyx:1337-1351`. -/
def annualHarmonicSeriesParameter : List Ctor :=
  ⟨[req "model", req "mean", req "amplitudes", req "phases"], true, [opt "mean_lower_bounds", opt "mean_upper_bounds", opt "amplitude_lower_bounds", opt "amplitude_upper_bounds", opt "phase_lower_bounds", opt "phase_upper_bounds"], true, ["model"], true, false, true⟩ :: parameter

/-- `AggregatedParameter.__init__`, `/repo/pywr/parameters/_parameters.pyx:1454-1455`. -/
def aggregatedParameter : List Ctor :=
  ⟨[req "model", req "parameters", opt "agg_func"], false, [], true, ["model"], false, false, true⟩ :: parameter

/-- `AggregatedIndexParameter.__init__`, `/repo/pywr/parameters/_parameters.pyx:1574-1575`. -/
def aggregatedIndexParameter : List Ctor :=
  ⟨[req "model", req "parameters", opt "agg_func"], false, [], true, ["model"], false, false, true⟩ :: indexParameter

/-- `DivisionParameter.__init__`, `/repo/pywr/parameters/_parameters.pyx:1698-1699`. -/
def divisionParameter : List Ctor :=
  ⟨[req "model", req "numerator", req "denominator"], false, [], true, ["model"], false, false, true⟩ :: parameter

/-- `NegativeParameter.__init__`, `/repo/pywr/parameters/_parameters.pyx:1750-1751`. -/
def negativeParameter : List Ctor :=
  ⟨[req "model", req "parameter"], true, [], true, ["model"], true, false, true⟩ :: parameter

/-- `MaxParameter.__init__`, `/repo/pywr/parameters/_parameters.pyx:1782-1783`. -/
def maxParameter : List Ctor :=
  ⟨[req "model", req "parameter", opt "threshold"], true, [], true, ["model"], true, false, true⟩ :: parameter

/-- `NegativeMaxParameter` has no `__init__` of its own (`/repo/pywr/parameters/_parameters.pyx:1802`). -/
def negativeMaxParameter : List Ctor := maxParameter

/-- `MinParameter.__init__`, `/repo/pywr/parameters/_parameters.pyx:1827-1828`. -/
def minParameter : List Ctor :=
  ⟨[req "model", req "parameter", opt "threshold"], true, [], true, ["model"], true, false, true⟩ :: parameter

/-- `NegativeMinParameter` has no `__init__` of its own (`/repo/pywr/parameters/_parameters.pyx:1847`). -/
def negativeMinParameter : List Ctor := minParameter

/-- `OffsetParameter.__init__`, `/repo/pywr/parameters/_parameters.pyx:1875-1876`. -/
def offsetParameter : List Ctor :=
  ⟨[req "model", req "parameter", opt "offset", opt "lower_bounds", opt "upper_bounds"], true, [], true, ["model"], true, false, true⟩ :: parameter

/-- `DeficitParameter.__init__`, `/repo/pywr/parameters/_parameters.pyx:1930-1931`. -/
def deficitParameter : List Ctor :=
  ⟨[req "model", req "node"], true, [], true, ["model"], true, false, true⟩ :: parameter

/-- `FlowParameter.__init__` with the keywords it takes out of `kwargs`, `/repo/pywr/parameters/_parameters.pyx:1976-1978`. -/
def flowParameter : List Ctor :=
  ⟨[req "model", req "node"], true, [opt "initial_value"], true, ["model"], true, false, true⟩ :: parameter

/-- `StorageParameter.__init__`, `/repo/pywr/parameters/_parameters.pyx:2028-2029`. -/
def storageParameter : List Ctor :=
  ⟨[req "model", req "storage_node"], true, [opt "use_proportional_volume"], true, ["model"], true, false, true⟩ :: parameter

/-- `PiecewiseIntegralParameter.__init__`, `/repo/pywr/parameters/_parameters.pyx:2062-2063`. -/
def piecewiseIntegralParameter : List Ctor :=
  ⟨[req "model", req "parameter", req "x", req "y"], true, [], true, ["model"], true, false, true⟩ :: parameter

/-- `FlowDelayParameter.__init__` with the keywords it takes out of `kwargs`, `/repo/pywr/parameters/_parameters.pyx:2123-2128`. -/
def flowDelayParameter : List Ctor :=
  ⟨[req "model", req "node"], true, [opt "timesteps", opt "days", opt "initial_flow"], true, ["model"], true, false, true⟩ :: parameter

/-- `DiscountFactorParameter.__init__`, `/repo/pywr/parameters/_parameters.pyx:2176-2177`. -/
def discountFactorParameter : List Ctor :=
  ⟨[req "model", req "rate", req "base_year"], false, [], true, ["model"], false, false, true⟩ :: parameter

/-- `RollingMeanFlowNodeParameter.__init__`, `/repo/pywr/parameters/_parameters.pyx:2209-2210`. -/
def rollingMeanFlowNodeParameter : List Ctor :=
  ⟨[req "model", req "node", opt "timesteps", opt "days", opt "initial_flow"], false, [], true, ["model"], false, false, true⟩ :: parameter

/-- `Polynomial1DParameter.__init__` with the keywords it takes out of `kwargs`, `/repo/pywr/parameters/_polynomial.pyx:36-54`. -/
def polynomial1DParameter : List Ctor :=
  ⟨[req "model", req "coefficients"], true, [opt "node", opt "storage_node", opt "parameter", opt "use_proportional_volume", opt "offset", opt "scale"], true, ["model"], true, false, true⟩ :: parameter

/-- `Polynomial2DStorageParameter.__init__` with the keywords it takes out of `kwargs`, `/repo/pywr/parameters/_polynomial.pyx:134-143`. -/
def polynomial2DStorageParameter : List Ctor :=
  ⟨[req "model", req "coefficients", req "storage_node", req "parameter"], true, [opt "use_proportional_volume", opt "storage_offset", opt "storage_scale", opt "parameter_offset", opt "parameter_scale"], true, ["model"], true, false, true⟩ :: parameter

/-- `AbstractThresholdParameter.__init__`, `/repo/pywr/parameters/_thresholds.pyx:48-49`. -/
def abstractThresholdParameter : List Ctor :=
  ⟨[req "model", req "threshold"], true, [opt "values", opt "predicate", opt "ratchet"], true, ["model"], true, false, true⟩ :: indexParameter

/-- `StorageThresholdParameter.__init__`, `/repo/pywr/parameters/_thresholds.pyx:142-143`. -/
def storageThresholdParameter : List Ctor :=
  ⟨[req "model", req "storage"], true, [], true, ["model"], true, false, true⟩ :: abstractThresholdParameter

/-- `NodeThresholdParameter.__init__`, `/repo/pywr/parameters/_thresholds.pyx:167-168`. -/
def nodeThresholdParameter : List Ctor :=
  ⟨[req "model", req "node"], true, [], true, ["model"], true, false, true⟩ :: abstractThresholdParameter

/-- `MultipleThresholdIndexParameter.__init__`, `/repo/pywr/parameters/_thresholds.pyx:198-199`. -/
def multipleThresholdIndexParameter : List Ctor :=
  ⟨[req "model", req "node", req "thresholds", opt "use_max_flow"], false, [], true, ["model"], false, false, true⟩ :: indexParameter

/-- `MultipleThresholdParameterIndexParameter.__init__`, `/repo/pywr/parameters/_thresholds.pyx:250-251`. -/
def multipleThresholdParameterIndexParameter : List Ctor :=
  ⟨[req "model", req "parameter", req "thresholds", opt "use_max_flow"], false, [], true, ["model"], false, false, true⟩ :: indexParameter

/-- `ParameterThresholdParameter.__init__`, `/repo/pywr/parameters/_thresholds.pyx:302-303`. -/
def parameterThresholdParameter : List Ctor :=
  ⟨[req "model", req "param"], true, [], true, ["model"], true, false, true⟩ :: abstractThresholdParameter

/-- `RecorderThresholdParameter.__init__`, `/repo/pywr/parameters/_thresholds.pyx:329-330`. -/
def recorderThresholdParameter : List Ctor :=
  ⟨[req "model", req "recorder"], true, [opt "initial_value"], true, ["model"], true, false, true⟩ :: abstractThresholdParameter

/-- `CurrentYearThresholdParameter` has no `__init__` of its own (`/repo/pywr/parameters/_thresholds.pyx:362`). -/
def currentYearThresholdParameter : List Ctor := abstractThresholdParameter

/-- `CurrentOrdinalDayThresholdParameter` has no `__init__` of its own (`/repo/pywr/parameters/_thresholds.pyx:377`). -/
def currentOrdinalDayThresholdParameter : List Ctor := abstractThresholdParameter

/-- `KeatingStreamFlowParameter.__init__`, `/repo/pywr/parameters/groundwater.py:23-33`. -/
def keatingStreamFlowParameter : List Ctor :=
  ⟨[req "model", req "storage_node", req "levels", req "transmissivity", opt "coefficient"], false, [], true, ["model"], false, false, true⟩ :: parameter

/-- `License.__init__`, `/repo/pywr/parameters/licenses.py:23-24`. -/
def license : List Ctor :=
  ⟨[req "model", req "node"], false, [], true, ["model"], false, false, true⟩ :: parameter

/-- `TimestepLicense.__init__`, `/repo/pywr/parameters/licenses.py:39-47`. -/
def timestepLicense : List Ctor :=
  ⟨[req "model", req "node", req "amount"], false, [], true, ["model", "node"], false, false, true⟩ :: license

/-- `DailyLicense` has no `__init__` of its own (`/repo/pywr/parameters/licenses.py:62`). -/
def dailyLicense : List Ctor := timestepLicense

/-- `StorageLicense.__init__`, `/repo/pywr/parameters/licenses.py:67-78`. -/
def storageLicense : List Ctor :=
  ⟨[req "model", req "node", req "amount"], false, [], true, ["model", "node"], false, false, true⟩ :: license

/-- `AnnualLicense.__init__`, `/repo/pywr/parameters/licenses.py:120-121`. -/
def annualLicense : List Ctor :=
  ⟨[], true, [], true, [], true, false, true⟩ :: storageLicense

/-- `AnnualExponentialLicense.__init__`, `/repo/pywr/parameters/licenses.py:165-177`. -/
def annualExponentialLicense : List Ctor :=
  ⟨[req "model", req "node", req "amount", req "max_value", opt "k"], false, [], true, ["model", "node", "amount"], false, false, true⟩ :: annualLicense

/-- `AnnualHyperbolaLicense.__init__`, `/repo/pywr/parameters/licenses.py:205-215`. -/
def annualHyperbolaLicense : List Ctor :=
  ⟨[req "model", req "node", req "amount", req "value"], false, [], true, ["model", "node", "amount"], false, false, true⟩ :: annualLicense

/-- `OtherModelParameterValueParameter.__init__`, `/repo/pywr/parameters/multi_model_parameters.py:7-8`. -/
def otherModelParameterValueParameter : List Ctor :=
  ⟨[req "model", req "other_model", req "parameter"], false, [], true, ["model"], false, false, true⟩ :: parameter

/-- `OtherModelIndexParameterValueIndexParameter.__init__`, `/repo/pywr/parameters/multi_model_parameters.py:35-36`. -/
def otherModelIndexParameterValueIndexParameter : List Ctor :=
  ⟨[req "model", req "other_model", req "parameter"], false, [], true, ["model"], false, false, true⟩ :: indexParameter

/-- `OtherModelNodeFlowParameter.__init__`, `/repo/pywr/parameters/multi_model_parameters.py:63-64`. -/
def otherModelNodeFlowParameter : List Ctor :=
  ⟨[req "model", req "other_model", req "node"], false, [], true, ["model"], false, false, true⟩ :: parameter

/-- `OtherModelNodeStorageParameter.__init__`, `/repo/pywr/parameters/multi_model_parameters.py:91-92`. -/
def otherModelNodeStorageParameter : List Ctor :=
  ⟨[req "model", req "other_model", req "node"], false, [], true, ["model"], false, false, true⟩ :: parameter

/-- `FunctionParameter.__init__`, `/repo/pywr/parameters/parameters.py:90-91`. -/
def functionParameter : List Ctor :=
  ⟨[req "model", req "parent", req "func"], true, [], true, ["model"], true, false, true⟩ :: parameter

/-- `ScaledProfileParameter.__init__`, `/repo/pywr/parameters/parameters.py:103-104`. -/
def scaledProfileParameter : List Ctor :=
  ⟨[req "model", req "scale", req "profile"], true, [], true, ["model"], true, false, true⟩ :: parameter

/-- `AbstractInterpolatedParameter.__init__`, `/repo/pywr/parameters/parameters.py:125-126`. -/
def abstractInterpolatedParameter : List Ctor :=
  ⟨[req "model", req "x", req "y", opt "interp_kwargs"], false, [], true, ["model"], false, false, true⟩ :: parameter

/-- `InterpolatedParameter.__init__`, `/repo/pywr/parameters/parameters.py:171-174`. -/
def interpolatedParameter : List Ctor :=
  ⟨[req "model", req "parameter", req "x", req "y", opt "interp_kwargs"], false, [], true, ["model", "x", "y", "interp_kwargs"], false, false, true⟩ :: abstractInterpolatedParameter

/-- `InterpolatedVolumeParameter.__init__`, `/repo/pywr/parameters/parameters.py:212-215`. -/
def interpolatedVolumeParameter : List Ctor :=
  ⟨[req "model", req "node", req "volumes", req "values", opt "interp_kwargs"], false, [], true, ["model", "volumes", "values", "interp_kwargs"], false, false, true⟩ :: abstractInterpolatedParameter

/-- `InterpolatedFlowParameter.__init__`, `/repo/pywr/parameters/parameters.py:262-263`. -/
def interpolatedFlowParameter : List Ctor :=
  ⟨[req "model", req "node", req "flows", req "values", opt "interp_kwargs"], false, [], true, ["model", "flows", "values", "interp_kwargs"], false, false, true⟩ :: abstractInterpolatedParameter

/-- `InterpolatedQuadratureParameter.__init__`, `/repo/pywr/parameters/parameters.py:307-317`. -/
def interpolatedQuadratureParameter : List Ctor :=
  ⟨[req "model", req "upper_parameter", req "x", req "y", opt "lower_parameter", opt "interp_kwargs"], false, [], true, ["model", "x", "y", "interp_kwargs"], false, false, true⟩ :: abstractInterpolatedParameter

/-- `ScenarioWrapperParameter.__init__`, `/repo/pywr/parameters/parameters.py:378-379`. -/
def scenarioWrapperParameter : List Ctor :=
  ⟨[req "model", req "scenario", req "parameters"], false, [], true, ["model"], false, false, true⟩ :: parameter

/-- All classes of parameters but `DataFrameParameter` (and the abstract `License`). -/
def classes : List (String × List Ctor) := [
  ("BinaryStepParameter", binaryStepParameter),
  ("RectifierParameter", rectifierParameter),
  ("LogisticParameter", logisticParameter),
  ("BaseControlCurveParameter", baseControlCurveParameter),
  ("ControlCurveInterpolatedParameter", controlCurveInterpolatedParameter),
  ("ControlCurvePiecewiseInterpolatedParameter", controlCurvePiecewiseInterpolatedParameter),
  ("ControlCurveIndexParameter", controlCurveIndexParameter),
  ("ControlCurveParameter", controlCurveParameter),
  ("WeightedAverageProfileParameter", weightedAverageProfileParameter),
  ("HydropowerTargetParameter", hydropowerTargetParameter),
  ("ConstantParameter", constantParameter),
  ("ArrayIndexedParameter", arrayIndexedParameter),
  ("ArrayIndexedScenarioParameter", arrayIndexedScenarioParameter),
  ("TablesArrayParameter", tablesArrayParameter),
  ("ConstantScenarioParameter", constantScenarioParameter),
  ("ArrayIndexedScenarioMonthlyFactorsParameter", arrayIndexedScenarioMonthlyFactorsParameter),
  ("DailyProfileParameter", dailyProfileParameter),
  ("WeeklyProfileParameter", weeklyProfileParameter),
  ("MonthlyProfileParameter", monthlyProfileParameter),
  ("ScenarioMonthlyProfileParameter", scenarioMonthlyProfileParameter),
  ("ScenarioWeeklyProfileParameter", scenarioWeeklyProfileParameter),
  ("ScenarioDailyProfileParameter", scenarioDailyProfileParameter),
  ("UniformDrawdownProfileParameter", uniformDrawdownProfileParameter),
  ("RbfProfileParameter", rbfProfileParameter),
  ("IndexParameter", indexParameter),
  ("ConstantScenarioIndexParameter", constantScenarioIndexParameter),
  ("IndexedArrayParameter", indexedArrayParameter),
  ("AnnualHarmonicSeriesParameter", annualHarmonicSeriesParameter),
  ("AggregatedParameter", aggregatedParameter),
  ("AggregatedIndexParameter", aggregatedIndexParameter),
  ("DivisionParameter", divisionParameter),
  ("NegativeParameter", negativeParameter),
  ("MaxParameter", maxParameter),
  ("NegativeMaxParameter", negativeMaxParameter),
  ("MinParameter", minParameter),
  ("NegativeMinParameter", negativeMinParameter),
  ("OffsetParameter", offsetParameter),
  ("DeficitParameter", deficitParameter),
  ("FlowParameter", flowParameter),
  ("StorageParameter", storageParameter),
  ("PiecewiseIntegralParameter", piecewiseIntegralParameter),
  ("FlowDelayParameter", flowDelayParameter),
  ("DiscountFactorParameter", discountFactorParameter),
  ("RollingMeanFlowNodeParameter", rollingMeanFlowNodeParameter),
  ("Polynomial1DParameter", polynomial1DParameter),
  ("Polynomial2DStorageParameter", polynomial2DStorageParameter),
  ("AbstractThresholdParameter", abstractThresholdParameter),
  ("StorageThresholdParameter", storageThresholdParameter),
  ("NodeThresholdParameter", nodeThresholdParameter),
  ("MultipleThresholdIndexParameter", multipleThresholdIndexParameter),
  ("MultipleThresholdParameterIndexParameter", multipleThresholdParameterIndexParameter),
  ("ParameterThresholdParameter", parameterThresholdParameter),
  ("RecorderThresholdParameter", recorderThresholdParameter),
  ("CurrentYearThresholdParameter", currentYearThresholdParameter),
  ("CurrentOrdinalDayThresholdParameter", currentOrdinalDayThresholdParameter),
  ("KeatingStreamFlowParameter", keatingStreamFlowParameter),
  ("TimestepLicense", timestepLicense),
  ("DailyLicense", dailyLicense),
  ("StorageLicense", storageLicense),
  ("AnnualLicense", annualLicense),
  ("AnnualExponentialLicense", annualExponentialLicense),
  ("AnnualHyperbolaLicense", annualHyperbolaLicense),
  ("OtherModelParameterValueParameter", otherModelParameterValueParameter),
  ("OtherModelIndexParameterValueIndexParameter", otherModelIndexParameterValueIndexParameter),
  ("OtherModelNodeFlowParameter", otherModelNodeFlowParameter),
  ("OtherModelNodeStorageParameter", otherModelNodeStorageParameter),
  ("FunctionParameter", functionParameter),
  ("ScaledProfileParameter", scaledProfileParameter),
  ("AbstractInterpolatedParameter", abstractInterpolatedParameter),
  ("InterpolatedParameter", interpolatedParameter),
  ("InterpolatedVolumeParameter", interpolatedVolumeParameter),
  ("InterpolatedFlowParameter", interpolatedFlowParameter),
  ("InterpolatedQuadratureParameter", interpolatedQuadratureParameter),
  ("ScenarioWrapperParameter", scenarioWrapperParameter)]

end Verif.Keywords

import Verif.Spec.Constructors
/-!
# Specification: arguments, defaults and attributes of recorders

The descriptions of the classes of recorders, in the form of `Spec/Constructors.lean`.
-/

namespace Verif.Constructors
open Verif.ParameterLoading

/-- An argument that was not given, where that makes a difference. -/
def notGiven : Arg := .rows []

/-- Such an argument. -/
def mayGive (k : String) : String × Option Arg := (k, some notGiven)

/-- A text by default. -/
def textByDefault (k s : String) : String × Option Arg := (k, some (.one (.text s)))

/-- True by default. -/
def trueByDefault (k : String) : String × Option Arg := (k, some (.one (.flag true)))

/-- The names of ways to aggregate. -/
def aggregation : Arg → Option Arg
  | .one (.text s) =>
    if s ∈ ["count_nonzero", "custom", "max", "mean", "median", "min", "percentile", "percentileofscore", "product", "sum"] then some (.one (.text s)) else none
  | _ => none

/-- The direction of an objective: none, or one of two, spelled in three ways. -/
def direction : Arg → Option Arg
  | .one .null => some (.one .null)
  | .one (.text s) =>
    if s = "max" ∨ s = "maximise" ∨ s = "maximize" then some (.one (.text "maximise"))
    else if s = "min" ∨ s = "minimise" ∨ s = "minimize" then some (.one (.text "minimise"))
    else none
  | _ => none

/-- The number an argument is. -/
def numberOf : Arg → Option Rat
  | .one v => oneNumber v
  | _ => none

/-- The bounds of a constraint are in order. -/
def inOrder (a : Args) : Bool :=
  match numberOf (a "constraint_lower_bounds"), numberOf (a "constraint_upper_bounds") with
  | some l, some u => decide (l ≤ u)
  | _, _ => true

/-- The name: as given, or another. -/
def named (other : Args → Option String) (a : Args) : Option (String × Arg) :=
  if a "name" = .one .null then (other a).map fun n => ("name", .one (.text n)) else some ("name", a "name")

/-- The class and the name of the node. -/
def nodeName (cls : String) (a : Args) : Option String :=
  match a "node" with
  | .one (.node n) => some s!"{cls}.{n}"
  | _ => none

/-- The class and the name of the parameter, which constants do not have. -/
def paramName (k cls : String) (a : Args) : Option String :=
  match a k with
  | .one (.param (.named p)) => some s!"{cls}.{p}"
  | .one (.param (.const _)) => some s!"{cls}.None"
  | _ => none

/-- Every recorder: the mean of the scenarios, no objective and no constraint. -/
def everyRecorder (agg : String × Option Arg) : List (String × Option Arg) :=
  [agg, falseByDefault "ignore_nan", nullByDefault "is_objective", byDefault "epsilon" 1, nullByDefault "name", nullByDefault "constraint_lower_bounds", nullByDefault "constraint_upper_bounds",
    nullByDefault "comment", nullByDefault "tags"]

/-- The mean by default. -/
def meanAgg : String × Option Arg := textByDefault "agg_func" "mean"

/-- What is kept of that. -/
def recorded (other : Args → Option String) : List (Args → Option (String × Arg)) :=
  [named other, any "comment", any "tags", any "ignore_nan", as "is_objective" direction, as "epsilon" aNumber, as "constraint_lower_bounds" (orNull aNumber), as "constraint_upper_bounds" (orNull aNumber),
    as "agg_func" fun v => if v = notGiven then some (.one (.text "mean")) else aggregation v]

/-- A recorder of a node. -/
def ofNode (cls : String) (args : List (String × Option Arg)) (attrs : List (Args → Option (String × Arg))) (cond : Args → Bool := fun _ => true) : Sig :=
  { args := everyRecorder meanAgg ++ needs "node" :: args, cond := fun a => inOrder a && cond a, attrs := recorded (nodeName cls) ++ as "node" aNode :: attrs }

/-- A recorder of a parameter, under the name that its constructor gives to it. -/
def ofParam (cls k : String) (args : List (String × Option Arg)) (attrs : List (Args → Option (String × Arg))) : Sig :=
  { args := everyRecorder meanAgg ++ needs k :: args, cond := inOrder, attrs := recorded (paramName k cls) ++ as k aParam :: attrs }

/-- The mean over time by default. -/
def meanOverTime : String × Option Arg := textByDefault "temporal_agg_func" "mean"

/-- What is kept of that. -/
def overTime : Args → Option (String × Arg) := as "temporal_agg_func" aggregation

/-- The aggregation over time may be given under an old name, but not under both. -/
def overTimeOr (old : String) (a : Args) : Option (String × Arg) :=
  if a old ≠ notGiven ∧ a "temporal_agg_func" ≠ notGiven then none
  else if a old ≠ notGiven then (aggregation (a old)).map fun v => ("temporal_agg_func", v)
  else if a "temporal_agg_func" ≠ notGiven then (aggregation (a "temporal_agg_func")).map fun v => ("temporal_agg_func", v)
  else some ("temporal_agg_func", .one (.text "mean"))

/-- Duration curves of flows. -/
def durationArgs : List (String × Option Arg) := [needs "percentiles", mayGive "temporal_agg_func", mayGive "fdc_agg_func", byDefault "factor" 1]

/-- What is kept of that. -/
def duration : List (Args → Option (String × Arg)) := [overTimeOr "fdc_agg_func", as "factor" aNumber, as "percentiles" theNumbers]

/-- A target: nothing, or a number or a row of numbers for each percentile. -/
def forPercentiles (k : String) (a : Args) : Option (String × Arg) :=
  let n := howMany (theNumbers (a "percentiles"))
  match a k with
  | .rows rs => if rs.length = n then (aTable (.rows rs)).map fun v => (k, v) else none
  | v => (orNull (fun v => ofLength n (theNumbers v)) v).map fun v => (k, v)

/-- A scenario. -/
def aScenario : Arg → Option Arg
  | .one (.scenario s) => some (.one (.scenario s))
  | _ => none

/-- A whole number. -/
def aWhole (v : Arg) : Option Arg := (numberOf v).bind fun q => if q.den = 1 then some (.one (.num q)) else none

/-- A count: nothing stands for 0, and fractions are dropped. -/
def aCount (v : Arg) : Option Arg :=
  if v = .one .null then some (.one (.num 0))
  else (numberOf v).map fun q => .one (.num (if 0 ≤ q then (q.floor : Rat) else (q.ceil : Rat)))

/-- Neither nothing nor zero. -/
def counts (v : Arg) : Bool := decide (v ≠ .one .null) && decide (numberOf v ≠ some 0)

/-- The arguments of recorders of power. -/
def powerSig : List (String × Option Arg) :=
  [nullByDefault "water_elevation_parameter", byDefault "turbine_elevation" 0, byDefault "efficiency" 1, byDefault "density" 1000, byDefault "flow_unit_conversion" 1,
    byDefault "energy_unit_conversion" (1 / 10 ^ 6)]

/-- What is kept of that. -/
def powerAttrs : List (Args → Option (String × Arg)) :=
  [as "water_elevation_parameter" (orNull aParam), as "turbine_elevation" aNumber, as "efficiency" aNumber, as "density" aNumber, as "flow_unit_conversion" aNumber, as "energy_unit_conversion" aNumber]

/-- A kernel density estimate. -/
def kdeArgs : List (String × Option Arg) := [nullByDefault "resample_freq", nullByDefault "resample_func"]

/-- Recorders that have to be given a name, though `None` will do. -/
def namedRecorder : List (String × Option Arg) := (everyRecorder meanAgg).filter fun e => e.1 ≠ "name"

/-- The one given first of several aggregations. -/
def firstGiven (ks : List String) (otherwise : Arg) (a : Args) : Arg := ((ks.map a).find? fun v => decide (v ≠ notGiven)).getD otherwise

/-- A parameter or a recorder. -/
def aComponent : Arg → Option Arg
  | .one (.param p) => some (.one (.param p))
  | .one (.recorder r) => some (.one (.recorder r))
  | _ => none

/-- A recorder. -/
def aRecorder : Arg → Option Arg
  | .one (.recorder r) => some (.one (.recorder r))
  | _ => none

/-- The descriptions of the classes of recorders; the name of the class is part of default names. -/
inductive Records (cls : String) : Class → Sig → Prop
  | node : Records cls (RecorderLoading.nodeRecorder cls) (ofNode cls [] [])
  | numpyNode : Records cls (RecorderLoading.numpyNode cls) (ofNode cls [meanOverTime, byDefault "factor" 1] [overTime, as "factor" aNumber])
  | totalFlow : Records cls (RecorderLoading.totalFlow cls) (ofNode cls [byDefault "factor" 1] [as "factor" aNumber])
  | fdc : Records cls (RecorderLoading.fdc cls) (ofNode cls durationArgs duration)
  | seasonal : Records cls (RecorderLoading.seasonal cls) (ofNode cls (needs "months" :: durationArgs) (duration ++ [as "months" aList]))
  | deviation : Records cls (RecorderLoading.deviation cls)
      (ofNode cls (durationArgs ++ [nullByDefault "lower_target_fdc", nullByDefault "upper_target_fdc", nullByDefault "scenario"])
        (duration ++ [forPercentiles "lower_target_fdc", forPercentiles "upper_target_fdc", as "scenario" (orNull aScenario)])
        -- one of the targets
        fun a => decide (a "lower_target_fdc" ≠ .one .null ∨ a "upper_target_fdc" ≠ .one .null))
  | comparison : Records cls (RecorderLoading.comparison cls) (ofNode cls [needs "observed", meanOverTime, byDefault "factor" 1] [overTime, as "factor" aNumber, any "observed"])
  | threshold : Records cls (RecorderLoading.thresholdRecorder cls) (ofNode cls [needs "threshold", nullByDefault "predicate"] [as "threshold" aNumber, as "predicate" Constructors.comparison])
  | hydropower : Records cls (RecorderLoading.hydropower cls) (ofNode cls (powerSig ++ [meanOverTime, byDefault "factor" 1]) (overTime :: as "factor" aNumber :: powerAttrs))
  | energy : Records cls (RecorderLoading.energy cls) (ofNode cls powerSig powerAttrs)
  | rollingMean : Records cls (RecorderLoading.rollingMean cls)
      (ofNode cls [nullByDefault "timesteps", nullByDefault "days"] [as "timesteps" aCount, as "days" aCount] fun a => counts (a "timesteps") || counts (a "days"))
  | numpyStorageBase : Records cls (RecorderLoading.numpyStorageBase cls) (ofNode cls [meanOverTime] [overTime])
  | numpyStorage : Records cls (RecorderLoading.numpyStorage cls) (ofNode cls [meanOverTime, falseByDefault "proportional"] [overTime, any "proportional"])
  | normalised : Records cls (RecorderLoading.normalised cls) (ofNode cls [needs "parameter", meanOverTime] [overTime, as "parameter" (orNull aParam)])
  | sdc : Records cls (RecorderLoading.sdc cls)
      (ofNode cls [needs "percentiles", mayGive "temporal_agg_func", mayGive "sdc_agg_func", falseByDefault "proportional"] [overTimeOr "sdc_agg_func", any "proportional", as "percentiles" theNumbers])
  | minimumThreshold : Records cls (RecorderLoading.minimumThreshold cls) (ofNode cls [needs "threshold"] [as "threshold" aNumber])
  | kde : Records cls (RecorderLoading.kde cls)
      (ofNode cls (meanOverTime :: kdeArgs ++ [needs "target_volume_pc", trueByDefault "use_reflection", byDefault "num_pdf" 101])
        [overTime, any "resample_freq", any "resample_func", any "target_volume_pc", any "use_reflection", any "num_pdf"])
  | normalisedKde : Records cls (RecorderLoading.normalisedKde cls)
      (ofNode cls (needs "parameter" :: meanOverTime :: kdeArgs ++ [trueByDefault "use_reflection", byDefault "num_pdf" 101])
        [overTime, as "parameter" (orNull aParam), any "resample_freq", any "resample_func", any "use_reflection", any "num_pdf"])
  | parameter : Records cls (RecorderLoading.parameterRecorder cls) (ofParam cls "param" [] [])
  | numpyParameter : Records cls (RecorderLoading.numpyParameter cls) (ofParam cls "param" [meanOverTime] [overTime])
  | totalParameter : Records cls (RecorderLoading.totalParameter cls) (ofParam cls "param" [byDefault "factor" 1, falseByDefault "integrate"] [as "factor" aNumber, any "integrate"])
  | meanParameter : Records cls (RecorderLoading.meanParameter cls) (ofParam cls "param" [byDefault "factor" 1] [as "factor" aNumber])
  | rollingWindow : Records cls (RecorderLoading.rollingWindow cls)
      (ofParam cls "param" [needs "window", mayGive "temporal_agg_func"]
        [as "window" aWhole, fun a => (aggregation (firstGiven ["temporal_agg_func"] (a "agg_func") a)).map fun v => ("temporal_agg_func", v)])
  | timestepCount : Records cls (RecorderLoading.timestepCount cls) (ofParam cls "parameter" [needs "threshold"] [as "threshold" aWhole])
  | annualCount : Records cls (RecorderLoading.annualCount cls) (ofParam cls "param" [needs "threshold"] [as "threshold" aWhole])
  | annualThreshold : Records cls (RecorderLoading.annualThreshold cls)
      { args := namedRecorder ++ [needs "name", needs "parameters", needs "threshold", nullByDefault "exclude_months", nullByDefault "include_from_month", nullByDefault "include_from_day",
          nullByDefault "include_to_month", nullByDefault "include_to_day", textByDefault "temporal_agg_func" "sum"]
        cond := inOrder
        attrs := recorded (fun _ => some cls) ++ [as "parameters" aList, as "threshold" aWhole, as "exclude_months" (orNull aList), any "include_from_month", any "include_from_day",
          any "include_to_month", any "include_to_day", overTime] }
  | annualFlow : Records cls (RecorderLoading.annualFlow cls)
      { args := namedRecorder ++ [needs "name", needs "nodes", nullByDefault "factors", textByDefault "temporal_agg_func" "sum"]
        cond := inOrder
        -- without factors, one for each node
        attrs := recorded (fun _ => some cls) ++ [as "nodes" aList,
          fun a => if a "factors" = .one .null then some ("factors", .many (List.replicate (howMany (aList (a "nodes"))) (.num 1))) else as "factors" theNumbers a, overTime] }
  | aggregated : Records cls (RecorderLoading.aggregatedRecorder cls)
      { args := everyRecorder (mayGive "agg_func") ++ [needs "recorders", mayGive "recorder_agg_func"]
        cond := inOrder
        -- the same as over the scenarios, if only that is given
        attrs := recorded (fun _ => some cls) ++ [fun a => (aggregation (firstGiven ["recorder_agg_func"] (a "agg_func") a)).map fun v => ("recorder_agg_func", v), as "recorders" aList] }
  | event : Records cls (RecorderLoading.eventRecorder cls)
      { args := everyRecorder (mayGive "agg_func") ++ [needs "threshold", byDefault "minimum_event_length" 1, nullByDefault "tracked_parameter", mayGive "event_agg_func"]
        cond := inOrder
        attrs := recorded (fun _ => some cls) ++ [fun a => some ("event_agg_func", firstGiven ["event_agg_func", "agg_func"] (.one .null) a), as "threshold" aComponent,
          as "minimum_event_length" fun v => (numberOf v).bind fun q => if 1 ≤ q then some v else none, as "tracked_parameter" (orNull aParam)] }
  | eventDuration : Records cls (RecorderLoading.eventDuration cls)
      { args := everyRecorder (mayGive "agg_func") ++ [needs "event_recorder", mayGive "recorder_agg_func"]
        cond := inOrder
        attrs := recorded (fun _ => some cls) ++ [fun a => some ("recorder_agg_func", firstGiven ["recorder_agg_func", "agg_func"] (.one (.text "mean")) a), as "event_recorder" aRecorder] }
  | eventStatistic : Records cls (RecorderLoading.eventStatistic cls)
      { args := everyRecorder (mayGive "agg_func") ++ [needs "event_recorder", mayGive "recorder_agg_func", mayGive "event_agg_func"]
        cond := inOrder
        attrs := recorded (fun _ => some cls) ++ [fun a => some ("recorder_agg_func", firstGiven ["recorder_agg_func", "agg_func"] (.one (.text "mean")) a),
          fun a => some ("event_agg_func", firstGiven ["event_agg_func", "agg_func"] (.one (.text "mean")) a), as "event_recorder" aRecorder] }

end Verif.Constructors

import Verif.Spec.ParameterLoading
import Verif.Model.RecorderLoading
/-!
# Specification: recorders in a document
-/

namespace Verif.RecorderLoading
open Verif.ParameterLoading

/-- The entry `node`. -/
def aboutNode : Table := [("node", "node", .node)]

/-- The classes whose documents are described by a table, whatever the name of the class. -/
inductive Recorded (cls : String) : Class → Table → Prop
  | node : Recorded cls (nodeRecorder cls) aboutNode
  | numpyNode : Recorded cls (numpyNode cls) aboutNode
  | totalFlow : Recorded cls (totalFlow cls) aboutNode
  | fdc : Recorded cls (fdc cls) aboutNode
  | seasonal : Recorded cls (seasonal cls) aboutNode
  | comparison : Recorded cls (comparison cls) aboutNode
  | threshold : Recorded cls (thresholdRecorder cls) aboutNode
  | hydropower : Recorded cls (hydropower cls) (aboutNode ++ [("water_elevation_parameter", "water_elevation_parameter", .param)])
  | energy : Recorded cls (energy cls) (aboutNode ++ [("water_elevation_parameter", "water_elevation_parameter", .param)])
  | levelOrArea : Recorded cls (numpyStorageBase cls) aboutNode
  | numpyStorage : Recorded cls (numpyStorage cls) aboutNode
  | normalised : Recorded cls (normalised cls) (aboutNode ++ [("parameter", "parameter", .param)])
  | sdc : Recorded cls (sdc cls) aboutNode
  | minimumThreshold : Recorded cls (minimumThreshold cls) aboutNode
  | kde : Recorded cls (kde cls) aboutNode
  | normalisedKde : Recorded cls (normalisedKde cls) (aboutNode ++ [("parameter", "parameter", .param)])
  | indexParameter : Recorded cls (parameterRecorder cls) [("parameter", "param", .param)]
  | numpyIndex : Recorded cls (numpyParameter cls) [("parameter", "param", .param)]
  | rollingWindow : Recorded cls (rollingWindow cls) [("parameter", "param", .param), ("window", "window", .integer)]
  | timestepCount : Recorded cls (timestepCount cls) [("parameter", "parameter", .param)]
  | annualCount : Recorded cls (annualCount cls) [("parameter", "param", .param)]
  | annualThreshold : Recorded cls (annualThreshold cls) [("parameters", "parameters", .params)]
  | annualFlow : Recorded cls (annualFlow cls) [("nodes", "nodes", .nodes)]
  | aggregated : Recorded cls (aggregatedRecorder cls) [("recorders", "recorders", .recorders)]
  | event : Recorded cls (eventRecorder cls) [("threshold", "threshold", .either), ("tracked_parameter", "tracked_parameter", .param)]
  | eventDuration : Recorded cls (eventDuration cls) [("event_recorder", "event_recorder", .recorder)]
  | eventStatistic : Recorded cls (eventStatistic cls) [("event_recorder", "event_recorder", .recorder)]

/-- The recorders of parameters whose documents may name a node that holds the parameter. -/
inductive OfParameter (cls : String) : Class → Prop
  | parameter : OfParameter cls (parameterRecorder cls)
  | numpy : OfParameter cls (numpyParameter cls)
  | total : OfParameter cls (totalParameter cls)
  | mean : OfParameter cls (meanParameter cls)

/-- The entry `parameter` of those. -/
def aboutParameter : Table := [("parameter", "param", .param)]

/-- The entries of deviations of flow duration curves. -/
def deviationTable : Table := aboutNode ++ [("scenario", "scenario", .scenario)]

/-- The entries of rolling means. -/
def rollingTable : Table := aboutNode ++ [("timesteps", "timesteps", .integer), ("days", "days", .integer)]

/-- The document without an entry. -/
def leaveOut (k : String) (doc : Kw) : Kw := doc.filter fun e => e.1 != k

end Verif.RecorderLoading

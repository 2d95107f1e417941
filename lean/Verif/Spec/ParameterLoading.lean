import Mathlib.Data.Rat.Floor
import Verif.Model.ParameterLoading
/-!
# Specification: parameters in a document
-/

namespace Verif.ParameterLoading

/-- What the entries of a document with these keys stand for: the argument of the constructor, and what the value is a name of.  Every other key is the argument of the same name, and its value stands for
itself. -/
abbrev Table := List (String × String × Kind)

/-- The meaning of a key.  An argument that has another name in documents is no key. -/
def Table.entry (t : Table) (k : String) : Option (String × Kind) :=
  match t.find? fun e => e.1 == k with
  | some e => some e.2
  | none => if t.any fun e => e.2.1 == k then none else some (k, .plain)

/-- What a value stands for in the place of a parameter: a name stands for the parameter, numbers and `null` for themselves. -/
def aParameter (w : World) (v : Value) : Option Value :=
  match v with
  | .text s => if s ∈ w.params then some (.param (.named s)) else none
  | .num _ | .null | .flag _ => some v
  | _ => none

/-- The parameter that a number stands for, where only parameters are kept. -/
def asConstant : Value → Value
  | .num q => .param (.const q)
  | .flag true => .param (.const 1)
  | .flag false => .param (.const 0)
  | v => v

/-- What a value stands for in the place of a node: a name stands for the node. -/
def aNode (w : World) (v : Value) : Option Value :=
  match v with
  | .text s => if s ∈ w.nodes then some (.node s) else none
  | _ => none

/-- What a value stands for in the place of a recorder: a name stands for the recorder. -/
def aRecorder (w : World) (v : Value) : Option Value :=
  match v with
  | .text s => if s ∈ w.recorders then some (.recorder s) else none
  | _ => none

/-- What a value stands for in the place of a parameter or a recorder: a name stands for the parameter, or, if there is none, for the recorder. -/
def aParameterOrRecorder (w : World) (v : Value) : Option Value :=
  match v with
  | .text s => if s ∈ w.params then some (.param (.named s)) else if s ∈ w.recorders then some (.recorder s) else none
  | v => aParameter w v

/-- What a number stands for in the place of a whole number: the next whole number towards zero. -/
def aWhole (v : Value) : Option Value :=
  match v with
  | .num q => some (.num (if 0 ≤ q then ((⌊q⌋ : Int) : Rat) else ((⌈q⌉ : Int) : Rat)))
  | .flag true => some (.num 1)
  | .flag false => some (.num 0)
  | _ => none

/-- What an entry stands for. -/
def stands (w : World) (kind : Kind) (v : Arg) : Option Arg :=
  match kind, v with
  | .plain, v => some v
  | .node, .one (.text s) => if s ∈ w.nodes then some (.one (.node s)) else none
  | .param, .one v => (aParameter w v).map .one
  | .single, .one v => (aParameter w v).map fun v => .many [v]
  | .params, .many vs => (vs.mapM (aParameter w)).map .many
  | .wrapped, .many vs => (vs.mapM (aParameter w)).map fun vs => .many (vs.map asConstant)
  | .nodes, .many vs => (vs.mapM (aNode w)).map .many
  | .recorder, .one v => (aRecorder w v).map .one
  | .recorders, .many vs => (vs.mapM (aRecorder w)).map .many
  | .either, .one v => (aParameterOrRecorder w v).map .one
  | .integer, .one v => (aWhole v).map .one
  | .scenario, .one .null => some (.one .null)
  | .scenario, .one (.text s) => if s ∈ w.scenarios then some (.one (.scenario s)) else none
  | _, _ => none

/-- The arguments that a document stands for. -/
def resolve (w : World) (t : Table) (doc : Kw) : Option Kw :=
  doc.mapM fun e => (t.entry e.1).bind fun m => (stands w m.2 e.2).map fun v => (m.1, v)

/-- The classes whose documents are described by a table. -/
inductive Documented : Class → Table → Prop
  | curveIndex : Documented curveIndex [("storage_node", "storage_node", .node), ("control_curves", "control_curves", .params)]
  | storageThreshold : Documented storageThreshold [("storage_node", "storage", .node), ("threshold", "threshold", .param)]
  | nodeThreshold : Documented nodeThreshold [("node", "node", .node), ("threshold", "threshold", .param)]
  | parameterThreshold : Documented parameterThreshold [("parameter", "param", .param), ("threshold", "threshold", .param)]
  | yearThreshold : Documented yearThreshold [("threshold", "threshold", .param)]
  | multipleThreshold : Documented multipleThreshold [("node", "node", .node), ("thresholds", "thresholds", .params)]
  | multipleThresholdParameter : Documented multipleThresholdParameter [("parameter", "parameter", .param), ("thresholds", "thresholds", .params)]
  | polynomial1 : Documented polynomial1 [("node", "node", .node), ("storage_node", "storage_node", .node), ("parameter", "parameter", .param)]
  | polynomial2 : Documented polynomial2 [("storage_node", "storage_node", .node), ("parameter", "parameter", .param)]
  | negative : Documented negative [("parameter", "parameter", .param)]
  | maxMin : Documented maxMin [("parameter", "parameter", .param)]
  | offset : Documented offset [("parameter", "parameter", .param)]
  | division : Documented division [("numerator", "numerator", .param), ("denominator", "denominator", .param)]
  | deficit : Documented deficit [("node", "node", .node)]
  | flow : Documented flow [("node", "node", .node)]
  | storage : Documented storage [("storage_node", "storage_node", .node)]
  | licence : Documented licence [("node", "node", .node)]
  | indexedArray : Documented indexedArray [("index_parameter", "index_parameter", .param), ("params", "params", .params), ("parameters", "params", .params)]
  | aggregated : Documented aggregated [("parameters", "parameters", .wrapped)]
  | hydropower : Documented hydropower [("target", "target", .param), ("water_elevation_parameter", "water_elevation_parameter", .param), ("max_flow", "max_flow", .param),
      ("min_flow", "min_flow", .param)]

/-- The table of the control curve parameters with values. -/
def curveTable : Table :=
  [("control_curve", "control_curves", .single), ("control_curves", "control_curves", .params), ("storage_node", "storage_node", .node), ("parameters", "parameters", .params)]

end Verif.ParameterLoading

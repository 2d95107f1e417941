import Verif.Spec.ParameterLoading
import Verif.Model.RecorderLoading
/-!
# Specification: arguments, defaults and attributes of parameters and recorders

For each class: the arguments with their defaults, what has to hold besides, and what is kept of the arguments in each attribute.
-/

namespace Verif.Constructors
open Verif.ParameterLoading

/-- The values of the arguments of a call. -/
abbrev Args := String → Arg

/-- The description of a class: its arguments with their defaults (`none`: to be given), a condition on them, and which attributes are made of them (`none`: refused). -/
structure Sig where
  args : List (String × Option Arg)
  cond : Args → Bool := fun _ => true
  attrs : List (Args → Option (String × Arg))

/-- A call has every argument at most once, only those there are, and all that have no default. -/
def WellCalled (args : List (String × Option Arg)) (kw : Kw) : Prop :=
  (kw.map Prod.fst).Nodup ∧ (∀ e ∈ kw, e.1 ∈ args.map Prod.fst) ∧ ∀ a ∈ args, a.2 = none → a.1 ∈ kw.map Prod.fst

instance (args : List (String × Option Arg)) (kw : Kw) : Decidable (WellCalled args kw) := by unfold WellCalled; infer_instance

/-- The value of an argument: the one given, or the default. -/
def valueOf (args : List (String × Option Arg)) (kw : Kw) (k : String) : Arg :=
  match kw.lookup k, args.lookup k with
  | some v, _ => v
  | none, some (some d) => d
  | none, _ => .one .null

/-- The object that is made of a call. -/
def Sig.make (s : Sig) (kw : Kw) : Option Obj :=
  if WellCalled s.args kw ∧ s.cond (valueOf s.args kw) = true then s.attrs.mapM fun r => r (valueOf s.args kw) else none

/-! ## What is kept -/

/-- The value as it is. -/
def any (k : String) (a : Args) : Option (String × Arg) := some (k, a k)

/-- The value in a form, or not at all. -/
def as (k : String) (f : Arg → Option Arg) (a : Args) : Option (String × Arg) := (f (a k)).map fun v => (k, v)

/-- One value that is a number. -/
def oneNumber : Value → Option Rat
  | .num q => some q
  | .flag true => some 1
  | .flag false => some 0
  | _ => none

/-- A number. -/
def aNumber : Arg → Option Arg
  | .one v => (oneNumber v).map fun q => .one (.num q)
  | _ => none

/-- Numbers. -/
def theNumbers : Arg → Option Arg
  | .many vs => (vs.mapM oneNumber).map fun qs => .many (qs.map .num)
  | _ => none

/-- A table of numbers. -/
def aTable : Arg → Option Arg
  | .rows [] => some (.rows [])
  | .rows (r :: rs) => if ∀ r' ∈ rs, r'.length = r.length then some (.rows (r :: rs)) else none
  | _ => none

/-- A node. -/
def aNode : Arg → Option Arg
  | .one (.node n) => some (.one (.node n))
  | _ => none

/-- A parameter. -/
def aParam : Arg → Option Arg
  | .one (.param p) => some (.one (.param p))
  | _ => none

/-- The same, or nothing. -/
def orNull (f : Arg → Option Arg) (v : Arg) : Option Arg := if v = .one .null then some v else f v

/-- A parameter; a number stands for a constant. -/
def paramOrConstant : Value → Option Value
  | .param p => some (.param p)
  | v => (oneNumber v).map fun q => .param (.const q)

/-- Parameters; numbers stand for constants. -/
def params : Arg → Option Arg
  | .many vs => (vs.mapM paramOrConstant).map .many
  | _ => none

/-- Control curves: the same, or a single parameter. -/
def theCurves : Arg → Option Arg
  | .one (.param p) => some (.many [.param p])
  | v => params v

/-- How many they are. -/
def howMany : Option Arg → Nat
  | some (.many vs) => vs.length
  | _ => 0

/-- A list. -/
def aList : Arg → Option Arg
  | .many vs => some (.many vs)
  | _ => none

/-- A threshold: a parameter or a number. -/
def paramOrNumber : Arg → Option Arg
  | .one (.param p) => some (.one (.param p))
  | v => aNumber v

/-- The comparison of a threshold, which is "less than" unless another is named. -/
def comparison : Arg → Option Arg
  | .one .null => some (.one (.text "LT"))
  | .one (.text s) =>
    if s = "LT" ∨ s = "<" then some (.one (.text "LT"))
    else if s = "GT" ∨ s = ">" then some (.one (.text "GT"))
    else if s = "EQ" ∨ s = "=" then some (.one (.text "EQ"))
    else if s = "LE" ∨ s = "<=" then some (.one (.text "LE"))
    else if s = "GE" ∨ s = ">=" then some (.one (.text "GE"))
    else none
  | _ => none

/-- The names of ways to aggregate parameters. -/
def paramAggregation : Arg → Option Arg
  | .one (.text s) => if s ∈ ["any", "all", "sum", "product", "min", "max", "mean", "median", "custom"] then some (.one (.text s)) else none
  | _ => none

/-- To be given. -/
def needs (k : String) : String × Option Arg := (k, none)

/-- A number by default. -/
def byDefault (k : String) (q : Rat) : String × Option Arg := (k, some (.one (.num q)))

/-- Nothing by default. -/
def nullByDefault (k : String) : String × Option Arg := (k, some (.one .null))

/-- False by default. -/
def falseByDefault (k : String) : String × Option Arg := (k, some (.one (.flag false)))

/-! ## Parameters -/

/-- Every parameter: not a variable, and without a comment. -/
def everyParam : List (String × Option Arg) := [falseByDefault "is_variable", nullByDefault "comment"]

/-- What is kept of that. -/
def kept : List (Args → Option (String × Arg)) := [any "is_variable", any "comment"]

/-- A threshold: what is compared is given another name by each class. -/
def thresholdSig (k : String) (f : Arg → Option Arg) : Sig :=
  { args := needs k :: everyParam ++ [needs "threshold", nullByDefault "values", nullByDefault "predicate", falseByDefault "ratchet"]
    attrs := kept ++ [as "threshold" paramOrNumber, as "values" (orNull theNumbers), as "predicate" comparison, any "ratchet", as k f] }

/-- A list of the right length. -/
def ofLength (n : Nat) (v : Option Arg) : Option Arg := if howMany v = n then v else none

/-- A parameter. -/
def isParam : Value → Bool
  | .param _ => true
  | _ => false

/-- Only parameters. -/
def onlyParams : Arg → Option Arg
  | .many vs => if ∀ v ∈ vs, isParam v = true then some (.many vs) else none
  | _ => none

/-- The values at control curves: those given; or the parameters; or others, if there are any. -/
def atCurves (more : Nat) (otherwise : Nat → Option Arg) (a : Args) : Option (String × Arg) :=
  let n := howMany (theCurves (a "control_curves")) + more
  if a "values" ≠ .one .null then (ofLength n (theNumbers (a "values"))).map fun v => ("values", v)
  else if a "parameters" ≠ .one .null then (ofLength n (onlyParams (a "parameters"))).map fun v => ("parameters", v)
  else (otherwise n).map fun v => ("values", v)

/-- Bounds of variables: as many as there are. -/
def boundsOf (k : String) (a : Args) : Option (String × Arg) :=
  if a k = .one .null then some (k, .one .null)
  else (aList (a "variable_indices")).bind fun is => (ofLength (howMany (some is)) (theNumbers (a k))).map fun v => (k, v)

/-- The descriptions of the classes of parameters. -/
inductive Described : Class → Sig → Prop
  | controlCurve : Described controlCurve
      { args := everyParam ++ [needs "storage_node", needs "control_curves", nullByDefault "values", nullByDefault "parameters", nullByDefault "variable_indices", nullByDefault "upper_bounds",
          nullByDefault "lower_bounds"]
        -- without values, the levels are numbered from 0
        attrs := kept ++ [as "control_curves" theCurves, as "storage_node" aNode, atCurves 1 fun n => some (.many ((List.range n).map fun i => .num i)), any "variable_indices", boundsOf "upper_bounds",
          boundsOf "lower_bounds"] }
  | interpolated : Described interpolated
      { args := everyParam ++ [needs "storage_node", needs "control_curves", nullByDefault "values", nullByDefault "parameters"]
        attrs := kept ++ [as "control_curves" theCurves, as "storage_node" aNode, atCurves 2 fun _ => none] }
  | piecewise : Described piecewise
      { args := everyParam ++ [needs "storage_node", needs "control_curves", needs "values", byDefault "minimum" 0, byDefault "maximum" 1]
        attrs := kept ++ [as "control_curves" theCurves, as "storage_node" aNode,
          fun a => match a "values" with
            | .rows rs => if rs.length = howMany (theCurves (a "control_curves")) + 1 ∧ ∀ r ∈ rs, r.length = 2 then some ("values", .rows rs) else none
            | _ => none, as "minimum" aNumber, as "maximum" aNumber] }
  | curveIndex : Described curveIndex
      { args := everyParam ++ [needs "storage_node", needs "control_curves"], attrs := kept ++ [as "storage_node" (orNull aNode), as "control_curves" theCurves] }
  | storageThreshold : Described storageThreshold (thresholdSig "storage" (orNull aNode))
  | nodeThreshold : Described nodeThreshold (thresholdSig "node" (orNull aNode))
  | parameterThreshold : Described parameterThreshold (thresholdSig "param" (orNull aParam))
  | yearThreshold : Described yearThreshold { thresholdSig "" some with args := (thresholdSig "" some).args.tail, attrs := (thresholdSig "" some).attrs.dropLast }
  | multipleThreshold : Described multipleThreshold
      { args := everyParam ++ [needs "node", needs "thresholds", falseByDefault "use_max_flow"], attrs := kept ++ [as "node" (orNull aNode), as "thresholds" params] }
  | multipleThresholdParameter : Described multipleThresholdParameter
      { args := everyParam ++ [needs "parameter", needs "thresholds", falseByDefault "use_max_flow"], attrs := kept ++ [as "parameter" (orNull aParam), as "thresholds" params] }
  | polynomial1 : Described polynomial1
      { args := everyParam ++ [needs "coefficients", nullByDefault "node", nullByDefault "storage_node", nullByDefault "parameter", falseByDefault "use_proportional_volume", byDefault "offset" 0,
          byDefault "scale" 1]
        -- at most one input
        cond := fun a => decide ((a "node" = .one .null ∧ a "storage_node" = .one .null) ∨ (a "node" = .one .null ∧ a "parameter" = .one .null) ∨ (a "storage_node" = .one .null ∧ a "parameter" = .one .null))
        attrs := kept ++ [as "coefficients" theNumbers, as "node" (orNull aNode), as "storage_node" (orNull aNode), as "parameter" (orNull aParam), any "use_proportional_volume", as "offset" aNumber,
          as "scale" aNumber] }
  | polynomial2 : Described polynomial2
      { args := everyParam ++ [needs "coefficients", needs "storage_node", needs "parameter", falseByDefault "use_proportional_volume", byDefault "storage_offset" 0, byDefault "storage_scale" 1,
          byDefault "parameter_offset" 0, byDefault "parameter_scale" 1]
        attrs := kept ++ [as "coefficients" aTable, as "storage_node" (orNull aNode), as "parameter" (orNull aParam), any "use_proportional_volume", as "storage_offset" aNumber,
          as "storage_scale" aNumber, as "parameter_offset" aNumber, as "parameter_scale" aNumber] }
  | negative : Described negative { args := everyParam ++ [needs "parameter"], attrs := kept ++ [as "parameter" (orNull aParam)] }
  | maxMin : Described maxMin { args := everyParam ++ [needs "parameter", byDefault "threshold" 0], attrs := kept ++ [as "parameter" (orNull aParam), as "threshold" aNumber] }
  | offset : Described offset
      { args := everyParam ++ [needs "parameter", byDefault "offset" 0, byDefault "lower_bounds" 0, nullByDefault "upper_bounds"]
        attrs := kept ++ [as "parameter" (orNull aParam), as "offset" aNumber] }
  | division : Described division
      { args := everyParam ++ [needs "numerator", needs "denominator"], attrs := kept ++ [as "numerator" (orNull aParam), as "denominator" (orNull aParam)] }
  | deficit : Described deficit { args := everyParam ++ [needs "node"], attrs := kept ++ [as "node" (orNull aNode)] }
  | flow : Described flow { args := everyParam ++ [needs "node", byDefault "initial_value" 0], attrs := kept ++ [as "node" (orNull aNode), as "initial_value" aNumber] }
  | storage : Described storage
      { args := everyParam ++ [needs "storage_node", falseByDefault "use_proportional_volume"], attrs := kept ++ [as "storage_node" (orNull aNode), any "use_proportional_volume"] }
  | licence : Described licence { args := everyParam ++ [needs "node", needs "amount"], attrs := kept ++ [any "node", any "amount"] }
  | indexedArray : Described indexedArray
      { args := everyParam ++ [needs "index_parameter", needs "params"], attrs := kept ++ [as "index_parameter" aParam, as "params" params] }
  | aggregated : Described aggregated
      { args := everyParam ++ [needs "parameters", nullByDefault "agg_func"], attrs := kept ++ [as "agg_func" paramAggregation, as "parameters" aList] }
  | hydropower : Described hydropower
      { args := everyParam ++ [needs "target", nullByDefault "water_elevation_parameter", nullByDefault "max_flow", nullByDefault "min_flow", byDefault "turbine_elevation" 0, byDefault "efficiency" 1,
          byDefault "density" 1000, byDefault "min_head" 0, byDefault "flow_unit_conversion" 1, byDefault "energy_unit_conversion" (1 / 10 ^ 6)]
        attrs := kept ++ [as "target" (orNull aParam), as "water_elevation_parameter" (orNull aParam), as "max_flow" (orNull aParam), as "min_flow" (orNull aParam), as "min_head" aNumber,
          as "turbine_elevation" aNumber, as "efficiency" aNumber, as "density" aNumber, as "flow_unit_conversion" aNumber, as "energy_unit_conversion" aNumber] }

end Verif.Constructors

import Verif.Proof.RecorderConstructors
import Verif.Props.ParameterLoading
import Verif.Props.RecorderLoading
/-!
# C105, C107: what the constructors of parameters and recorders take and keep

Theorems about the classes of `Model/ParameterLoading.lean` and `Model/RecorderLoading.lean`, with the descriptions of `Spec/Constructors.lean` and `Spec/RecorderConstructors.lean`.
-/

namespace Verif.Constructors
open Verif.ParameterLoading Verif.RecorderLoading

/-- The constructor of a parameter takes the described arguments with their defaults, refuses the calls that it has to, and keeps of each argument what is described. -/
theorem C105_constructor {c : Class} {s : Sig} (h : Described c s) (kw : Kw) : construct c kw = s.make kw := follows_make (described_follows h) kw

/-- So does a document. -/
theorem C105_document {w : World} {c : Class} {s : Sig} {t : Table} {doc : Kw} (h : Described c s) (ht : Documented c t) (hn : (doc.map Prod.fst).Nodup) :
    fromDocument w c doc = (resolve w t doc).bind s.make := by
  rw [C105_same ht hn, show construct c = s.make from funext (C105_constructor h)]

example : Described ParameterLoading.hydropower
    { args := everyParam ++ [needs "target", nullByDefault "water_elevation_parameter", nullByDefault "max_flow", nullByDefault "min_flow", byDefault "turbine_elevation" 0, byDefault "efficiency" 1,
        byDefault "density" 1000, byDefault "min_head" 0, byDefault "flow_unit_conversion" 1, byDefault "energy_unit_conversion" (1 / 10 ^ 6)]
      attrs := kept ++ [as "target" (orNull aParam), as "water_elevation_parameter" (orNull aParam), as "max_flow" (orNull aParam), as "min_flow" (orNull aParam), as "min_head" aNumber,
        as "turbine_elevation" aNumber, as "efficiency" aNumber, as "density" aNumber, as "flow_unit_conversion" aNumber, as "energy_unit_conversion" aNumber] } := .hydropower

/-- A power station whose efficiency is given. -/
example : construct ParameterLoading.hydropower [("target", .one (.param (.named "power"))), ("efficiency", .one (.num (9 / 10)))] =
    some [("is_variable", .one (.flag false)), ("comment", .one .null), ("target", .one (.param (.named "power"))), ("water_elevation_parameter", .one .null), ("max_flow", .one .null),
      ("min_flow", .one .null), ("min_head", .one (.num 0)), ("turbine_elevation", .one (.num 0)), ("efficiency", .one (.num (9 / 10))), ("density", .one (.num 1000)),
      ("flow_unit_conversion", .one (.num 1)), ("energy_unit_conversion", .one (.num (1 / 1000000)))] := by decide +kernel

/-- A polynomial with two inputs is refused, with one it is not. -/
example : construct polynomial1 [("coefficients", .many [.num 1, .num 2]), ("node", .one (.node "river")), ("parameter", .one (.param (.named "rule")))] = none ∧
    (construct polynomial1 [("coefficients", .many [.num 1, .num 2]), ("parameter", .one (.param (.named "rule")))]).isSome = true := by decide +kernel

/-- Bounds of levels: as many as there are variable levels. -/
example : (construct controlCurve [("storage_node", .one (.node "reservoir")), ("control_curves", .many [.num (1 / 2)]), ("variable_indices", .many [.num 1]), ("upper_bounds", .many [.num 3])]).bind
      (fun o => o.lookup "upper_bounds") = some (.many [.num 3]) ∧
    construct controlCurve [("storage_node", .one (.node "reservoir")), ("control_curves", .many [.num (1 / 2)]), ("variable_indices", .many [.num 1]), ("upper_bounds", .many [.num 3, .num 4])] = none := by
  decide +kernel

/-- The constructor of a recorder takes the described arguments with their defaults, refuses the calls that it has to, and keeps of each argument what is described. -/
theorem C107_constructor {cls : String} {c : Class} {s : Sig} (h : Records cls c s) (kw : Kw) : construct c kw = s.make kw := follows_make (records_follows h) kw

/-- So does a document. -/
theorem C107_document {w : World} {cls : String} {c : Class} {s : Sig} {t : Table} {doc : Kw} (h : Records cls c s) (ht : Recorded cls c t) (hn : (doc.map Prod.fst).Nodup) :
    fromDocument w c doc = (resolve w t doc).bind s.make := by
  rw [C107_same ht hn, show construct c = s.make from funext (C107_constructor h)]

example : Records "totalflownoderecorder" (totalFlow "totalflownoderecorder") (ofNode "totalflownoderecorder" [byDefault "factor" 1] [as "factor" aNumber]) := .totalFlow

/-- The total of a flow, as an objective. -/
example : construct (totalFlow "totalflownoderecorder") [("node", .one (.node "river")), ("is_objective", .one (.text "max")), ("constraint_lower_bounds", .one (.num 3))] =
    some [("name", .one (.text "totalflownoderecorder.river")), ("comment", .one .null), ("tags", .one .null), ("ignore_nan", .one (.flag false)), ("is_objective", .one (.text "maximise")),
      ("epsilon", .one (.num 1)), ("constraint_lower_bounds", .one (.num 3)), ("constraint_upper_bounds", .one .null), ("agg_func", .one (.text "mean")), ("node", .one (.node "river")),
      ("factor", .one (.num 1))] ∧
    construct (totalFlow "totalflownoderecorder") [("node", .one (.node "river")), ("constraint_lower_bounds", .one (.num 3)), ("constraint_upper_bounds", .one (.num 2))] = none := by decide +kernel

/-- A rolling mean over 2.5 timesteps is one over 2; one over 0 is refused. -/
example : ((construct (rollingMean "rollingmeanflownoderecorder") [("node", .one (.node "river")), ("timesteps", .one (.num (5 / 2)))]).bind fun o => o.lookup "timesteps") = some (.one (.num 2)) ∧
    construct (rollingMean "rollingmeanflownoderecorder") [("node", .one (.node "river")), ("timesteps", .one (.num 0))] = none := by decide +kernel

end Verif.Constructors

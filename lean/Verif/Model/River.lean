import Verif.Model.Composite
/-!
# River nodes: catchments, discharges and gauges

Models `Catchment` and `Discharge` (`/repo/pywr/domains/river.py:22-55, 236-243`) and `RiverGauge` (`:246-300`): which limits and costs the constructors and the later
assignments leave on the nodes handed to the solver. Values are finite numbers (parameters are evaluated before).
-/

namespace Verif.River

open Verif Verif.Bounds Verif.Composite

/-- The limits of a node. -/
structure Limits where
  minFlow : F
  maxFlow : F

/-- An assignment to an attribute of a catchment. -/
inductive Assign where
  | flow (v : Rat)
  | minFlow (v : Rat)
  | maxFlow (v : F)

/-- `Catchment.__setattr__` (`river.py:50-55`): a flow is stored as both limits; the limits can still be assigned themselves. -/
def Limits.set (l : Limits) : Assign → Limits
  | .flow v => ⟨.fin v, .fin v⟩
  | .minFlow v => { l with minFlow := .fin v }
  | .maxFlow v => { l with maxFlow := v }

/-- `Catchment.__init__` (`river.py:27-44`): the limits of the base class (`/repo/pywr/nodes.py:221-224`: 0 and infinity unless given), then the flow (0 unless given). -/
def catchment (minFlow : Option Rat) (maxFlow : Option F) (flow : Option Rat) : Limits :=
  Limits.set ⟨.fin (minFlow.getD 0), maxFlow.getD .posInf⟩ (.flow (flow.getD 0))

/-- The attributes of the nodes of the model that a gauge writes. -/
structure Attrs where
  maxFlow : Nat → F
  cost : Nat → Rat

/-- Assignment to `sublinks[i].max_flow`; `none`: IndexError. -/
def Attrs.setMax (a : Attrs) (p : Piecewise) (i : Nat) (v : F) : Option Attrs :=
  p.sublinks[i]?.map fun s => { a with maxFlow := fun n => if n = s then v else a.maxFlow n }

/-- Assignment to `sublinks[i].cost`. -/
def Attrs.setCost (a : Attrs) (p : Piecewise) (i : Nat) (v : Rat) : Option Attrs :=
  p.sublinks[i]?.map fun s => { a with cost := fun n => if n = s then v else a.cost n }

/-- The `costs` setter of piecewise links (`nodes.py:851-858`). -/
def setCosts (p : Piecewise) (values : List Rat) (cost : Nat → Rat) : Option (Nat → Rat) :=
  if p.sublinks.length ≠ values.length then none
  else some ((p.sublinks.zip values).foldl (fun m q => fun n => if n = q.1 then q.2 else m n) cost)

/-- `RiverGauge.__init__` (`river.py:263-267`): the MRF limits the first segment, the second is unlimited (`None` becomes infinity, `/repo/pywr/_core.pyx:639-647`).
Costs are assigned before maximum flows (`nodes.py:838-841`). -/
def gauge (p : Piecewise) (mrf : F) (mrfCost cost : Rat) (a : Attrs) : Option Attrs :=
  (setCosts p [mrfCost, cost] a.cost).bind fun c => (p.setMaxFlows [mrf, .posInf] a.maxFlow).map fun m => ⟨m, c⟩

/-- An assignment to an attribute of a gauge. -/
inductive GaugeAssign where
  | mrf (v : F)
  | mrfCost (v : Rat)
  | cost (v : Rat)

/-- The setters of `RiverGauge` (`river.py:269-300`). -/
def Attrs.assign (p : Piecewise) (a : Attrs) : GaugeAssign → Option Attrs
  | .mrf v => a.setMax p 0 v
  | .mrfCost v => a.setCost p 0 v
  | .cost v => a.setCost p 1 v

/-- A gauge created and then modified. -/
def history (p : Piecewise) (mrf : F) (mrfCost cost : Rat) (a : Attrs) (as : List GaugeAssign) : Option Attrs :=
  as.foldl (fun a x => a.bind fun a => a.assign p x) (gauge p mrf mrfCost cost a)

end Verif.River

import Verif.Model.NodeRun
/-! # Vocabulary for statements about runs -/

namespace Verif.NodeRun

/-- Classes with a volume. -/
def Cls.HasVolume : Cls → Prop
  | .storage _ _ | .virtualStorage _ _ _ | .aggregatedStorage _ _ _ => True
  | _ => False

/-- The nodes a node's own `after` reads. -/
def Cls.reads : Cls → List Nat
  | .virtualStorage ms _ _ | .aggregated ms => ms.map (·.1)
  | .aggregatedStorage ms _ _ => ms
  | .piecewise ms => ms
  | .copyOf m => [m]
  | _ => []

/-- Nodes refer to nodes of the model; nodes with a parent are inputs, outputs and links (true of every `parent=self` in
`/repo/pywr/nodes.py` and of the inputs and outputs of storages). -/
def Config.WF (c : Config) : Prop :=
  (∀ i < c.size, ∀ m ∈ (c.cls i).reads, m < c.size) ∧ ∀ i < c.size, c.hidden i = true → c.cls i = .node

/-- Two states agree in everything a node reports. -/
def Agree (c : Config) (st st' : St) : Prop :=
  ∀ i < c.size, (st i).flow = (st' i).flow ∧ (st i).prevFlow = (st' i).prevFlow ∧
    ((c.cls i).HasVolume → (st i).volume = (st' i).volume ∧ (st i).pc = (st' i).pc)

/-- Two states agree except for the previous flow of nodes with a parent and of aggregated storages. -/
def AgreeMostly (c : Config) (st st' : St) : Prop :=
  ∀ i < c.size, (st i).flow = (st' i).flow ∧
    (c.hidden i = false → (∀ ms v p, c.cls i ≠ .aggregatedStorage ms v p) → (st i).prevFlow = (st' i).prevFlow) ∧
    ((c.cls i).HasVolume → (st i).volume = (st' i).volume ∧ (st i).pc = (st' i).pc)

end Verif.NodeRun

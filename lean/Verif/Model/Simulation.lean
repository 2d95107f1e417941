import Verif.Model.Lp
/-!
# A whole simulation

Puts together the parts: in every timestep (`/repo/pywr/_model.pyx:584-700`) the parameters are evaluated, the solver builds and solves a linear programme for the present
volumes (`Model/Lp.lean`), commits the flows, and the storages (`Model/Storage.lean`) and virtual storages (`Model/VirtualStorage.lean`) take their new volumes.

`Runs` is one scenario, `Ensemble` the scenarios of a model together (the solver keeps nothing from one scenario to the next, C85; what is computed for one scenario may depend on all of them).  The values of the parameters, costs, limits, conversion factors, and the times at which virtual storages are active or
refilled (`/repo/pywr/nodes.py:596-758`) are any function of everything that has happened since the start.  GLPK may return any solution (or any least-cost solution)
of the problem it is given.  Routes and the graph do not change during a run.
-/

namespace Verif.Simulation

open Verif Verif.Lp Verif.Bounds

/-- What does not change during a run: kinds and ids of the nodes, inputs and outputs of each storage, nodes and factors of each virtual storage, the
routes found in the setup of the route solver, the graph of the edge solver. -/
structure Net where
  kind : Nat → Kind
  nodes : List Nat
  stores : List (List Nat × List Nat)
  virtuals : List (List Nat × List Rat)
  routes : List (List Nat)
  graph : Graph

/-- What the parameters say in a timestep; `limits i` is maximum and minimum volume of storage `i`; `refill i` is the volume a virtual storage is set to in its
`before`. -/
structure Values where
  minFlow : Nat → F
  maxFlow : Nat → F
  cost : Nat → Rat
  limits : Nat → Rat × Rat
  vlimits : Nat → Rat × Rat
  active : Nat → Bool
  refill : Nat → Option Rat
  aggs : List AggData
  cross : List (Nat × List (Nat × Rat))
  days : Rat

/-- The state between two timesteps: storages and volumes of virtual storages by position. -/
structure Moment where
  stores : Nat → Storage.State
  virtuals : Nat → Storage.State

/-- A timestep that is over: what the parameters said and the flows of the nodes. -/
structure Done where
  values : Values
  flow : Nat → Rat

/-- The state of a virtual storage when the solver looks at it. -/
def Moment.virtual (m : Moment) (v : Values) (i : Nat) : Storage.State := match v.refill i with
  | none => m.virtuals i
  | some x => { m.virtuals i with volume := x }

/-- The data of the solve. -/
def Net.data (N : Net) (v : Values) (m : Moment) : Data where
  kind := N.kind
  nodes := N.nodes
  minFlow := v.minFlow
  maxFlow := v.maxFlow
  cost := v.cost
  storages := N.stores.zipIdx.map fun q => ⟨q.1.1, q.1.2, (m.stores q.2).volume, (v.limits q.2).1, (v.limits q.2).2⟩
  virtuals := N.virtuals.zipIdx.map fun q => ⟨q.1.1, q.1.2, v.active q.2, (m.virtual v q.2).volume, (v.vlimits q.2).1, (v.vlimits q.2).2⟩
  aggs := v.aggs
  cross := v.cross
  days := v.days

/-- The commits to a storage and its `after`. -/
def storeStep (v : Values) (flow : Nat → Rat) (s : List Nat × List Nat) (i : Nat) (st : Storage.State) : Storage.State :=
  st.step ⟨v.days, (v.limits i).1, (v.limits i).2, s.1.map (fun n => .fromStore (flow n)) ++ s.2.map (fun n => .toStore (flow n))⟩

/-- `VirtualStorage.after`. -/
def virtualStep (v : Values) (flow : Nat → Rat) (s : List Nat × List Rat) (i : Nat) (st : Storage.State) : Storage.State :=
  (VirtualStorage.VState.after ⟨st, v.active i⟩ ((s.1.zip s.2).map fun p => ⟨p.2, flow p.1⟩) v.days (v.vlimits i).1 (v.vlimits i).2 none).store

/-- The state after the timestep. -/
def Net.next (N : Net) (v : Values) (flow : Nat → Rat) (m : Moment) : Moment where
  stores i := match N.stores[i]? with
    | none => m.stores i
    | some s => storeStep v flow s i (m.stores i)
  virtuals i := match N.virtuals[i]? with
    | none => m.virtuals i
    | some s => virtualStep v flow s i (m.virtual v i)

/-- The flows committed to the nodes: those of inputs, links and outputs. -/
def Net.commit (N : Net) (flow : Nat → Rat) : Nat → Rat := fun n => if n ∈ N.nodes ∧ N.kind n ≠ .other then flow n else 0

/-- Any run: parameters, solve (`answer`: the flows the solver may commit), new state. -/
inductive Runs (N : Net) (answer : Data → (Nat → Rat) → Prop) (params : List Done → Values) (start : Moment) : List Done → Moment → Prop
  | start : Runs N answer params start [] start
  | step {h : List Done} {m : Moment} {flow : Nat → Rat} (hr : Runs N answer params start h m) (ha : answer (N.data (params h) m) flow) :
      Runs N answer params start (h ++ [⟨params h, flow⟩]) (N.next (params h) flow m)

/-- All scenarios of a model (`_model.pyx:584-637`): in a timestep, first the parameters of all scenarios are evaluated, from the history of all scenarios; then the scenarios are solved one after the
other (`/repo/pywr/solvers/cython_glpk.pyx:827-830, 1640-1643`), each with its own volumes; then the storages of all scenarios take their new volumes. -/
inductive Ensemble (N : Net) (answer : Data → (Nat → Rat) → Prop) {n : Nat} (params : List (Fin n → Done) → Fin n → Values) (start : Fin n → Moment) :
    List (Fin n → Done) → (Fin n → Moment) → Prop
  | start : Ensemble N answer params start [] start
  | step {h : List (Fin n → Done)} {m : Fin n → Moment} {flow : Fin n → Nat → Rat} (hr : Ensemble N answer params start h m)
      (ha : ∀ i, answer (N.data (params h i) (m i)) (flow i)) :
      Ensemble N answer params start (h ++ [fun i => ⟨params h i, flow i⟩]) (fun i => N.next (params h i) (flow i) (m i))

/-- The route solver returns any solution, and the flows through the nodes are committed (`cython_glpk.pyx:1077-1093`). -/
def routeAnswer (N : Net) (d : Data) (flow : Nat → Rat) : Prop := ∃ x, RouteFeasible d N.routes x ∧ flow = N.commit (routeNodeFlow d N.routes x)

/-- The route solver returns a solution of least cost. -/
def routeBest (N : Net) (d : Data) (flow : Nat → Rat) : Prop :=
  ∃ x, RouteFeasible d N.routes x ∧ (∀ x', RouteFeasible d N.routes x' → routeObjective d N.routes x ≤ routeObjective d N.routes x') ∧
    flow = N.commit (routeNodeFlow d N.routes x)

end Verif.Simulation

import Verif.Model.VirtualStorage
/-!
# All nodes of a model over a run

Models the node hooks `Model.before`, the solver's commits, `Model.after`, `Model.reset` and `Model.setup`
(`/repo/pywr/_model.pyx:626-631, 684-823, 825-860`) together with the `before`/`commit`/`after`/`reset` methods of the node classes. One
scenario (the code loops over scenario indices with the same statements).

Nodes are numbered `0, 1, …` in the order of `model.graph.nodes()`.
-/

namespace Verif.NodeRun

open Verif.Storage (State Initial)

/-- Classes that differ in these methods. -/
inductive Cls
  /-- `Input`, `Output`, `Link`, `StorageInput`, `StorageOutput`: `AbstractNode.after` (`/repo/pywr/_core.pyx:491-492`). -/
  | node
  /-- `Storage` (`/repo/pywr/_core.pyx:1289-1361`); the initial volume and fraction. -/
  | storage (volume : Rat) (pc : Option Rat)
  /-- `VirtualStorage` (`/repo/pywr/_core.pyx:1458-1493`): members with factors. The additional volume resets of the annual, seasonal, monthly and
  rolling kinds are not part of this file (see `Model/VirtualStorage.lean`). -/
  | virtualStorage (members : List (Nat × Rat)) (volume : Rat) (pc : Option Rat)
  /-- `AggregatedNode` (`/repo/pywr/_core.pyx:762-776`): members with weights. -/
  | aggregated (members : List (Nat × Rat))
  /-- `AggregatedStorage` (`/repo/pywr/_core.pyx:1379-1427`): members, initial volume and fraction. -/
  | aggregatedStorage (members : List Nat) (volume : Rat) (pc : Option Rat)
  /-- `PiecewiseLink`, `MultiSplitLink` (`/repo/pywr/nodes.py:880-887`): the sublinks. -/
  | piecewise (sublinks : List Nat)
  /-- `BreakLink`, `DelayNode`, `LossLink` (`/repo/pywr/nodes.py:1168-1171, 1236-1239, 1361-1364`): the node whose flow is taken over. -/
  | copyOf (source : Nat)

/-- A model's nodes. -/
structure Config where
  /-- Number of nodes in `model.graph`. -/
  size : Nat
  cls : Nat → Cls
  /-- For `StorageInput` (sign −1) and `StorageOutput` (sign +1): the storage and the sign (`/repo/pywr/_core.pyx:941-944, 975-978`). -/
  store : Nat → Option (Nat × Rat)
  /-- `node.parent is not None`: such nodes are left out by `NodeIterator.__iter__` (`/repo/pywr/_model.pyx:991-999`). -/
  hidden : Nat → Bool

/-- State of all nodes. -/
abbrev St := Nat → State

/-- Replace the state of one node. -/
def St.put (st : St) (i : Nat) (s : State) : St := fun j => if j = i then s else st j

/-- What the parameters and the solver contribute to a timestep: its length, the volume limits of storages, which virtual storages are active,
and the flows committed by the solver. -/
structure Decision where
  days : Rat
  mx : Nat → Rat
  mn : Nat → Rat
  active : Nat → Bool
  commits : List (Nat × Rat)

/-- `node.before` for every node (`/repo/pywr/_core.pyx:475-479`). -/
def before (st : St) : St := fun i => (st i).before

/-- `_flow += value`. -/
def addFlow (st : St) (i : Nat) (v : Rat) : St := st.put i { st i with flow := (st i).flow + v }

/-- `commit` of one node. -/
def commit (c : Config) (st : St) (p : Nat × Rat) : St :=
  let st1 := addFlow st p.1 p.2
  match c.store p.1 with
  | none => st1
  | some (s, sign) => addFlow st1 s (sign * p.2)

/-- All commits of the solver. -/
def commits (c : Config) (st : St) (l : List (Nat × Rat)) : St := l.foldl (commit c) st

/-- `AggregatedStorage.after` on the summed flow, `/repo/pywr/_core.pyx:1408-1427`; `mx`, `mn` are the summed limits. -/
def aggStorageAfter (s : State) (flow days mx mn : Rat) : State :=
  let v := Storage.snap mx mn (s.volume + flow * days)
  { volume := v, flow := flow, prevFlow := s.flow, pc := Storage.fraction v mx }

/-- `node.after` of one node. -/
def afterNode (c : Config) (d : Decision) (st : St) (i : Nat) : St :=
  let s := st i
  match c.cls i with
  | .node => st.put i { s with prevFlow := s.flow }
  | .storage _ _ => st.put i (s.after d.days (d.mx i) (d.mn i) none)
  | .virtualStorage ms _ _ =>
    if d.active i then
      let flow := VirtualStorage.depletion (ms.map fun p : Nat × Rat => ⟨p.2, (st p.1).flow⟩)
      st.put i (State.after { s with flow := flow } d.days (d.mx i) (d.mn i) none)
    else st
  | .aggregated ms => st.put i { s with prevFlow := s.flow, flow := (ms.map fun p => (st p.1).flow * p.2).sum }
  | .aggregatedStorage ms _ _ =>
    st.put i (aggStorageAfter s (ms.map fun m => (st m).flow).sum d.days (ms.map d.mx).sum (ms.map d.mn).sum)
  | .piecewise subs =>
    let flow := s.flow + (subs.map fun m => (st m).flow).sum
    st.put i { s with flow := flow, prevFlow := flow }
  | .copyOf m => st.put i { s with prevFlow := s.flow, flow := s.flow + (st m).flow }

/-- `Model.after` for the nodes. -/
def after (c : Config) (d : Decision) (st : St) : St := (List.range c.size).foldl (afterNode c d) st

/-- The state when the solver has finished (parameters and recorders see `prev_flow` from here on). -/
def solved (c : Config) (d : Decision) (st : St) : St := commits c (before st) d.commits

/-- `Model._step`. -/
def step (c : Config) (d : Decision) (st : St) : St := after c d (solved c d st)

/-- `reset` of one node. -/
def resetNode (cls : Cls) (s : State) : State :=
  match cls with
  | .storage v p | .virtualStorage _ v p => ⟨v, 0, 0, p⟩
  | .aggregatedStorage _ v p => { s with volume := v, pc := p }
  | _ => { s with flow := 0, prevFlow := 0 }

/-- `Model.reset`, `/repo/pywr/_model.pyx:768-785`: `for node in self.nodes`, which skips nodes with a parent. -/
def reset (c : Config) (st : St) : St :=
  fun i => if i < c.size ∧ c.hidden i = false then resetNode (c.cls i) (st i) else st i

/-- State after `node.setup` of every node (`/repo/pywr/_core.pyx:462-466, 1041-1046`): previous flow, volume and fraction zero; the flow is
uninitialised memory (`np.empty`). -/
def setup (uninitialised : Nat → Rat) : St := fun i => ⟨0, uninitialised i, 0, some 0⟩

/-- A policy: everything that decides a timestep from its index and the node states at its start (parameters without state of their own, and
the solver). -/
abbrev Policy := Nat → St → Decision

/-- A run of `n` timesteps: the states at the end of each. The policy sees the states after `before` (`/repo/pywr/_model.pyx:839-848`: nodes first,
then parameters). -/
def runFrom (c : Config) (p : Policy) : Nat → Nat → St → List St
  | _, 0, _ => []
  | k, n + 1, st =>
    let st' := step c (p k (before st)) st
    st' :: runFrom c p (k + 1) n st'

/-- State at the end of a run. -/
def finalState (st : St) (states : List St) : St := states.getLastD st

/-- First run: `setup` (which ends with `reset`), then all timesteps. -/
def firstRun (c : Config) (p : Policy) (uninitialised : Nat → Rat) (n : Nat) : List St :=
  runFrom c p 0 n (reset c (setup uninitialised))

/-- Running the same model object again: only `reset`. -/
def secondRun (c : Config) (p : Policy) (n : Nat) (last : St) : List St := runFrom c p 0 n (reset c last)

end Verif.NodeRun

import Verif.Model.NodeRun
import Verif.Model.Memory
import Verif.Model.License
/-!
# Running again with parameters that have memory

The hooks of `Model.reset`, `Model.before` and `Model.after` (`/repo/pywr/_model.pyx:768-823, 825-860`) for nodes (`Model/NodeRun.lean`) together with components that keep something from one timestep to the
next: nodes first, then the `before` of all components, then the values of all parameters in order of their dependencies; after the solution the nodes, then the `after` of all components. One scenario.
-/

namespace Verif.Rerun

open Verif.NodeRun

/-- A component (or several): what it keeps is `S`, the values it gives are `O`, the values of other components it uses are `I`. `evaluate` is `calc_values`; `after` sees the nodes at the end of the timestep and the
values of this timestep, its own included. -/
structure Part (I S O : Type) where
  reset : S → S
  before : Nat → St → S → S
  evaluate : Nat → St → I → S → S × O
  after : Nat → St → I → O → S → S

variable {I S S' O O' : Type}

/-- Two components, the second using the values of the first. -/
def Part.seq (p : Part I S O) (q : Part (I × O) S' O') : Part I (S × S') (O × O') where
  reset s := (p.reset s.1, q.reset s.2)
  before k st s := (p.before k st s.1, q.before k st s.2)
  evaluate k st i s :=
    let a := p.evaluate k st i s.1
    let b := q.evaluate k st (i, a.2) s.2
    ((a.1, b.1), (a.2, b.2))
  after k st i o s := (p.after k st i o.1 s.1, q.after k st (i, o.1) o.2 s.2)

/-- A parameter without memory: its value is computed from the timestep, the nodes and other values. -/
def plain (f : Nat → St → I → O) : Part I Unit O where
  reset s := s
  before _ _ s := s
  evaluate k st i s := (s, f k st i)
  after _ _ _ _ s := s

/-- `FlowDelayParameter` (`/repo/pywr/parameters/_parameters.pyx:2105-2162`) with `n` timesteps. -/
def delay (node n : Nat) (initial : Rat) : Part I Memory.Delay (Option Rat) where
  reset := Memory.Delay.reset initial
  before _ _ s := s
  evaluate _ _ _ s := (s, s.value 0)
  after _ st _ _ s := s.after n fun _ => (st node).flow

/-- `RollingMeanFlowNodeParameter` (`:2191-2273`). -/
def mean (node n : Nat) (initial : Rat) : Part I Memory.Mean Rat where
  reset := Memory.Mean.reset
  before _ _ s := s
  evaluate k _ _ s := (s, s.value n initial k 0)
  after _ st _ _ s := s.after n fun _ => (st node).flow

/-- `FlowParameter` (`:1959-2008`). -/
def flow (node : Nat) (initial : Rat) : Part I Memory.Flow Rat where
  reset := Memory.Flow.reset initial
  before _ _ s := s
  evaluate _ _ _ s := (s.calc, s.calc.values 0)
  after _ st _ _ s := s.after fun _ => (st node).flow

/-- `DeficitParameter` (`:1910-1956`); `mx` is the maximum flow of the node, a number or the value of a parameter. -/
def deficit (node : Nat) (mx : I → Rat) : Part I Rat Rat where
  reset _ := 0
  before _ _ s := s
  evaluate _ _ _ s := (s, s)
  after _ st i _ _ := mx i - (st node).flow

/-- The threshold parameters (`/repo/pywr/parameters/_thresholds.pyx:63-115, 174-178, 332-345`): the flags `_triggered` and the array of indices, of which only the first is reset. `o` is what is compared in a timestep. -/
def threshold (c : Memory.ThresholdCfg) (o : Nat → St → I → Memory.Observation) : Part I (Memory.Triggered × (Nat → Int)) Int where
  reset s := (Memory.thresholdReset s.1, s.2)
  before _ _ s := s
  evaluate k st i s :=
    let r := Memory.thresholdCalc c k (o k st i) [0] s
    (r, r.2 0)
  after _ _ _ _ s := s

/-- The dates of the timesteps. -/
structure Dates where
  year : Nat → Nat
  doy : Nat → Nat
  len : Nat → Nat

/-- A timestep as a licence sees it. -/
def licenceStep (d : Dates) (node k : Nat) (st : St) : License.Step := ⟨d.year k, d.doy k, d.len k, (st node).flow, (st node).prevFlow⟩

/-- `StorageLicense` (`/repo/pywr/parameters/licenses.py:66-101`). -/
def storageLicence (d : Dates) (node : Nat) (amount : Rat) : Part I License.State Rat where
  reset := License.State.reset amount
  before _ _ s := s
  evaluate _ _ _ s := (s, s.remaining)
  after k st _ _ s := s.after (licenceStep d node k st)

/-- `AnnualLicense` (`:107-147`). -/
def annualLicence (d : Dates) (node : Nat) (amount : Rat) : Part I License.State Rat where
  reset := License.State.reset amount
  before k st s := s.before amount (licenceStep d node k st)
  evaluate k st _ s := (s, s.value (licenceStep d node k st))
  after k st _ _ s := s.after (licenceStep d node k st)

/-- An array recorder (`/repo/pywr/recorders/_recorders.pyx:612-625, 1390-1400`) as `RecorderThresholdParameter` reads it (`_thresholds.pyx:327-329`): the row of the previous timestep. `f` is what is recorded. -/
def record (f : Nat → St → I → Rat) : Part I (List Rat) (Option Rat) where
  reset s := s.map fun _ => 0
  before _ _ s := s
  evaluate k _ _ s := (s, if k = 0 then none else s[k - 1]?)
  after k st i _ s := s.set k (f k st i)

/-- Everything in a timestep, `decide` being the solver with all that depends on the values only: the nodes and components at its end, and the values. -/
def stepAll (c : Config) (p : Part Unit S O) (decide : Nat → St → O → Decision) (k : Nat) (st : St) (s : S) : St × S × O :=
  let st0 := before st
  let r := p.evaluate k st0 () (p.before k st0 s)
  let st' := step c (decide k st0 r.2) st
  (st', p.after k st' () r.2 r.1, r.2)

/-- A run: the nodes at the end of each timestep, and the values in it. -/
def runAll (c : Config) (p : Part Unit S O) (decide : Nat → St → O → Decision) : Nat → Nat → St → S → List (St × O)
  | _, 0, _, _ => []
  | k, n + 1, st, s =>
    let r := stepAll c p decide k st s
    (r.1, r.2.2) :: runAll c p decide (k + 1) n r.1 r.2.1

/-- Nodes and components at the end of a run. -/
def endAll (c : Config) (p : Part Unit S O) (decide : Nat → St → O → Decision) : Nat → Nat → St → S → St × S
  | _, 0, st, s => (st, s)
  | k, n + 1, st, s =>
    let r := stepAll c p decide k st s
    endAll c p decide (k + 1) n r.1 r.2.1

end Verif.Rerun

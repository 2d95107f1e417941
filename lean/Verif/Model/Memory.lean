import Verif.Model.Ring
import Mathlib.Algebra.Order.Field.Rat
/-!
# Parameters with memory

Models `FlowDelayParameter` (`/repo/pywr/parameters/_parameters.pyx:2105-2162`), `RollingMeanFlowNodeParameter` (`:2191-2273`), `FlowParameter`
(`:1959-2008`), `DeficitParameter` (`:1910-1956`), `DelayNode` (`/repo/pywr/nodes.py:1174-1239`) and the threshold parameters
(`/repo/pywr/parameters/_thresholds.pyx:50-115, 150-190, 310-352`).

A scenario combination is a number (its global id); a row of a memory array is a function of it.
-/

namespace Verif.Memory

/-- One row of a `(…, n_combinations)` array. -/
abbrev Vec := Nat → Rat

inductive Err
  | valueError
  | typeError
deriving DecidableEq, Repr

/-! ## FlowDelayParameter -/

/-- Constructor arguments (`:2124-2130`). -/
structure DelayCfg where
  timesteps : Int
  days : Int
  initial : Rat

/-- `setup` (`:2132-2144`): the number of timesteps used. `delta` is the timestep length in days, `none` when it is given as a frequency such as
`"M"` (the remainder then raises a TypeError). -/
def DelayCfg.steps (c : DelayCfg) (delta : Option Int) : Except Err Nat :=
  let t : Except Err Int :=
    if c.days > 0 then
      match delta with
      | none => .error .typeError
      | some d => if c.days % d = 0 then .ok (c.days / d) else .error .valueError
    else .ok c.timesteps
  match t with
  | .error e => .error e
  | .ok t => if t < 1 then .error .valueError else .ok t.toNat

/-- `_memory`, `_memory_pointer`. -/
structure Delay where
  mem : List Vec
  ptr : Nat

/-- `_memory = np.zeros(...)`, `_memory_pointer = 0` (`:2143-2144`). -/
def Delay.setup (n : Nat) : Delay := ⟨List.replicate n fun _ => 0, 0⟩

/-- `reset` (`:2146-2148`): every entry of the memory is overwritten. -/
def Delay.reset (initial : Rat) (s : Delay) : Delay := ⟨s.mem.map fun _ _ => initial, 0⟩

/-- `value` (`:2150-2151`); `none` would be an index error. -/
def Delay.value (s : Delay) (sc : Nat) : Option Rat := (s.mem[s.ptr]?).map fun row => row sc

/-- `after` (`:2153-2157`) with `self.timesteps = n`. -/
def Delay.after (n : Nat) (s : Delay) (flow : Vec) : Delay :=
  ⟨s.mem.set s.ptr flow, if n > 1 then (s.ptr + 1) % n else s.ptr⟩

/-- State after the timesteps with the given flows. -/
def Delay.run (n : Nat) (s : Delay) (flows : List Vec) : Delay := flows.foldl (Delay.after n) s

/-! ## DelayNode -/

/-- One timestep of a delay node in one scenario: the solver chooses the flows of its internal output (water arriving) and input (water leaving); the
limits of the input are both the delay parameter. -/
structure DelayStep where
  arriving : Rat
  leaving : Rat

/-- The solver's solutions respect the limits of the internal input (`min_flow=self.delay_param, max_flow=self.delay_param`,
`/repo/pywr/nodes.py:1222-1228`). -/
def DelayNode.Runs (n : Nat) : Delay → List DelayStep → Prop
  | _, [] => True
  | s, t :: ts => (∀ v, s.value 0 = some v → v ≤ t.leaving ∧ t.leaving ≤ v) ∧ DelayNode.Runs n (s.after n fun _ => t.arriving) ts

/-- `DelayNode.after` (`/repo/pywr/nodes.py:1236-1239`): flow is zero after `before`, then the flow of the internal input is committed. -/
def DelayNode.flow (t : DelayStep) : Rat := 0 + t.leaving

/-! ## RollingMeanFlowNodeParameter -/

/-- `timesteps` (`:2215-2226, 2232-2240`): `days // delta` if days are given; zero is rejected in `setup`, giving neither in the constructor. Negative
numbers fail later in `np.zeros` (ValueError). -/
def meanSteps (timesteps days : Option Int) (delta : Option Int) : Except Err Nat :=
  let ts := timesteps.getD 0
  let ds := days.getD 0
  if ts = 0 ∧ ds = 0 then .error .valueError
  else
    let t : Except Err Int := if ds > 0 then (match delta with | none => .error .typeError | some d => .ok (ds / d)) else .ok ts
    match t with
    | .error e => .error e
    | .ok t => if t ≤ 0 then .error .valueError else .ok t.toNat

/-- `_memory` (here one row per position instead of per scenario), `position`. -/
structure Mean where
  mem : List Vec
  pos : Nat

/-- `reset` (`:2242-2245`). -/
def Mean.reset (s : Mean) : Mean := ⟨s.mem.map fun _ _ => 0, 0⟩

/-- `value` (`:2247-2259`). -/
def Mean.value (n : Nat) (initial : Rat) (s : Mean) (index : Nat) (sc : Nat) : Rat :=
  if index = 0 then initial
  else
    let k := if index ≤ n then index else n
    ((s.mem.take k).map fun row => row sc).sum / ((s.mem.take k).length : Rat)

/-- `after` (`:2261-2270`). -/
def Mean.after (n : Nat) (s : Mean) (flow : Vec) : Mean :=
  ⟨s.mem.set s.pos flow, if s.pos + 1 ≥ n then 0 else s.pos + 1⟩

def Mean.run (n : Nat) (s : Mean) (flows : List Vec) : Mean := flows.foldl (Mean.after n) s

/-! ## FlowParameter and DeficitParameter -/

/-- `__next_values`, `__values`. -/
structure Flow where
  next : Vec
  values : Vec

/-- `reset` (`:1993-1995`). -/
def Flow.reset (initial : Rat) (_s : Flow) : Flow := ⟨fun _ => initial, fun _ => 0⟩

/-- `calc_values` (`:1997-2000`). -/
def Flow.calc (s : Flow) : Flow := { s with values := s.next }

/-- `after` (`:2002-2005`). -/
def Flow.after (s : Flow) (flow : Vec) : Flow := { s with next := flow }

/-- The values seen in each timestep of a run. -/
def Flow.run : Flow → List Vec → List Vec
  | _, [] => []
  | s, f :: fs => s.calc.values :: Flow.run (s.calc.after f) fs

/-- `DeficitParameter`: `reset` gives zero (`:1934-1935`), `calc_values` does nothing, `after` computes (`:1940-1950`). The values seen during the
timesteps of a run with the given maximum flows and flows. -/
def deficitRun (v : Vec) : List (Vec × Vec) → List Vec
  | [] => []
  | (mx, flow) :: rest => v :: deficitRun (fun i => mx i - flow i) rest

/-! ## Thresholds -/

inductive Predicate
  | lt | gt | le | ge | eq
deriving DecidableEq

/-- Comparison of two doubles; `none` is NaN, for which every comparison is false. (`_thresholds.pyx:101-110`.) -/
def compare : Predicate → Option Rat → Option Rat → Bool
  | .lt, some x, some t => decide (x < t)
  | .gt, some x, some t => decide (x > t)
  | .le, some x, some t => decide (x ≤ t)
  | .ge, some x, some t => decide (x ≥ t)
  | .eq, some x, some t => decide (x = t)
  | _, _, _ => false

/-- `first`: what the subclass returns in the first timestep without looking at the value: 0 for `NodeThresholdParameter` (`:174-178`), `initial_value`
for `RecorderThresholdParameter` (`:332-345`), `none` for the others. -/
structure ThresholdCfg where
  predicate : Predicate
  ratchet : Bool
  first : Option Int

/-- A `NodeThresholdParameter` (`_thresholds.pyx:159-178`): nothing is said about the first timestep when it is made, its index is then 0. -/
def nodeThreshold (p : Predicate) (ratchet : Bool) : ThresholdCfg := ⟨p, ratchet, some 0⟩

/-- A `RecorderThresholdParameter` (`_thresholds.pyx:320-349`): `initial_value` is 1 when it is not given. -/
def recorderThreshold (p : Predicate) (ratchet : Bool) (initial : Option Int) : ThresholdCfg := ⟨p, ratchet, some (initial.getD 1)⟩

/-- What is compared in one timestep, by scenario. -/
structure Observation where
  x : Nat → Option Rat
  threshold : Nat → Option Rat

/-- `_triggered`. -/
abbrev Triggered := Nat → Bool

/-- `AbstractThresholdParameter.index` (`:84-115`) for scenario `sc`: result and new `_triggered`. -/
def baseIndex (c : ThresholdCfg) (tr : Triggered) (o : Observation) (sc : Nat) : Int × Triggered :=
  if c.ratchet = true ∧ tr sc = true then (1, tr)
  else
    let ind := compare c.predicate (o.x sc) (o.threshold sc)
    (if ind then 1 else 0, fun i => if i = sc then (ind || tr sc) else tr i)

/-- `index` of the subclasses. -/
def thresholdIndex (c : ThresholdCfg) (index : Nat) (tr : Triggered) (o : Observation) (sc : Nat) : Int × Triggered :=
  match c.first with
  | some v => if index = 0 then (v, tr) else baseIndex c tr o sc
  | none => baseIndex c tr o sc

/-- `IndexParameter.calc_values` (`_parameters.pyx:1212-1218`): for every scenario in turn; `out` is the array of indices. -/
def thresholdCalc (c : ThresholdCfg) (index : Nat) (o : Observation) : List Nat → Triggered × (Nat → Int) → Triggered × (Nat → Int)
  | [], s => s
  | sc :: rest, (tr, out) =>
    let r := thresholdIndex c index tr o sc
    thresholdCalc c index o rest (r.2, fun i => if i = sc then r.1 else out i)

/-- All timesteps of a run over the combinations `0 … n - 1`, starting at timestep `index`: the indices in each. -/
def thresholdRun (c : ThresholdCfg) (n : Nat) : Nat → Triggered → (Nat → Int) → List Observation → List (Nat → Int)
  | _, _, _, [] => []
  | index, tr, out, o :: os =>
    let r := thresholdCalc c index o (List.range n) (tr, out)
    r.2 :: thresholdRun c n (index + 1) r.1 r.2 os

/-- `reset` (`:68-70`). -/
def thresholdReset (_tr : Triggered) : Triggered := fun _ => false

/-- `value` (`:75-83`): `values[ind]` or NaN. Negative and too large indices are not modelled (`none`). -/
def thresholdValue (values : Option (List Rat)) (ind : Int) : Option Rat := values.bind fun vs => vs[ind.toNat]?

/-- `MultipleThresholdIndexParameter.index` (`:213-232`) and `MultipleThresholdParameterIndexParameter.index` (`:272-290`): position of the first threshold the
value is at or above. (The constructor's loop is the subject of C02.) -/
def firstAbove (x : Rat) : List Rat → Nat
  | [] => 0
  | t :: ts => if x ≥ t then 0 else firstAbove x ts + 1

end Verif.Memory

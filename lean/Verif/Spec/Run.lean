import Verif.Model.Run
import Verif.Spec.Timestepper
/-! # Specification: what a run calls, and when -/

namespace Verif.Run

open Verif.Timestepper

variable {W Freq : Type}

/-- The logged entries follow the plan: the calls are made in the planned order until one of them raises (`true`) or the
plan is exhausted (`false`). -/
inductive Followed : List (Nat × Call) → List Entry → Bool → Prop
  | nil : Followed [] [] false
  | ok {i c cs es r} : Followed cs es r → Followed ((i, c) :: cs) (⟨i, c, false⟩ :: es) r
  | raised {i c cs} : Followed ((i, c) :: cs) [⟨i, c, true⟩] true

/-- The logged entries are what happened: each hook acts on the world left by the previous one, and an entry says truly
whether its hook raised. -/
inductive Ran (env : Env W Freq) : W → List Entry → W → Prop
  | nil {w} : Ran env w [] w
  | cons {w e es w'} : (env.behave e.model e.call w).1.isSome = e.raised → Ran env (env.behave e.model e.call w).2 es w' →
      Ran env w (e :: es) w'

/-- The exception `e` is the one raised by the last of these calls, acting on the world left by those before it. -/
def Blames (env : Env W Freq) (w : W) (es : List Entry) (e : RunErr) : Prop :=
  ∃ (before : List Entry) (last : Entry) (w' : W) (n : Nat), es = before ++ [last] ∧ Ran env w before w' ∧
    (env.behave last.model last.call w').1 = some n ∧ e = .hook n

/-- The calls of one timestep: all before-hooks (nodes, then components), then the parameter values, then one solve, then
all after-hooks. -/
def stepPlan (nodes comps : List Nat) (param : Nat → Bool) (k : Nat) : List Call :=
  nodes.map (.nodeBefore · k) ++ comps.map (.compBefore · k) ++ (comps.filter param).map (.calcValues · k) ++
    [.solve k] ++ nodes.map (.nodeAfter · k) ++ comps.map (.compAfter · k)

/-- The calls when the model has to be set up. -/
def setupPlan (nodes top comps : List Nat) : List Call :=
  [.scenariosSetup] ++ nodes.map .nodeSetup ++ comps.map .compSetup ++ [.solverSetup] ++
    top.map .nodeReset ++ comps.map .compReset ++ [.solverReset]

/-- The calls when the model has only to be reset. -/
def resetPlan (top comps : List Nat) : List Call :=
  top.map .nodeReset ++ comps.map .compReset ++ [.solverReset]

/-- The calls at the end, when the timestepper shows `current`. -/
def finishPlan (nodes comps : List Nat) (current : Option Nat) : List Call :=
  nodes.map (.nodeFinish · current) ++ comps.map (.compFinish · current)

/-- The model needs setting up. -/
def Mdl.Stale (m : Mdl Freq) : Prop := m.dirty = true ∨ m.ts.dirty = true

/-- The model can be run with periods `P` and components `comps`: there is at least one timestep, the timesteps have a
positive length (also the one after the last), the component graph has no cycle; a model which does not need setting up
has been set up with these periods and components. -/
structure Ready (env : Env W Freq) (m : Mdl Freq) (P : List Period) (comps : List Nat) : Prop where
  order : m.order = some comps
  nonempty : P ≠ []
  good : ∀ p ∈ P, GoodPeriod p
  shift : ∀ p, GoodPeriod p → GoodPeriod (env.pd.shift m.ts.freq p)
  stale : m.Stale → P = env.pd.periodRange m.ts.start m.ts.stop m.ts.freq
  fresh : ¬ m.Stale → P = m.ts.periods ∧ m.flat = some comps ∧ m.ts.lastLength = some P.length

/-- Tag the calls with their model. -/
def tag (id : Nat) (cs : List Call) : List (Nat × Call) := cs.map fun c => (id, c)

open Classical in
/-- What a run has to call before its first timestep. -/
noncomputable def startPlan (m : Mdl Freq) (comps : List Nat) : List (Nat × Call) :=
  tag m.id (if m.Stale then setupPlan m.graphNodes m.topNodes comps else resetPlan m.topNodes comps)

/-- The calls of the first `n` timesteps. -/
def stepsPlan (m : Mdl Freq) (comps : List Nat) (n : Nat) : List (Nat × Call) :=
  (List.range n).flatMap fun k => tag m.id (stepPlan m.graphNodes comps m.param k)

/-- `n` calls of `Model.step`, whatever they raise. -/
def stepped (env : Env W Freq) : Nat → Mdl Freq × Global W → Mdl Freq × Global W
  | 0, x => x
  | n + 1, x => ((stepped env n x).1.step env (stepped env n x).2).2

end Verif.Run

import Verif.Model.Timestepper
/-!
# Running a model

Models `/repo/pywr/_model.pyx:600-872` (`Model.step`, `_step`, `run`, `setup`, `reset`, `before`, `after`, `finish`),
the caching of the component order (`flatten_component_tree`, `:883-904`) and `/repo/pywr/model.py:168-271`
(`MultiModel.dirty`, `setup`, `reset`, `_step`, `run`).

What the hooks of nodes, components, the scenario collection and the solver do is arbitrary: each call looks at and changes
an arbitrary "world" and may raise.  All calls are logged in the order in which they are made.  Simplification: a hook does
not change the structure of the model while it runs (no node or component is added, the timestepper is not touched).
Profiling and timing are left out.
-/

namespace Verif.Run

open Verif.Timestepper

/-- The calls a model makes to its parts.  Nodes and components are identified by numbers; `k` is the index of the
timestep; `current` is the index of `timestepper.current` at the end (read by the finish-hooks of several recorders). -/
inductive Call
  | scenariosSetup
  | nodeSetup (n : Nat)
  | compSetup (c : Nat)
  | solverSetup
  | nodeReset (n : Nat)
  | compReset (c : Nat)
  | solverReset
  | nodeBefore (n k : Nat)
  | compBefore (c k : Nat)
  | calcValues (c k : Nat)
  | solve (k : Nat)
  | nodeAfter (n k : Nat)
  | compAfter (c k : Nat)
  | nodeFinish (n : Nat) (current : Option Nat)
  | compFinish (c : Nat) (current : Option Nat)
deriving Repr, DecidableEq

/-- Exceptions: raised by a hook, by the timestepper, for a cyclic component graph (`_model.pyx:891-893`), for a run
without timesteps (`:661-662`), for unsynchronised sub-models (`model.py:257-261`) and for inconsistent scenarios
(`model.py:174-205`). -/
inductive RunErr
  | hook (e : Nat)
  | timestepper (e : Err)
  | cycle
  | nothingToRun
  | notSynchronised
  | scenarios
deriving Repr, DecidableEq

/-- One call as it happened: the model it belongs to, the call, whether it raised. -/
structure Entry where
  model : Nat
  call : Call
  raised : Bool
deriving Repr, DecidableEq

/-- What the hooks do (`none`: returned normally), and pandas. -/
structure Env (W Freq : Type) where
  pd : Pandas Freq
  behave : Nat → Call → W → Option Nat × W

/-- Everything outside the model objects: the world and the log of calls. -/
structure Global (W : Type) where
  world : W
  log : List Entry

/-- A model object.  `graphNodes` is `graph.nodes()`, `topNodes` is `model.nodes` (without the sub-nodes of composite
nodes), `order` is the order `flatten_component_tree` computes from the current component graph (`none`: the graph has a
cycle), `flat` is the cached `component_tree_flat`, `param` says which components are parameters. -/
structure Mdl (Freq : Type) where
  id : Nat
  ts : State Freq
  dirty : Bool
  graphNodes : List Nat
  topNodes : List Nat
  order : Option (List Nat)
  flat : Option (List Nat)
  param : Nat → Bool

variable {W Freq : Type}

/-- Call one hook of model `id`. -/
def hook (env : Env W Freq) (id : Nat) (c : Call) (g : Global W) : Option RunErr × Global W :=
  let r := env.behave id c g.world
  (r.1.map .hook, ⟨r.2, g.log ++ [⟨id, c, r.1.isSome⟩]⟩)

/-- `for x in xs: x.hook()`: an exception leaves the loop. -/
def exec (env : Env W Freq) (id : Nat) : List Call → Global W → Option RunErr × Global W
  | [], g => (none, g)
  | c :: cs, g =>
    match hook env id c g with
    | (some e, g1) => (some e, g1)
    | (none, g1) => exec env id cs g1

/-- `flatten_component_tree(rebuild)`, `_model.pyx:883-904`: with a cycle the cache has already been set to the empty list
when the exception is raised. -/
def Mdl.flatten (m : Mdl Freq) (rebuild : Bool) : Except RunErr (List Nat) × Mdl Freq :=
  match m.flat, rebuild with
  | some l, false => (.ok l, m)
  | _, _ =>
    match m.order with
    | none => (.error .cycle, { m with flat := some [] })
    | some l => (.ok l, { m with flat := some l })

/-- The loops of `Model.reset` over nodes (`_model.pyx:770-785`) and components (`:793-813`): `setup` first when the number
of timesteps has changed. -/
def resetCalls (changed : Bool) (setup reset : Nat → Call) (xs : List Nat) : List Call :=
  xs.flatMap fun x => if changed then [setup x, reset x] else [reset x]

/-- `Model.reset(start)`, `_model.pyx:748-823`. -/
def Mdl.reset (env : Env W Freq) (m : Mdl Freq) (start : Option Int) (g : Global W) :
    Option RunErr × Mdl Freq × Global W :=
  match m.ts.reset start with
  | (.error e, ts) => (some (.timestepper e), { m with ts := ts }, g)
  | (.ok changed, ts) =>
    let m := { m with ts := ts }
    match exec env m.id (resetCalls changed .nodeSetup .nodeReset m.topNodes) g with
    | (some e, g) => (some e, m, g)
    | (none, g) =>
      match m.flatten false with
      | (.error e, m) => (some e, m, g)
      | (.ok comps, m) =>
        match exec env m.id (resetCalls changed .compSetup .compReset comps ++ [.solverReset]) g with
        | (some e, g) => (some e, m, g)
        | (none, g) => (none, m, g)

/-- `Model.setup()`, `_model.pyx:684-746`. -/
def Mdl.setup (env : Env W Freq) (m : Mdl Freq) (g : Global W) : Option RunErr × Mdl Freq × Global W :=
  match m.ts.setup env.pd with
  | (.error e, ts) => (some (.timestepper e), { m with ts := ts }, g)
  | (.ok _, ts) =>
    let m := { m with ts := ts }
    match exec env m.id [.scenariosSetup] g with
    | (some e, g) => (some e, m, g)
    | (none, g) =>
      match m.ts.reset none with
      | (.error e, ts) => (some (.timestepper e), { m with ts := ts }, g)
      | (.ok _, ts) =>
        let m := { m with ts := ts }
        match exec env m.id (m.graphNodes.map .nodeSetup) g with
        | (some e, g) => (some e, m, g)
        | (none, g) =>
          match m.flatten true with
          | (.error e, m) => (some e, m, g)
          | (.ok comps, m) =>
            match exec env m.id (comps.map .compSetup ++ [.solverSetup]) g with
            | (some e, g) => (some e, m, g)
            | (none, g) =>
              match m.reset env none g with
              | (some e, m, g) => (some e, m, g)
              | (none, m, g) => (none, { m with dirty := false }, g)

/-- `Model.before`, `_model.pyx:825-849`. -/
def Mdl.before (env : Env W Freq) (m : Mdl Freq) (k : Nat) (g : Global W) : Option RunErr × Mdl Freq × Global W :=
  match exec env m.id (m.graphNodes.map (.nodeBefore · k)) g with
  | (some e, g) => (some e, m, g)
  | (none, g) =>
    match m.flatten false with
    | (.error e, m) => (some e, m, g)
    | (.ok comps, m) =>
      match exec env m.id (comps.map (.compBefore · k) ++ (comps.filter m.param).map (.calcValues · k)) g with
      | (some e, g) => (some e, m, g)
      | (none, g) => (none, m, g)

/-- `Model.after`, `_model.pyx:851-860`. -/
def Mdl.after (env : Env W Freq) (m : Mdl Freq) (k : Nat) (g : Global W) : Option RunErr × Mdl Freq × Global W :=
  match exec env m.id (m.graphNodes.map (.nodeAfter · k)) g with
  | (some e, g) => (some e, m, g)
  | (none, g) =>
    match m.flatten false with
    | (.error e, m) => (some e, m, g)
    | (.ok comps, m) =>
      match exec env m.id (comps.map (.compAfter · k)) g with
      | (some e, g) => (some e, m, g)
      | (none, g) => (none, m, g)

/-- `Model.finish`, `_model.pyx:862-872`. -/
def Mdl.finish (env : Env W Freq) (m : Mdl Freq) (g : Global W) : Option RunErr × Mdl Freq × Global W :=
  match exec env m.id (m.graphNodes.map (.nodeFinish · (m.ts.current.map Timestep.index))) g with
  | (some e, g) => (some e, m, g)
  | (none, g) =>
    match m.flatten false with
    | (.error e, m) => (some e, m, g)
    | (.ok comps, m) =>
      match exec env m.id (comps.map (.compFinish · (m.ts.current.map Timestep.index))) g with
      | (some e, g) => (some e, m, g)
      | (none, g) => (none, m, g)

/-- `Model._step`, `_model.pyx:626-631` (and the body of the loop of `MultiModel._step`, `model.py:228-237`). -/
def Mdl.stepInner (env : Env W Freq) (m : Mdl Freq) (k : Nat) (g : Global W) : Option RunErr × Mdl Freq × Global W :=
  match m.before env k g with
  | (some e, m, g) => (some e, m, g)
  | (none, m, g) =>
    match exec env m.id [.solve k] g with
    | (some e, g) => (some e, m, g)
    | (none, g) => m.after env k g

/-- The first lines of `Model.run`, `_model.pyx:643-647`. -/
def Mdl.prepare (env : Env W Freq) (m : Mdl Freq) (g : Global W) : Option RunErr × Mdl Freq × Global W :=
  if m.dirty || m.ts.dirty then m.setup env g else m.reset env none g

/-- `Model.step`, `_model.pyx:621-624`. -/
def Mdl.step (env : Env W Freq) (m : Mdl Freq) (g : Global W) : Option RunErr × Mdl Freq × Global W :=
  let r := if m.dirty || m.ts.dirty then m.setup env g else (none, m, g)
  match r with
  | (some e, m, g) => (some e, m, g)
  | (none, m, g) =>
    match m.ts.nextStep env.pd with
    | (.error e, ts) => (some (.timestepper e), { m with ts := ts }, g)
    | (.ok t, ts) => { m with ts := ts }.stepInner env t.index g

/-- `for timestep in self.timestepper: ...`, `_model.pyx:649-651`; at most `fuel` rounds (`run` gives enough: the theorems
show that the loop is always left by exhaustion of the timestepper or an exception).  Also returns the last timestep
seen. -/
def Mdl.loop (env : Env W Freq) : Nat → Mdl Freq → Option Timestep → Global W →
    Option RunErr × Option Timestep × Mdl Freq × Global W
  | 0, m, last, g => (none, last, m, g)
  | fuel + 1, m, last, g =>
    match m.ts.nextStep env.pd with
    | (.error .stopIteration, ts) => (none, last, { m with ts := ts }, g)
    | (.error e, ts) => (some (.timestepper e), last, { m with ts := ts }, g)
    | (.ok t, ts) =>
      match { m with ts := ts }.stepInner env t.index g with
      | (some e, m, g) => (some e, some t, m, g)
      | (none, m, g) => Mdl.loop env fuel m (some t) g

/-- The `try` part of `Model.run`, `_model.pyx:643-652`. -/
def Mdl.tryPart (env : Env W Freq) (m : Mdl Freq) (g : Global W) :
    Option RunErr × Option Timestep × Mdl Freq × Global W :=
  match m.prepare env g with
  | (some e, m, g) => (some e, none, m, g)
  | (none, m, g) => m.loop env (m.ts.periods.length + 1) none g

/-- `Model.run`, `_model.pyx:637-682`: the result is the last timestep (`ModelResult.timestep`).  An exception in the
`finally` block replaces the one in flight. -/
def Mdl.run (env : Env W Freq) (m : Mdl Freq) (g : Global W) : Except RunErr Timestep × Mdl Freq × Global W :=
  match m.tryPart env g with
  | (err, last, m, g) =>
    match m.finish env g with
    | (some e, m, g) => (.error e, m, g)
    | (none, m, g) =>
      match err, last with
      | some e, _ => (.error e, m, g)
      | none, none => (.error .nothingToRun, m, g)
      | none, some t => (.ok t, m, g)

/-- Creating a parameter or recorder, `/repo/pywr/_component.pyx:83-91`: the component graph changes (so the order computed
from it becomes `order`), but neither `dirty` nor the cached order does. -/
def Mdl.addComponent (m : Mdl Freq) (order : List Nat) : Mdl Freq := { m with order := some order }

/-! ## Coupled models -/

/-- `for model in self.models.values(): model.f()`; an exception leaves the loop. -/
def forModels (f : Mdl Freq → Global W → Option RunErr × Mdl Freq × Global W) :
    List (Mdl Freq) → Global W → Option RunErr × List (Mdl Freq) × Global W
  | [], g => (none, [], g)
  | m :: ms, g =>
    match f m g with
    | (some e, m, g) => (some e, m :: ms, g)
    | (none, m, g) =>
      match forModels f ms g with
      | (r, ms, g) => (r, m :: ms, g)

/-- `MultiModel.setup`, `model.py:207-222`; `consistent` is whether `_check_scenarios` (`:174-205`) accepts. -/
def multiSetup (env : Env W Freq) (consistent : Bool) (ms : List (Mdl Freq)) (g : Global W) :
    Option RunErr × List (Mdl Freq) × Global W :=
  match forModels (fun m g => m.setup env g) ms g with
  | (some e, ms, g) => (some e, ms, g)
  | (none, ms, g) => (if consistent then none else some .scenarios, ms, g)

/-- The first lines of `MultiModel.run`, `model.py:249-252`. -/
def multiPrepare (env : Env W Freq) (consistent : Bool) (ms : List (Mdl Freq)) (g : Global W) :
    Option RunErr × List (Mdl Freq) × Global W :=
  if ms.any (fun m => m.dirty || m.ts.dirty) then multiSetup env consistent ms g
  else forModels (fun m g => m.reset env none g) ms g

/-- One round of `zip(*timesteppers)`, `model.py:256`: `next` of each timestepper in order; the first exhausted one ends
the iteration (the later ones are not advanced).  `none` in the result: exhausted. -/
def zipNext (env : Env W Freq) : List (Mdl Freq) → Except RunErr (Option (List Timestep)) × List (Mdl Freq)
  | [] => (.ok (some []), [])
  | m :: ms =>
    match m.ts.nextStep env.pd with
    | (.error .stopIteration, ts) => (.ok none, { m with ts := ts } :: ms)
    | (.error e, ts) => (.error (.timestepper e), { m with ts := ts } :: ms)
    | (.ok t, ts) =>
      match zipNext env ms with
      | (.ok (some l), ms) => (.ok (some (t :: l)), { m with ts := ts } :: ms)
      | (r, ms) => (r, { m with ts := ts } :: ms)

/-- `model.timestep = timestep` and the comparison of the dates with the first one, `model.py:257-263`
(`timestep.datetime` is the start of the period). -/
def synchronised : List Timestep → Bool
  | [] => true
  | t :: l => l.all fun u => u.period.start = t.period.start

/-- `MultiModel._step`, `model.py:228-237`: each model in turn, with its own timestep. -/
def multiStep (env : Env W Freq) : List (Mdl Freq) → List Timestep → Global W →
    Option RunErr × List (Mdl Freq) × Global W
  | m :: ms, t :: l, g =>
    match m.stepInner env t.index g with
    | (some e, m, g) => (some e, m :: ms, g)
    | (none, m, g) =>
      match multiStep env ms l g with
      | (r, ms, g) => (r, m :: ms, g)
  | ms, _, g => (none, ms, g)

/-- The loop of `MultiModel.run`, `model.py:255-265`. `zip()` of no iterators is empty. -/
def multiLoop (env : Env W Freq) : Nat → List (Mdl Freq) → Global W → Option RunErr × List (Mdl Freq) × Global W
  | 0, ms, g => (none, ms, g)
  | fuel + 1, ms, g =>
    if ms.isEmpty then (none, ms, g)
    else match zipNext env ms with
      | (.error e, ms) => (some e, ms, g)
      | (.ok none, ms) => (none, ms, g)
      | (.ok (some l), ms) =>
        if !synchronised l then (some .notSynchronised, ms, g)
        else match multiStep env ms l g with
          | (some e, ms, g) => (some e, ms, g)
          | (none, ms, g) => multiLoop env fuel ms g

/-- The `try` part of `MultiModel.run`, `model.py:248-266`. -/
def multiTry (env : Env W Freq) (consistent : Bool) (ms : List (Mdl Freq)) (g : Global W) :
    Option RunErr × List (Mdl Freq) × Global W :=
  match multiPrepare env consistent ms g with
  | (some e, ms, g) => (some e, ms, g)
  | (none, ms, g) =>
    multiLoop env ((ms.head?.map fun m => m.ts.periods.length + 1).getD 0) ms g

/-- `MultiModel.run`, `model.py:239-271`. -/
def multiRun (env : Env W Freq) (consistent : Bool) (ms : List (Mdl Freq)) (g : Global W) :
    Option RunErr × List (Mdl Freq) × Global W :=
  match multiTry env consistent ms g with
  | (err, ms, g) =>
    match forModels (fun m g => m.finish env g) ms g with
    | (some e, ms, g) => (some e, ms, g)
    | (none, ms, g) => (err, ms, g)

end Verif.Run

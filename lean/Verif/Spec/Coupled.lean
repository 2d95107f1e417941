import Verif.Model.Coupled
import Verif.Spec.MultiRun
/-! # Specification: what coupled models see of each other -/

namespace Verif.Coupled

open Verif.Run Verif.Timestepper

variable {W Freq Data : Type}

/-- The timestep a call belongs to (`none`: not part of a timestep). -/
def stepOf : Call → Option Nat
  | .nodeBefore _ k => some k
  | .compBefore _ k => some k
  | .calcValues _ k => some k
  | .solve k => some k
  | .nodeAfter _ k => some k
  | .compAfter _ k => some k
  | _ => none

open Classical in
/-- All calls a sub-model makes until it has completed its first `n` timesteps. -/
noncomputable def ownCalls (subs : List (Run.Sub Freq)) (s : Run.Sub Freq) (n : Nat) : List Call :=
  (if AnyStale subs then setupPlan s.m.graphNodes s.m.topNodes s.comps else resetPlan s.m.topNodes s.comps) ++
    (List.range n).flatMap (stepPlan s.m.graphNodes s.comps s.m.param)

/-- The calls of model `id` among the logged ones. -/
def callsOf (id : Nat) (es : List Entry) : List Call := (es.filter fun e => e.model = id).map Entry.call

/-- The world after the logged calls. -/
def worldAfter (env : Env W Freq) (w : W) (es : List Entry) : W :=
  es.foldl (fun w e => (env.behave e.model e.call w).2) w

/-- The logged calls up to the last one of model `id`. -/
def upto (id : Nat) (es : List Entry) : List Entry := (es.reverse.dropWhile fun e => e.model ≠ id).reverse

/-- Only the calls of model `id` change what `view` shows. -/
def Private (env : Env W Freq) (id : Nat) {V : Type} (view : W → V) : Prop :=
  ∀ id' ≠ id, ∀ c w, view (env.behave id' c w).2 = view w

/-- The definition of a sub-model can be loaded. -/
def Definition.Good (f : Files Data) (dir : Option String) (d : Definition Data) : Prop :=
  (∃ n, d.filename = some n ∧ d.data = none ∧
    ∃ t, f.own (.file ((dir.map fun p => f.join p n).getD n)) = some t) ∨
  (∃ x, d.filename = none ∧ d.data = some x ∧ ∃ t, f.own (.data x) = some t)

/-- The source a definition names. -/
def Definition.Names (f : Files Data) (dir : Option String) (d : Definition Data) (s : Source Data) : Prop :=
  (∃ n, d.filename = some n ∧ d.data = none ∧ s = .file ((dir.map fun p => f.join p n).getD n)) ∨
  (∃ x, d.filename = none ∧ d.data = some x ∧ s = .data x)

end Verif.Coupled

import Verif.Spec.Run
/-! # Specification: running coupled models -/

namespace Verif.Run

open Verif.Timestepper

variable {W Freq : Type}

/-- A sub-model with the periods and components it runs with. -/
structure Sub (Freq : Type) where
  m : Mdl Freq
  P : List Period
  comps : List Nat

/-- Some sub-model needs setting up. -/
def AnyStale (subs : List (Sub Freq)) : Prop := ∃ s ∈ subs, s.m.Stale

/-- The coupled models can be run: as `Ready`, where all models are set up if any of them needs it. -/
structure MultiReady (env : Env W Freq) (subs : List (Sub Freq)) : Prop where
  nonempty : subs ≠ []
  order : ∀ s ∈ subs, s.m.order = some s.comps
  flat : ∀ s ∈ subs, s.m.flat = none ∨ s.m.flat = some s.comps
  periods : ∀ s ∈ subs, s.P ≠ []
  good : ∀ s ∈ subs, ∀ p ∈ s.P, GoodPeriod p
  shift : ∀ s ∈ subs, ∀ p, GoodPeriod p → GoodPeriod (env.pd.shift s.m.ts.freq p)
  stale : AnyStale subs → ∀ s ∈ subs, s.P = env.pd.periodRange s.m.ts.start s.m.ts.stop s.m.ts.freq
  fresh : ¬ AnyStale subs → ∀ s ∈ subs, s.P = s.m.ts.periods ∧ s.m.flat = some s.comps ∧
    s.m.ts.lastLength = some s.P.length

open Classical in
/-- The calls before the first timestep: model by model. -/
noncomputable def multiStart (subs : List (Sub Freq)) : List (Nat × Call) :=
  subs.flatMap fun s => tag s.m.id (if AnyStale subs then setupPlan s.m.graphNodes s.m.topNodes s.comps
    else resetPlan s.m.topNodes s.comps)

/-- The calls of round `k`: the complete timestep `k` of the first model, then of the second, and so on. -/
def roundPlan (subs : List (Sub Freq)) (k : Nat) : List (Nat × Call) :=
  subs.flatMap fun s => tag s.m.id (stepPlan s.m.graphNodes s.comps s.m.param k)

/-- The calls of the first `n` rounds. -/
def roundsPlan (subs : List (Sub Freq)) (n : Nat) : List (Nat × Call) := (List.range n).flatMap (roundPlan subs)

/-- The finish-hooks of all models; `curs` are the timesteps their timesteppers show. -/
def multiFinish : List (Sub Freq) → List (Option Nat) → List (Nat × Call)
  | s :: subs, c :: curs => tag s.m.id (finishPlan s.m.graphNodes s.comps c) ++ multiFinish subs curs
  | _, _ => []

/-- Every model has a timestep `k`, and they all start at the same instant. -/
def SameDate (subs : List (Sub Freq)) (k : Nat) : Prop := ∃ d, ∀ s ∈ subs, ∃ p, s.P[k]? = some p ∧ p.start = d

/-- Some model has no timestep `k`. -/
def Exhausted (subs : List (Sub Freq)) (k : Nat) : Prop := ∃ s ∈ subs, s.P.length ≤ k

end Verif.Run

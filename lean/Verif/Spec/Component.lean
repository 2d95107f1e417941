import Verif.Spec.Run
import Verif.Model.Recorders
/-! # Specification: a component that observes a run -/

namespace Verif.Run

variable {W Freq S O : Type}

/-- The hooks of a recorder. -/
inductive Ev
  | setup
  | reset
  | after (k : Nat)
  | finish (current : Option Nat)
deriving DecidableEq

/-- The hook of component `r` of model `id` that a call is, if any. -/
def evOf (id r : Nat) : Nat × Call → Option Ev
  | (i, .compSetup c) => if i = id ∧ c = r then some .setup else none
  | (i, .compReset c) => if i = id ∧ c = r then some .reset else none
  | (i, .compAfter c k) => if i = id ∧ c = r then some (.after k) else none
  | (i, .compFinish c cur) => if i = id ∧ c = r then some (.finish cur) else none
  | _ => none

/-- Component `r` of model `id` is the recorder `rec`: `st` is its state and `obs` what it can see when its after-hook is
called; `setup` may do anything, and no call of something else changes its state. -/
structure Observer (env : Env W Freq) (id r : Nat) (st : W → S) (obs : W → O) (rec : Rec S O) : Prop where
  reset : ∀ w, (env.behave id (.compReset r) w).1 = none → st (env.behave id (.compReset r) w).2 = rec.init
  after : ∀ w k, (env.behave id (.compAfter r k) w).1 = none →
    rec.after k (obs w) (st w) = some (st (env.behave id (.compAfter r k) w).2)
  finish : ∀ w cur, (env.behave id (.compFinish r cur) w).1 = none →
    rec.finish cur (st w) = some (st (env.behave id (.compFinish r cur) w).2)
  other : ∀ i c w, evOf id r (i, c) = none → st (env.behave i c w).2 = st w

/-- What the recorder sees in its after-hooks when the calls are made one after the other from world `w`. -/
def seen (env : Env W Freq) (id r : Nat) (obs : W → O) : W → List (Nat × Call) → List O
  | _, [] => []
  | w, (i, c) :: cs =>
    (match evOf id r (i, c) with
      | some (.after _) => [obs w]
      | _ => []) ++ seen env id r obs (env.behave i c w).2 cs

/-- The recorder's after-hooks of timesteps `k`, `k + 1`, … with observations `os`. -/
def Rec.fold (rec : Rec S O) : Nat → List O → S → Option S
  | _, [], s => some s
  | k, o :: os, s => (rec.after k o s).bind (rec.fold (k + 1) os)

/-- What the recorder holds after having been reset, called for timesteps `0`, `1`, … with observations `os`, and finished
while the timestepper shows `current` (`none`: a hook raised). -/
def Rec.result (rec : Rec S O) (os : List O) (current : Option Nat) : Option S :=
  (rec.fold 0 os rec.init).bind (rec.finish current)

end Verif.Run

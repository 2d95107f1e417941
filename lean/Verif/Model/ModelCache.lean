import Verif.Model.Optimisation
/-!
# Evaluations with a cached model

Models the cache of `/repo/pywr/optimisation/__init__.py:45-123` (`ModelCache`, `MODEL_CACHE`, `BaseOptimisationWrapper`, `clear_global_model_cache`) with
`PlatypusWrapper.evaluate` (`/repo/pywr/optimisation/platypus.py:115-154`): one model object is kept for each identifier and used for one evaluation after the other, in every
process of its own.

A document `J` gives a model with certain variable parameters; the rest of the state of a model object (volumes, memories, recorders …) is `H`. A run computes the results from the
document, the variables and that state, and leaves another state (also if it is given up half way, `none`).
-/

namespace Verif.ModelCache

open Verif.Opt

variable {J H R : Type}

/-- What models do: the variables and the state after `make_model` and `setup`, and `run` followed by reading off the objectives and constraints. `none`: an exception. -/
structure World (J H R : Type) where
  decl : J → List Var
  fresh : J → H
  run : J → List Var → H → Option R × H

/-- A cached model: `ModelCache.model` with the current values of its variables, and `variable_map`. -/
structure Cached (J H : Type) where
  doc : J
  vars : List Var
  map : List Nat
  state : H

/-- `BaseOptimisationWrapper`: `pywr_model_json` and `uid`. -/
structure Wrapper (J : Type) where
  doc : J
  uid : Nat

/-- `MODEL_CACHE` of one process. -/
abbrev Cache (J H : Type) := Nat → Option (Cached J H)

/-- `_cached` (`__init__.py:75-89`); `none`: a variable of size zero (`ValueError`), nothing is kept then. -/
def cached (W : World J H R) (c : Cache J H) (w : Wrapper J) : Option (Cached J H) :=
  match c w.uid with
  | some m => some m
  | none => (variableMap ((W.decl w.doc).map Var.size)).map fun map => ⟨w.doc, W.decl w.doc, map, W.fresh w.doc⟩

/-- The loop over the variables (`platypus.py:118-127`), which stops at the first failed assertion: the variables afterwards, and whether it went through. -/
def setUntil (map : List Nat) (x : List Rat) : Nat → List Var → List Var × Bool
  | _, [] => ([], true)
  | i, v :: vs =>
    match map[i]?, map[i + 1]? with
    | some a, some b =>
      match v.set (slice x a b) with
      | none => (v :: vs, false)
      | some v' =>
        let r := setUntil map x (i + 1) vs
        (v' :: r.1, r.2)
    | _, _ => (v :: vs, false)

/-- `evaluate`: the result (`none`: an exception) and the cache afterwards. -/
def evaluate (W : World J H R) (c : Cache J H) (w : Wrapper J) (x : List Rat) : Option R × Cache J H :=
  match cached W c w with
  | none => (none, c)
  | some m =>
    let s := setUntil m.map x 0 m.vars
    if s.2 = false then (none, fun u => if u = w.uid then some { m with vars := s.1 } else c u)
    else
      let r := W.run m.doc s.1 m.state
      (r.1, fun u => if u = w.uid then some { m with vars := s.1, state := r.2 } else c u)

/-- What happens to the caches of the processes. -/
inductive Event (J : Type)
  | evaluate (process : Nat) (w : Wrapper J) (x : List Rat)
  /-- `clear_global_model_cache` (`:119-123`). -/
  | clear (process : Nat)
  /-- A new process with a copy of the memory of another (`multiprocessing` with fork) or with an empty one (spawn). -/
  | fork (parent child : Nat)

/-- The caches after an event. -/
def step (W : World J H R) (caches : Nat → Cache J H) : Event J → Nat → Cache J H
  | .evaluate p w x => fun q => if q = p then (evaluate W (caches p) w x).2 else caches q
  | .clear p => fun q => if q = p then fun _ => none else caches q
  | .fork p p' => fun q => if q = p' then caches p else caches q

/-- The caches after events, all being empty at the beginning. -/
def after (W : World J H R) (es : List (Event J)) : Nat → Cache J H := es.foldl (step W) fun _ _ => none

end Verif.ModelCache

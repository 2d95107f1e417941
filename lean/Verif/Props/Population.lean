import Verif.Model.Population
import Verif.Props.Optimisation
/-!
# C66: the first population of an optimisation

Theorems about `Model/Population.lean`.
-/

namespace Verif.Opt

/-- What the call number `k` has to give. -/
def expected (wrapper useCurrent : Bool) (sols : List Given) (k : Nat) (vars : List (String × Var)) : Option Origin :=
  if wrapper = false then some .random
  else if useCurrent = true ∧ k = 0 then some (.values (current (vars.map Prod.snd)))
  else match sols[if useCurrent then k - 1 else k]? with
    | some s => (readGiven vars s).map fun q => .values (given (vars.map Prod.snd) q)
    | none => some .random

/-- The state after `k` calls that did not fail. -/
private def stateAt (wrapper useCurrent : Bool) (sols : List Given) (k : Nat) : Generator :=
  ⟨wrapper, useCurrent, sols, decide (wrapper = true ∧ useCurrent = true ∧ 0 < k), if wrapper = false then 0 else min (if useCurrent then k - 1 else k) sols.length⟩

private theorem generate_state {wrapper useCurrent : Bool} {sols : List Given} {k : Nat} {vars : List (String × Var)} :
    ((stateAt wrapper useCurrent sols k).generate vars).1 = expected wrapper useCurrent sols k vars ∧
      ((expected wrapper useCurrent sols k vars).isSome = true → ((stateAt wrapper useCurrent sols k).generate vars).2 = stateAt wrapper useCurrent sols (k + 1)) := by
  unfold Generator.generate expected stateAt
  cases wrapper
  · simp
  · cases useCurrent
    · simp only [Bool.true_eq_false, Bool.false_eq_true, false_and, and_false, decide_false, if_false, if_true, Bool.false_and]
      rcases Nat.lt_or_ge k sols.length with h | h
      · rw [Nat.min_eq_left h.le, List.getElem?_eq_getElem h]
        cases hr : readGiven vars sols[k] with
        | none => simp [hr]
        | some q =>
          simp [hr]
          omega
      · rw [Nat.min_eq_right h, List.getElem?_eq_none (le_refl _), List.getElem?_eq_none h]
        simp
        omega
    · cases k with
      | zero => simp
      | succ k =>
        simp only [Bool.true_eq_false, if_false, if_true, true_and, Nat.succ_ne_zero, Nat.add_sub_cancel, Nat.zero_lt_succ, decide_true, Bool.not_true, Bool.and_false, Bool.false_eq_true]
        rcases Nat.lt_or_ge k sols.length with h | h
        · rw [Nat.min_eq_left h.le, List.getElem?_eq_getElem h]
          cases hr : readGiven vars sols[k] with
          | none => simp [hr]
          | some q =>
            simp [hr]
            omega
        · rw [Nat.min_eq_right h, List.getElem?_eq_none (le_refl _), List.getElem?_eq_none h]
          simp
          omega

/-- The calls give the current values of the model first, if that is asked for, and once; then the given solutions in their order; then random ones.  Nothing but random ones without a wrapper. -/
theorem C66_population {wrapper useCurrent : Bool} {sols : Option (List Given)} {calls : List (List (String × Var))}
    (h : ∀ k vars, calls[k]? = some vars → (expected wrapper useCurrent (sols.getD []) k vars).isSome = true) (k : Nat) (vars : List (String × Var)) (hk : calls[k]? = some vars) :
    ((Generator.new wrapper useCurrent sols).population calls)[k]? = some (expected wrapper useCurrent (sols.getD []) k vars) := by
  have key : ∀ (calls : List (List (String × Var))) (j : Nat), (∀ k vars, calls[k]? = some vars → (expected wrapper useCurrent (sols.getD []) (j + k) vars).isSome = true) →
      ∀ k vars, calls[k]? = some vars → ((stateAt wrapper useCurrent (sols.getD []) j).population calls)[k]? = some (expected wrapper useCurrent (sols.getD []) (j + k) vars) := by
    intro calls
    induction calls with
    | nil => intro j _ k vars hk; simp at hk
    | cons c calls ih =>
      intro j h k vars hk
      have h0 := h 0 c rfl
      obtain ⟨e1, e2⟩ := generate_state (wrapper := wrapper) (useCurrent := useCurrent) (sols := sols.getD []) (k := j) (vars := c)
      unfold Generator.population
      cases k with
      | zero =>
        simp only [List.getElem?_cons_zero, Option.some.injEq] at hk ⊢
        rw [e1, hk]
        rfl
      | succ k =>
        rw [List.getElem?_cons_succ] at hk ⊢
        rw [e2 h0, ih (j + 1) (fun k vars hk => by
          have := h (k + 1) vars (by rw [List.getElem?_cons_succ]; exact hk)
          rwa [show j + 1 + k = j + (k + 1) by omega]) k vars hk]
        rw [show j + 1 + k = j + (k + 1) by omega]
  have e : Generator.new wrapper useCurrent sols = stateAt wrapper useCurrent (sols.getD []) 0 := by
    cases wrapper <;> cases useCurrent <;> simp [Generator.new, stateAt]
  rw [e]
  have := key calls 0 (by simpa using h) k vars hk
  simpa using this

/-- A given solution that cannot be read is tried again at every call: none of the later ones is used, and no random one. -/
theorem C66_unreadable {g : Generator} {vars : List (String × Var)} {s : Given} (hw : g.wrapper = true) (hd : g.useCurrent = true → g.done = true) (hs : g.solutions[g.pointer]? = some s)
    (hr : readGiven vars s = none) (n : Nat) : g.population (List.replicate n vars) = List.replicate n none := by
  have e : g.generate vars = (none, g) := by
    unfold Generator.generate
    rw [if_pos hw, if_neg, hs]
    · simp only [hr]
    · cases hu : g.useCurrent with
      | false => simp
      | true => simp [hd hu]
  induction n with
  | zero => rfl
  | succ n ih =>
    rw [List.replicate_succ, List.replicate_succ]
    unfold Generator.population
    rw [e, ih]

/-- The generated values for a readable solution are as many as the variables (so that platypus accepts them), each given under the name of its parameter. -/
theorem C66_given_read {vars : List (String × Var)} {s : Given} {q : List (List Rat × List Int)} (h : readGiven vars s = some q) :
    List.Forall₂ (fun (v : String × Var) (d : List Rat × List Int) => d.1.length = v.2.dsize ∧ d.2.length = v.2.isize ∧
      (0 < v.2.dsize → ∃ ds ns, s.lookup v.1 = some (ds, ns) ∧ ds = some d.1) ∧ (0 < v.2.isize → ∃ ds ns, s.lookup v.1 = some (ds, ns) ∧ ns = some d.2)) vars q := by
  have ent : ∀ {α : Type} {n : Nat} {v : Option (List α)} {l : List α}, entry n v = some l → l.length = n ∧ (0 < n → v = some l) := by
    intro α n v l h
    unfold entry at h
    by_cases hn : n > 0
    · rw [if_pos hn] at h
      obtain ⟨l', h1, h2⟩ := Option.bind_eq_some_iff.1 h
      split at h2
      · rename_i hl
        cases h2
        exact ⟨hl, fun _ => h1⟩
      · cases h2
    · rw [if_neg hn] at h
      cases h
      exact ⟨by simp at hn ⊢; omega, fun h => absurd h hn⟩
  induction vars generalizing q with
  | nil => cases h; exact .nil
  | cons v vs ih =>
    obtain ⟨name, v⟩ := v
    unfold readGiven at h
    by_cases hv : v.dsize > 0 ∨ v.isize > 0
    · simp only [if_pos hv, Option.bind_eq_bind, Option.pure_def] at h
      obtain ⟨⟨ds, ns⟩, h1, h⟩ := Option.bind_eq_some_iff.1 h
      obtain ⟨d, h2, h⟩ := Option.bind_eq_some_iff.1 h
      obtain ⟨n, h3, h⟩ := Option.bind_eq_some_iff.1 h
      obtain ⟨rest, h4, h⟩ := Option.bind_eq_some_iff.1 h
      cases h
      exact .cons ⟨(ent h2).1, (ent h3).1, fun hd => ⟨ds, ns, h1, (ent h2).2 hd⟩, fun hd => ⟨ds, ns, h1, (ent h3).2 hd⟩⟩ (ih h4)
    · simp only [if_neg hv, Option.bind_eq_bind, Option.pure_def] at h
      obtain ⟨rest, h4, h⟩ := Option.bind_eq_some_iff.1 h
      cases h
      push Not at hv
      exact .cons ⟨by simp; omega, by simp; omega, fun hd => absurd hd (by show ¬ 0 < v.dsize; omega), fun hd => absurd hd (by show ¬ 0 < v.isize; omega)⟩ (ih h4)

/-- Two parameters, one of doubles and one of integers. -/
def twoVars : List (String × Var) := [("release", ⟨2, 0, [1, 2], [], [⟨some 0, some 5⟩, ⟨some 0, some 5⟩], []⟩), ("month", ⟨0, 1, [], [4], [], [⟨some 1, some 12⟩]⟩)]

/-- The current values, a given solution (with a value beyond its bounds), and a random one. -/
example : (Generator.new true true (some [[("month", (none, some [13])), ("release", (some [3, 4], none))]])).population (List.replicate 4 twoVars) =
    [some (.values [1, 2, 4]), some (.values [3, 4, 12]), some .random, some .random] ∧
    (∀ k vars, (List.replicate 4 twoVars)[k]? = some vars → (expected true true [[("month", (none, some [13])), ("release", (some [3, 4], none))]] k vars).isSome = true) := by
  refine ⟨by decide +kernel, ?_⟩
  intro k vars hk
  have hk' : vars = twoVars := by
    have := List.mem_of_getElem? hk
    exact List.eq_of_mem_replicate this
  subst hk'
  unfold expected
  simp only [Bool.true_eq_false, if_false, true_and, if_true]
  split
  · rfl
  · rcases k with _ | _ | k <;> simp <;> decide +kernel

/-- A solution without the month. -/
example : (Generator.new true false (some [[("release", (some [3, 4], none))], [("month", (none, some [13])), ("release", (some [3, 4], none))]])).population (List.replicate 3 twoVars) = [none, none, none] := by
  decide +kernel

end Verif.Opt

import Verif.Model.SolverOptions
import Mathlib.Data.List.GetD
import Mathlib.Data.List.Nodup
import Mathlib.Tactic.Tauto
/-!
# Solver choice and options (C56)
-/

namespace Verif.SolverOptions

/-- The spellings of a true environment value: `1`, or `true` with each letter in either case. -/
def Truthy (s : String) : Prop :=
  s = "1" ∨ ∃ a b c d, s = String.ofList [a, b, c, d] ∧ (a = 't' ∨ a = 'T') ∧ (b = 'r' ∨ b = 'R') ∧ (c = 'u' ∨ c = 'U') ∧
    (d = 'e' ∨ d = 'E')

/-- The options of the solvers. -/
def options : List String :=
  ["save_routes_flows", "retry_solve", "use_presolve", "time_limit", "iteration_limit", "message_level", "use_unsafe_api", "set_fixed_costs_once", "set_fixed_factors_once", "set_fixed_flows_once"]

open Classical in
/-- The value an option should have: the explicit keyword, else the environment, else off. -/
noncomputable def effective {V : Type} (ofBool : Bool → V) (explicit : Option V) (environment : Option String) : V :=
  match explicit, environment with
  | some v, _ => v
  | none, some s => ofBool (decide (Truthy s))
  | none, none => ofBool false

private theorem lower_eq (c l u : Char) (hl : l.toLower = l) (hu : u.toLower = l) (hval : l.val = u.val + 32) :
    c.toLower = l ↔ c = l ∨ c = u := by
  constructor
  · intro h
    unfold Char.toLower at h
    split at h
    · right
      have h2 := congrArg Char.val h
      simp only at h2
      apply Char.ext
      have h3 : ('a'.val - 'A'.val) = 32 := by decide
      rw [h3, hval] at h2
      have := congrArg (· - 32) h2
      simpa using this
    · exact Or.inl h
  · rintro (rfl | rfl) <;> assumption

private theorem truthy_iff (s : String) : (s == "1" || s.toLower == "true") = true ↔ Truthy s := by
  unfold Truthy
  simp only [Bool.or_eq_true, beq_iff_eq]
  apply or_congr Iff.rfl
  have h1 : s.toLower = "true" ↔ s.toList.map Char.toLower = ['t', 'r', 'u', 'e'] := by
    rw [← String.toList_inj]
    unfold String.toLower
    rw [String.toList_map]
    rfl
  rw [h1]
  constructor
  · intro h
    obtain ⟨a, b, c, d, hs⟩ : ∃ a b c d, s.toList = [a, b, c, d] := by
      have hlen : s.toList.length = 4 := by simpa using congrArg List.length h
      revert hlen
      generalize s.toList = l
      rcases l with _ | ⟨a, _ | ⟨b, _ | ⟨c, _ | ⟨d, _ | ⟨e, l⟩⟩⟩⟩⟩ <;> intro hlen <;>
        simp only [List.length_cons, List.length_nil] at hlen <;> first | omega | exact ⟨a, b, c, d, rfl⟩
    · rw [hs] at h
      simp only [List.map_cons, List.map_nil, List.cons.injEq, and_true] at h
      refine ⟨a, b, c, d, by rw [← hs, String.ofList_toList], ?_⟩
      rw [lower_eq a 't' 'T' (by decide) (by decide) (by decide), lower_eq b 'r' 'R' (by decide) (by decide) (by decide),
        lower_eq c 'u' 'U' (by decide) (by decide) (by decide), lower_eq d 'e' 'E' (by decide) (by decide) (by decide)] at h
      exact h
  · rintro ⟨a, b, c, d, rfl, ha, hb, hc, hd⟩
    rw [String.toList_ofList]
    simp only [List.map_cons, List.map_nil, List.cons.injEq, and_true]
    exact ⟨(lower_eq a 't' 'T' (by decide) (by decide) (by decide)).2 ha, (lower_eq b 'r' 'R' (by decide) (by decide) (by decide)).2 hb,
      (lower_eq c 'u' 'U' (by decide) (by decide) (by decide)).2 hc, (lower_eq d 'e' 'E' (by decide) (by decide) (by decide)).2 hd⟩

private theorem lookup_append {V : Type} (k : String) (l m : Kwargs V) :
    (l ++ m).lookup k = (l.lookup k).or (m.lookup k) := by
  induction l with
  | nil => rfl
  | cons e l ih =>
    obtain ⟨a, v⟩ := e
    simp only [List.cons_append, List.lookup_cons]
    cases k == a
    · exact ih
    · rfl

private theorem parse_other {V : Type} (ofBool : Bool → V) (env : String → Option String) (k name k' : String) (kwargs : Kwargs V)
    (h : (k' == k) = false) : (parseEnvBool ofBool env k name kwargs).lookup k' = kwargs.lookup k' := by
  unfold parseEnvBool
  split
  · rfl
  · cases env name with
    | none => rfl
    | some v => simp only [lookup_append, List.lookup_cons, h, List.lookup_nil, Option.or_none]

private theorem parse_same {V : Type} (ofBool : Bool → V) (env : String → Option String) (k name : String) (kwargs : Kwargs V) :
    ((parseEnvBool ofBool env k name kwargs).lookup k).getD (ofBool false) = effective ofBool (kwargs.lookup k) (env name) := by
  unfold parseEnvBool effective
  cases hk : kwargs.lookup k with
  | some v => simp [hk]
  | none =>
    simp only [Option.isSome_none, Bool.false_eq_true, if_false]
    cases env name with
    | none => simp [hk]
    | some s =>
      simp only [lookup_append, hk, Option.none_or, List.lookup_cons, beq_self_eq_true, Option.getD_some]
      congr 1
      rw [Bool.eq_iff_iff, truthy_iff]
      exact (@decide_eq_true_iff _ (Classical.propDecidable _)).symm

private theorem parse_all {V : Type} (ofBool : Bool → V) (env : String → Option String) (k name : String) (kwargs : Kwargs V)
    (p : String → Bool) (hp : p k = true) :
    ((parseEnvBool ofBool env k name kwargs).all fun e => p e.1) = kwargs.all fun e => p e.1 := by
  unfold parseEnvBool
  split
  · rfl
  · cases env name with
    | none => rfl
    | some v => simp [List.all_append, hp]

/-- **C56 (options).** Creating a GLPK solver fails exactly when a keyword argument is not one of the solver's — whatever the
environment contains —, and otherwise each of the four switches has the value of its keyword argument, or else of its own environment
variable (on for `1` and `true` in any case, off for every other text), or else is off. -/
theorem C56_options {V : Type} (ofBool : Bool → V) (env : String → Option String) (kwargs : Kwargs V) :
    ((∃ e ∈ kwargs, e.1 ∉ options) → glpk ofBool env kwargs = none) ∧
    ((∀ e ∈ kwargs, e.1 ∈ options) → glpk ofBool env kwargs = some {
      setFixedFlowsOnce := effective ofBool (kwargs.lookup "set_fixed_flows_once") (env "PYWR_SOLVER_GLPK_FIXED_FLOWS_ONCE")
      setFixedCostsOnce := effective ofBool (kwargs.lookup "set_fixed_costs_once") (env "PYWR_SOLVER_GLPK_FIXED_COSTS_ONCE")
      setFixedFactorsOnce := effective ofBool (kwargs.lookup "set_fixed_factors_once") (env "PYWR_SOLVER_GLPK_FIXED_FACTORS_ONCE")
      useUnsafeApi := effective ofBool (kwargs.lookup "use_unsafe_api") (env "PYWR_SOLVER_GLPK_UNSAFE_API") }) := by
  have hacc : ∀ k : String, k ∈ options ↔ k ∈ accepted := by
    intro k
    simp only [options, accepted, List.mem_cons, List.not_mem_nil, or_false]
    tauto
  simp only [hacc]
  have hall : ((glpkKwargs ofBool env kwargs).all fun e => accepted.contains e.1) = kwargs.all fun e => accepted.contains e.1 := by
    unfold glpkKwargs
    rw [parse_all _ _ _ _ _ accepted.contains (by decide +kernel), parse_all _ _ _ _ _ accepted.contains (by decide +kernel),
      parse_all _ _ _ _ _ accepted.contains (by decide +kernel), parse_all _ _ _ _ _ accepted.contains (by decide +kernel)]
  constructor
  · rintro ⟨e, he, hn⟩
    unfold glpk
    simp only [hall]
    rw [if_neg]
    intro h
    rw [List.all_eq_true] at h
    exact hn (List.contains_iff_mem.1 (h e he))
  · intro h
    unfold glpk
    simp only [hall]
    rw [if_pos (List.all_eq_true.2 fun e he => List.contains_iff_mem.2 (h e he))]
    unfold glpkKwargs
    simp only [Option.some.injEq, Glpk.mk.injEq]
    refine ⟨?_, ?_, ?_, ?_⟩
    · rw [parse_other _ _ _ _ _ _ (by decide +kernel), parse_other _ _ _ _ _ _ (by decide +kernel), parse_other _ _ _ _ _ _ (by decide +kernel), parse_same]
    · rw [parse_other _ _ _ _ _ _ (by decide +kernel), parse_other _ _ _ _ _ _ (by decide +kernel), parse_same, parse_other _ _ _ _ _ _ (by decide +kernel)]
    · rw [parse_other _ _ _ _ _ _ (by decide +kernel), parse_same, parse_other _ _ _ _ _ _ (by decide +kernel), parse_other _ _ _ _ _ _ (by decide +kernel)]
    · rw [parse_same, parse_other _ _ _ _ _ _ (by decide +kernel), parse_other _ _ _ _ _ _ (by decide +kernel), parse_other _ _ _ _ _ _ (by decide +kernel)]

/-- One keyword given, one variable set to a true value, one to a text that is not recognised. -/
example : (glpk (fun b => b) (fun n => if n = "PYWR_SOLVER_GLPK_FIXED_FLOWS_ONCE" then some "TruE"
      else if n = "PYWR_SOLVER_GLPK_FIXED_COSTS_ONCE" then some "yes" else if n = "PYWR_SOLVER_GLPK_UNSAFE_API" then some "1" else none)
    [("use_unsafe_api", false)]).map (fun g => (g.setFixedFlowsOnce, g.setFixedCostsOnce, g.setFixedFactorsOnce, g.useUnsafeApi)) =
    some (true, false, false, false) := by decide +kernel

/-! ## Choice of the class -/

private theorem search_spec (lower : String → String) (name : String) : ∀ (registry : List String) (i : Nat) (found : Option Nat),
    (search lower name i registry found = found ∧ ∀ n ∈ registry, lower n ≠ lower name) ∨
    ∃ j, ∃ h : j < registry.length, search lower name i registry found = some (i + j) ∧ lower registry[j] = lower name := by
  intro registry
  induction registry with
  | nil => intro i found; exact Or.inl ⟨rfl, by simp⟩
  | cons c rest ih =>
    intro i found
    rw [search]
    rcases ih (i + 1) (if lower name = lower c then some i else found) with ⟨h1, h2⟩ | ⟨j, hj, h1, h2⟩
    · by_cases hc : lower name = lower c
      · rw [if_pos hc] at h1 ⊢
        exact Or.inr ⟨0, by simp, by rw [h1]; rfl, by simpa using hc.symm⟩
      · rw [if_neg hc] at h1 ⊢
        refine Or.inl ⟨h1, ?_⟩
        intro n hn
        rcases List.mem_cons.1 hn with rfl | hn
        · exact fun e => hc e.symm
        · exact h2 n hn
    · exact Or.inr ⟨j + 1, by simpa using hj, by rw [h1]; congr 1; omega, by simpa using h2⟩

/-- The name asked for: the argument, else the environment. -/
def requested (solver environment : Option String) : Option String := solver.or environment

/-- **C56 (choice).** The solver asked for — by the argument, or else by the environment — is used when a registered solver has that
name up to case, and is refused otherwise; with no name given the first registered solver is used. When the registered names differ by more
than case, the solver used is the only one with that name. -/
theorem C56_choice (lower : String → String) (env : String → Option String) (registry : List String) (solver : Option String)
    (hdistinct : (registry.map lower).Nodup) (hne : registry ≠ []) :
    (∀ name, requested solver (env "PYWR_SOLVER") = some name →
      (∀ i, choose lower env registry solver = .cls i ↔ ∃ h : i < registry.length, lower registry[i] = lower name) ∧
      (choose lower env registry solver = .unrecognised ↔ ∀ n ∈ registry, lower n ≠ lower name)) ∧
    (requested solver (env "PYWR_SOLVER") = none → choose lower env registry solver = .cls 0) := by
  have hname : solverName env solver = requested solver (env "PYWR_SOLVER") := by
    cases solver <;> rfl
  unfold choose
  rw [hname]
  constructor
  · intro name h
    rw [h]
    simp only
    rcases search_spec lower name registry 0 none with ⟨h1, h2⟩ | ⟨j, hj, h1, h2⟩
    · rw [h1]
      refine ⟨fun i => ⟨by simp, ?_⟩, by simpa using h2⟩
      rintro ⟨hi, he⟩
      exact absurd he (h2 _ (List.getElem_mem hi))
    · rw [h1]
      refine ⟨fun i => ?_, ?_⟩
      · simp only [Choice.cls.injEq, Nat.zero_add]
        constructor
        · rintro rfl; exact ⟨hj, h2⟩
        · rintro ⟨hi, he⟩
          have := (List.Nodup.getElem_inj_iff hdistinct (i := j) (j := i) (hi := by simpa using hj) (hj := by simpa using hi)).1
            (by rw [List.getElem_map, List.getElem_map, h2, he])
          exact this
      · simp only [reduceCtorEq, false_iff]
        intro hall
        exact hall _ (List.getElem_mem hj) h2
  · intro h
    rw [h]
    simp [hne]

/-- Lower case on the names used in the example (evaluating `String.toLower` in the kernel takes minutes). -/
private def lowerName (s : String) : String := if s = "LPSOLVE" then "lpsolve" else if s = "GLPK-Edge" then "glpk-edge" else s

example : choose lowerName (fun _ => some "LPSOLVE") ["glpk", "glpk-edge", "lpsolve"] none = .cls 2 ∧
    choose lowerName (fun _ => some "LPSOLVE") ["glpk", "glpk-edge", "lpsolve"] (some "GLPK-Edge") = .cls 1 ∧
    choose lowerName (fun _ => some "other") ["glpk", "glpk-edge", "lpsolve"] none = .unrecognised ∧
    choose lowerName (fun _ => none) ["glpk", "glpk-edge", "lpsolve"] none = .cls 0 := by decide +kernel

/-- **C56 (documents), partial.** Loading a document, the solver named in the call is used, or else the one named in the document, or
else the environment or the default; the options are those of the call when it names the solver or the document has no solver section, and
those of the document when the call gives neither. Missing: options given in the call together with a document that names the solver
(`C56_arguments_fails`). -/
theorem C56_document_partial {V : Type} (solver : Option String) (args : Option (Kwargs V)) (document : Option (String × Kwargs V)) :
    (loadSolver solver args document).1 = solver.or (document.map Prod.fst) ∧
    (solver.isSome ∨ document = none → (loadSolver solver args document).2 = args.getD []) ∧
    (∀ d, solver = none → document = some d → args = none → (loadSolver solver args document).2 = d.2) := by
  cases solver with
  | some s => exact ⟨by cases document <;> rfl, fun _ => rfl, by intro d h; cases h⟩
  | none =>
    cases document with
    | none => exact ⟨rfl, fun _ => rfl, by intro d _ h; cases h⟩
    | some d =>
      refine ⟨rfl, fun h => ?_, fun d' _ h _ => ?_⟩
      · rcases h with h | h <;> cases h
      · cases h; rfl

/-- **C56 fails for options given when loading.** An option passed to `Model.load` in `solver_args` is discarded when the document has a
solver section, even if the section sets no option: the solver is created as if it had not been given. -/
theorem C56_arguments_fails : ∃ (args : Kwargs Bool) (document : String × Kwargs Bool),
    args.lookup "use_unsafe_api" = some true ∧ document.2 = [] ∧
    (glpk (fun b => b) (fun _ => none) (loadSolver none (some args) (some document)).2).map Glpk.useUnsafeApi = some false ∧
    (glpk (fun b => b) (fun _ => none) args).map Glpk.useUnsafeApi = some true :=
  ⟨[("use_unsafe_api", true)], ("glpk", []), by decide +kernel⟩

end Verif.SolverOptions

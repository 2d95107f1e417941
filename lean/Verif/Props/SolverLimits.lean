import Verif.Model.SolverLimits

/-! # C56 (limits and messages): what the simplex method is called with -/

namespace Verif.SolverLimits

/-- **C56 (values of options).** A solver is made exactly when the message level is not given or one of the five; the limits are those given, otherwise GLPK's own,
and the level is the one named, that of errors when none is named. -/
theorem C56_limits_created (time iterations : Option Int) (level : Option String) :
    ((create time iterations level).isSome ↔ level.getD "error" ∈ ["off", "error", "normal", "all", "debug"]) ∧
    ∀ s, create time iterations level = some s →
      s.time = time.getD 2147483647 ∧ s.iterations = iterations.getD 2147483647 ∧
      (s.level = 0 ↔ level = some "off") ∧ (s.level = 1 ↔ level = none ∨ level = some "error") ∧ (s.level = 2 ↔ level = some "normal") ∧
      (s.level = 3 ↔ level = some "all") ∧ (s.level = 4 ↔ level = some "debug") := by
  have key : ∀ n : String, levels.lookup n = if n = "off" then some 0 else if n = "error" then some 1 else if n = "normal" then some 2 else
      if n = "all" then some 3 else if n = "debug" then some 4 else none := by
    intro n
    simp only [levels, List.lookup, beq_iff_eq]
    repeat' split
    all_goals simp_all
  unfold create
  rw [key]
  constructor
  · by_cases h0 : level.getD "error" = "off"
    · simp [h0]
    by_cases h1 : level.getD "error" = "error"
    · simp [h1]
    by_cases h2 : level.getD "error" = "normal"
    · simp [h2]
    by_cases h3 : level.getD "error" = "all"
    · simp [h3]
    by_cases h4 : level.getD "error" = "debug"
    · simp [h4]
    simp [h0, h1, h2, h3, h4]
  · intro s hs
    cases level with
    | none =>
      simp at hs
      subst hs
      cases time <;> cases iterations <;> simp [init]
    | some l =>
      simp only [Option.getD_some] at hs
      by_cases h0 : l = "off"
      · subst h0; simp at hs; subst hs; cases time <;> cases iterations <;> simp [init]
      by_cases h1 : l = "error"
      · subst h1; simp at hs; subst hs; cases time <;> cases iterations <;> simp [init]
      by_cases h2 : l = "normal"
      · subst h2; simp at hs; subst hs; cases time <;> cases iterations <;> simp [init]
      by_cases h3 : l = "all"
      · subst h3; simp at hs; subst hs; cases time <;> cases iterations <;> simp [init]
      by_cases h4 : l = "debug"
      · subst h4; simp at hs; subst hs; cases time <;> cases iterations <;> simp [init]
      simp [h0, h1, h2, h3, h4] at hs

private theorem scenario_spec (retry : Bool) (ok : Nat → Bool) (s : Smcp) :
    (∀ c ∈ (scenario retry ok s).1, c = s ∨ c = { s with level := 4 }) ∧
    ((scenario retry ok s).2.1 = true → (∀ c ∈ (scenario retry ok s).1, c = s) ∧ (scenario retry ok s).2.2 = s) ∧
    ((scenario retry ok s).2.1 = false → (scenario retry ok s).2.2 = { s with level := 4 }) := by
  unfold scenario debug
  cases h0 : ok 0 <;> cases retry <;> cases h1 : ok 1 <;> simp

private theorem solve_spec (retry : Bool) (oks : List (Nat → Bool)) (s : Smcp) :
    (∀ c ∈ (solve retry oks s).1, c = s ∨ c = { s with level := 4 }) ∧
    ((solve retry oks s).2.1 = true → (∀ c ∈ (solve retry oks s).1, c = s) ∧ (solve retry oks s).2.2 = s) ∧
    ((solve retry oks s).2.1 = false → (solve retry oks s).2.2 = { s with level := 4 }) := by
  induction oks with
  | nil => simp [solve]
  | cons ok oks ih =>
    obtain ⟨a1, a2, a3⟩ := scenario_spec retry ok s
    unfold solve
    by_cases h : (scenario retry ok s).2.1 = true
    · obtain ⟨b1, b2⟩ := a2 h
      obtain ⟨c1, c2, c3⟩ := ih
      simp only [h, if_true, b2]
      refine ⟨?_, ?_, c3⟩
      · intro c hc
        rcases List.mem_append.1 hc with hc | hc
        · exact .inl (b1 c hc)
        · exact c1 c hc
      · intro hr
        refine ⟨?_, (c2 hr).2⟩
        intro c hc
        rcases List.mem_append.1 hc with hc | hc
        · exact b1 c hc
        · exact (c2 hr).1 c hc
    · simp only [h, if_false]
      exact ⟨a1, fun hr => absurd hr h, a3⟩

/-- The parameters are those given, up to the level of messages. -/
private theorem history_limits (retry : Bool) (es : List Ev) (s : Smcp) :
    ∀ x ∈ history retry es s, ∀ c ∈ x.1, c = s ∨ c = { s with level := 4 } := by
  induction es generalizing s with
  | nil => simp [history]
  | cons e es ih =>
    cases e with
    | setup => intro x hx; rcases List.mem_cons.1 hx with rfl | hx; · simp
               exact ih s x hx
    | reset => intro x hx; rcases List.mem_cons.1 hx with rfl | hx; · simp
               exact ih s x hx
    | solve oks =>
      obtain ⟨a1, a2, a3⟩ := solve_spec retry oks s
      intro x hx
      rcases List.mem_cons.1 hx with rfl | hx
      · exact a1
      · intro c hc
        cases h : (solve retry oks s).2.1 with
        | true => have := ih _ x hx c hc; rwa [(a2 h).2] at this
        | false =>
          have := ih _ x hx c hc
          rw [a3 h] at this
          exact .inr (this.elim id id)

/-- **C56 (limits).** In every history of setting up, resetting and solving, whatever fails, every call of the simplex method is made with the limits the solver
was made with. -/
theorem C56_limits (retry : Bool) (es : List Ev) (s : Smcp) :
    ∀ x ∈ history retry es s, ∀ c ∈ x.1, c.time = s.time ∧ c.iterations = s.iterations := by
  intro x hx c hc
  rcases history_limits retry es s x hx c hc with rfl | rfl <;> simp

/-- **C56 (messages), part.** Up to the first solve that fails, every call is made with the level of messages the solver was made with. -/
theorem C56_messages_partial (retry : Bool) (es : List Ev) (s : Smcp) (n : Nat) (hn : n < (history retry es s).length)
    (hok : ∀ (k : Nat) (hk : k ≤ n), ((history retry es s)[k]).2 = true) : ∀ c ∈ ((history retry es s)[n]).1, c.level = s.level := by
  induction es generalizing n s with
  | nil => simp [history] at hn
  | cons e es ih =>
    cases e with
    | setup =>
      cases n with
      | zero => simp [history]
      | succ n => exact ih s n (by simpa [history] using hn) fun k hk => by simpa [history] using hok (k + 1) (by omega)
    | reset =>
      cases n with
      | zero => simp [history]
      | succ n => exact ih s n (by simpa [history] using hn) fun k hk => by simpa [history] using hok (k + 1) (by omega)
    | solve oks =>
      obtain ⟨-, a2, -⟩ := solve_spec retry oks s
      have h0 : (solve retry oks s).2.1 = true := by simpa [history] using hok 0 (Nat.zero_le _)
      cases n with
      | zero => intro c hc; rw [(a2 h0).1 c (by simpa [history] using hc)]
      | succ n =>
        have e : history retry (.solve oks :: es) s = ((solve retry oks s).1, (solve retry oks s).2.1) :: history retry es s := by
          simp only [history, (a2 h0).2]
        simp only [e, List.getElem_cons_succ] at hok ⊢
        exact ih s n (by simpa [e] using hn) fun k hk => by simpa using hok (k + 1) (by omega)

/-- **C56 fails for messages after a solve that failed**: whatever level was given, and whether or not the solver is set up or reset in between, all later calls are made with
the level for debugging. -/
theorem C56_messages_fails (retry : Bool) (oks : List (Nat → Bool)) (es : List Ev) (s : Smcp) (h : (solve retry oks s).2.1 = false) :
    ∀ x ∈ (history retry (.solve oks :: es) s).tail, ∀ c ∈ x.1, c.level = 4 := by
  intro x hx c hc
  have hx : x ∈ history retry es (solve retry oks s).2.2 := hx
  rw [(solve_spec retry oks s).2.2 h] at hx
  rcases history_limits retry es _ x hx c hc with rfl | rfl <;> rfl

/-- No messages, ten seconds; a solve of two scenarios that fails in the second, a setup, a solve that succeeds. -/
example : create (some 10000) none (some "off") = some ⟨0, 10000, 2147483647⟩ ∧
    history false [.solve [fun _ => true, fun _ => false], .setup, .solve [fun _ => true]] ⟨0, 10000, 2147483647⟩ =
      [([⟨0, 10000, 2147483647⟩, ⟨0, 10000, 2147483647⟩, ⟨4, 10000, 2147483647⟩], false), ([], true), ([⟨4, 10000, 2147483647⟩], true)] ∧
    create none none (some "loud") = none := by decide +kernel

end Verif.SolverLimits

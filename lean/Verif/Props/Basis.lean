import Verif.Model.Basis
import Mathlib.Data.List.Nodup
import Mathlib.Algebra.Order.Field.Rat
/-! # C85: no scenario feels another through the solver -/

namespace Verif.Basis

variable {P B X : Type}

/-- One solve of one scenario, from the basis `b` kept for it. -/
private def core (g : Glpk P B X) (o : Options) (p : P) (first smcp : Bool) (b : B) : Option (X × B) :=
  let r := g.simplex smcp p (if first then g.adv p else g.install p b)
  let r := if !r.optimal && o.retry then g.simplex smcp p (g.std p) else r
  if !r.optimal then none else some (r.flows, r.basis)

/-- The basis a solve starts from. -/
private def start (g : Glpk P B X) (p : P) (st : St B) (id : Nat) : B := if st.first then g.adv p else g.install p (st.table id)

private theorem solveScenario_spec (g : Glpk P B X) (o : Options) (p : P) (st : St B) (id : Nat) :
    (solveScenario g o p st id).1 = (core g o p st.first st.smcp (st.table id)).map (·.1) ∧
    ∀ x b, core g o p st.first st.smcp (st.table id) = some (x, b) →
      (solveScenario g o p st id).2 = { st with table := fun i => if i = id then b else st.table i, current := b } := by
  have hc : core g o p st.first st.smcp (st.table id) =
      (if !(if !(g.simplex st.smcp p (start g p st id)).optimal && o.retry then g.simplex st.smcp p (g.std p)
          else g.simplex st.smcp p (start g p st id)).optimal then none
        else some ((if !(g.simplex st.smcp p (start g p st id)).optimal && o.retry then g.simplex st.smcp p (g.std p)
            else g.simplex st.smcp p (start g p st id)).flows,
          (if !(g.simplex st.smcp p (start g p st id)).optimal && o.retry then g.simplex st.smcp p (g.std p)
            else g.simplex st.smcp p (start g p st id)).basis)) := rfl
  have hs : setBasis g p st id = { st with current := start g p st id } := rfl
  rw [hc]
  unfold solveScenario
  rw [hs]
  simp only [simplex]
  generalize start g p st id = b0
  rcases Bool.eq_false_or_eq_true (!(g.simplex st.smcp p b0).optimal && o.retry) with h1 | h1
  · simp only [h1, if_true]
    rcases Bool.eq_false_or_eq_true (g.simplex st.smcp p (g.std p)).optimal with h2 | h2
    · simp only [h2, Bool.not_true, Bool.false_eq_true, if_false]
      exact ⟨rfl, fun x b h => by cases h; rfl⟩
    · simp only [h2, Bool.not_false, if_true]
      exact ⟨rfl, fun x b h => by cases h⟩
  · simp only [h1, Bool.false_eq_true, if_false]
    rcases Bool.eq_false_or_eq_true (g.simplex st.smcp p b0).optimal with h2 | h2
    · simp only [h2, Bool.not_true, Bool.false_eq_true, if_false]
      exact ⟨rfl, fun x b h => by cases h; rfl⟩
    · simp only [h2, Bool.not_false, if_true]
      exact ⟨rfl, fun x b h => by cases h⟩

private theorem solveScenario_fst (g : Glpk P B X) (o : Options) (p : P) (st : St B) (id : Nat) :
    (solveScenario g o p st id).1 = (core g o p st.first st.smcp (st.table id)).map (·.1) := (solveScenario_spec g o p st id).1

private theorem solveScenario_snd (g : Glpk P B X) (o : Options) (p : P) (st : St B) (id : Nat) (x : X) (b : B)
    (h : core g o p st.first st.smcp (st.table id) = some (x, b)) :
    (solveScenario g o p st id).2 = { st with table := fun i => if i = id then b else st.table i, current := b } :=
  (solveScenario_spec g o p st id).2 x b h

private theorem loop_spec (g : Glpk P B X) (o : Options) (ps : Nat → P) (ids : List Nat) (hn : ids.Nodup) (st : St B) :
    (∀ l, (loop g o ps ids st).1 = some l →
      (loop g o ps ids st).2.first = st.first ∧ (loop g o ps ids st).2.presolved = st.presolved ∧
      (∀ s, s ∉ ids → (loop g o ps ids st).2.table s = st.table s) ∧ (∀ q ∈ l, q.1 ∈ ids) ∧
      ∀ s ∈ ids, ∃ x, (l.filter fun q => q.1 == s).map (·.2) = [x] ∧
        core g o (ps s) st.first st.smcp (st.table s) = some (x, (loop g o ps ids st).2.table s)) ∧
    ((∀ s ∈ ids, (core g o (ps s) st.first st.smcp (st.table s)).isSome) → (loop g o ps ids st).1.isSome) := by
  induction ids generalizing st with
  | nil =>
    refine ⟨fun l hl => ?_, fun _ => rfl⟩
    cases hl
    exact ⟨rfl, rfl, fun _ _ => rfl, fun q hq => absurd hq (by simp), fun s hs => absurd hs (by simp)⟩
  | cons id ids ih =>
    obtain ⟨hid, hn⟩ := List.nodup_cons.1 hn
    cases hc : core g o (ps id) st.first st.smcp (st.table id) with
    | none =>
      constructor
      · intro l hl
        unfold loop at hl
        have hx : (solveScenario g o (ps id) st id).1 = none := by rw [solveScenario_fst, hc]; rfl
        simp only [hx] at hl
        cases hl
      · intro h
        have := h id List.mem_cons_self
        rw [hc] at this
        cases this
    | some xb =>
      obtain ⟨x, b⟩ := xb
      have h1 : (solveScenario g o (ps id) st id).1 = some x := by rw [solveScenario_fst, hc]; rfl
      have h2 := solveScenario_snd g o (ps id) st id x b hc
      obtain ⟨ih1, ih2⟩ := ih hn (solveScenario g o (ps id) st id).2
      have ht : ∀ s, s ≠ id → (solveScenario g o (ps id) st id).2.table s = st.table s := by
        intro s hs; rw [h2]; simp [hs]
      have hf : (solveScenario g o (ps id) st id).2.first = st.first := by rw [h2]
      have hsm : (solveScenario g o (ps id) st id).2.smcp = st.smcp := by rw [h2]
      have hpr : (solveScenario g o (ps id) st id).2.presolved = st.presolved := by rw [h2]
      have hl1 : (loop g o ps (id :: ids) st) = ((loop g o ps ids (solveScenario g o (ps id) st id).2).1.map fun l => (id, x) :: l,
          (loop g o ps ids (solveScenario g o (ps id) st id).2).2) := by
        conv_lhs => unfold loop
        simp only [h1]
      have hne : ∀ s ∈ ids, s ≠ id := fun s hs e => hid (e ▸ hs)
      constructor
      · intro l hl
        rw [hl1] at hl ⊢
        cases hl' : (loop g o ps ids (solveScenario g o (ps id) st id).2).1 with
        | none => rw [hl'] at hl; cases hl
        | some l' =>
          rw [hl'] at hl
          have hl : (id, x) :: l' = l := Option.some.inj hl
          subst hl
          obtain ⟨a1, a2, a3, a4, a5⟩ := ih1 l' hl'
          refine ⟨a1.trans hf, a2.trans hpr, ?_, ?_, ?_⟩
          · intro s hs
            rw [List.mem_cons, not_or] at hs
            exact (a3 s hs.2).trans (ht s hs.1)
          · intro q hq
            rcases List.mem_cons.1 hq with rfl | hq
            · exact List.mem_cons_self
            · exact List.mem_cons_of_mem _ (a4 q hq)
          · intro s hs
            rcases List.mem_cons.1 hs with rfl | hs
            · refine ⟨x, ?_, ?_⟩
              · have : l'.filter (fun q => q.1 == s) = [] := by
                  rw [List.filter_eq_nil_iff]
                  intro q hq e
                  exact hid ((beq_iff_eq.1 e) ▸ a4 q hq)
                simp [this]
              · rw [hc, a3 s hid, h2]
                simp
            · obtain ⟨y, hy1, hy2⟩ := a5 s hs
              rw [hf, hsm, ht s (hne s hs)] at hy2
              refine ⟨y, ?_, hy2⟩
              rw [List.filter_cons_of_neg (by simpa using (hne s hs).symm)]
              exact hy1
      · intro h
        rw [hl1]
        have := ih2 fun s hs => by
          rw [hf, hsm, ht s (hne s hs)]
          exact h s (List.mem_cons_of_mem _ hs)
        simpa using this

/-- The state of a solver with one scenario agrees with that of scenario `s` among others. -/
private structure Agree (o : Options) (m : St B) (s : Nat) (a : St B) (k : Nat) : Prop where
  first : a.first = m.first
  presolved : o.presolve = true → a.presolved = m.presolved
  table : m.first = false → a.table k = m.table s

private theorem begin_agree {o : Options} {m a : St B} {s k : Nat} (h : Agree o m s a k) :
    Agree o (begin_ o m) s (begin_ o a) k ∧ (begin_ o a).smcp = (begin_ o m).smcp := by
  unfold begin_
  cases ho : o.presolve with
  | false =>
    simp only [Bool.false_and, Bool.false_eq_true, if_false]
    exact ⟨⟨h.1, fun h => absurd h (by simp [ho]), h.3⟩, trivial⟩
  | true =>
    have := h.2 ho
    rw [this]
    split
    · exact ⟨⟨h.1, fun _ => rfl, h.3⟩, rfl⟩
    · exact ⟨⟨h.1, fun _ => rfl, h.3⟩, rfl⟩

private theorem core_agree {o : Options} {m a : St B} {s k : Nat} (h : Agree o m s a k) (hs : a.smcp = m.smcp) (g : Glpk P B X) (p : P) :
    core g o p a.first a.smcp (a.table k) = core g o p m.first m.smcp (m.table s) := by
  rw [h.1, hs]
  cases hf : m.first with
  | true => rfl
  | false => rw [h.3 hf]

private theorem solve_agree (g : Glpk P B X) (o : Options) (ps qs : Nat → P) (ids js : List Nat) (hn : ids.Nodup) (hj : js.Nodup) (m a : St B)
    (s k : Nat) (hs : s ∈ ids) (hk : k ∈ js) (hp : qs k = ps s) (h : Agree o m s a k) (l l' : List (Nat × X))
    (h1 : (solve g o ps ids m).1 = some l) (h2 : (solve g o qs js a).1 = some l') :
    (l'.filter fun q => q.1 == k).map (·.2) = (l.filter fun q => q.1 == s).map (·.2) ∧ Agree o (solve g o ps ids m).2 s (solve g o qs js a).2 k := by
  unfold solve at h1 h2 ⊢
  simp only at h1 h2 ⊢
  cases hm : (loop g o ps ids (begin_ o m)).1 with
  | none => rw [hm] at h1; simp only at h1; rw [hm] at h1; cases h1
  | some l1 =>
  rw [hm] at h1
  cases ha : (loop g o qs js (begin_ o a)).1 with
  | none => rw [ha] at h2; simp only at h2; rw [ha] at h2; cases h2
  | some l2 =>
  rw [ha] at h2
  simp only [Option.some.injEq] at h1 h2
  subst h1 h2
  obtain ⟨hb, hsm⟩ := begin_agree h
  obtain ⟨m1, m2, m3, m4, m5⟩ := (loop_spec g o ps ids hn (begin_ o m)).1 l1 hm
  obtain ⟨a1, a2, a3, a4, a5⟩ := (loop_spec g o qs js hj (begin_ o a)).1 l2 ha
  obtain ⟨x, hx1, hx2⟩ := m5 s hs
  obtain ⟨y, hy1, hy2⟩ := a5 k hk
  rw [hp, core_agree hb hsm, hx2] at hy2
  simp only [Option.some.injEq, Prod.mk.injEq] at hy2
  refine ⟨by rw [hx1, hy1, hy2.1], ⟨rfl, ?_, fun _ => hy2.2.symm⟩⟩
  intro ho
  show (loop g o qs js (begin_ o a)).2.presolved = (loop g o ps ids (begin_ o m)).2.presolved
  rw [a2, m2]
  exact hb.2 ho

private theorem solve_isSome (g : Glpk P B X) (o : Options) (ps : Nat → P) (ids : List Nat) (hn : ids.Nodup) (st : St B) :
    (solve g o ps ids st).1.isSome ↔ ∀ s ∈ ids, (core g o (ps s) (begin_ o st).first (begin_ o st).smcp ((begin_ o st).table s)).isSome := by
  have he : (solve g o ps ids st).1 = (loop g o ps ids (begin_ o st)).1 := by
    unfold solve
    simp only
    cases h : (loop g o ps ids (begin_ o st)).1 with
    | none => simp only; rw [h]
    | some l => rfl
  rw [he]
  constructor
  · intro h s hs
    obtain ⟨l, hl⟩ := Option.isSome_iff_exists.1 h
    obtain ⟨x, _, hx⟩ := ((loop_spec g o ps ids hn (begin_ o st)).1 l hl).2.2.2.2 s hs
    rw [hx]; rfl
  · exact (loop_spec g o ps ids hn (begin_ o st)).2

/-- Two solvers, the scenarios in `js` being among those in `ids`. -/
private theorem run_agree (g : Glpk P B X) (o : Options) (prob qrob : Nat → List X → P) (ids js : List Nat) (hn : ids.Nodup) (hj : js.Nodup)
    (f : Nat → Nat) (hf : ∀ k ∈ js, f k ∈ ids) (hp : ∀ k ∈ js, qrob k = prob (f k)) (n : Nat) (h h' : Nat → List X) (m a : St B)
    (hA : ∀ k ∈ js, Agree o m (f k) a k) (hh : ∀ k ∈ js, h' k = h (f k)) (H : Nat → List X) (hr : (run g o prob ids n h m).1 = some H) :
    ∃ H', (run g o qrob js n h' a).1 = some H' ∧ ∀ k ∈ js, H' k = H (f k) := by
  induction n generalizing h h' m a with
  | zero => cases hr; exact ⟨h', rfl, hh⟩
  | succ n ih =>
    unfold run at hr
    simp only at hr
    cases hm : (solve g o (fun s => prob s (h s)) ids m).1 with
    | none => rw [hm] at hr; cases hr
    | some l =>
      rw [hm] at hr
      simp only at hr
      have hsome : (solve g o (fun s => qrob s (h' s)) js a).1.isSome := by
        rw [solve_isSome g o _ js hj]
        intro k hk
        have h1 := (solve_isSome g o (fun s => prob s (h s)) ids hn m).1 (by rw [hm]; rfl) (f k) (hf k hk)
        obtain ⟨hb, hsm⟩ := begin_agree (hA k hk)
        rw [core_agree hb hsm, hp k hk, hh k hk]
        exact h1
      obtain ⟨l', hl'⟩ := Option.isSome_iff_exists.1 hsome
      have key := fun k (hk : k ∈ js) => solve_agree g o (fun s => prob s (h s)) (fun s => qrob s (h' s)) ids js hn hj m a (f k) k (hf k hk) hk
        (by simp only [hp k hk, hh k hk]) (hA k hk) l l' hm hl'
      unfold run
      simp only [hl']
      refine ih (record h l) (record h' l') _ _ (fun k hk => (key k hk).2) (fun k hk => ?_) hr
      unfold record
      rw [hh k hk, (key k hk).1]

/-- **C85 (alone).** Whatever GLPK does: in a run with several scenarios every scenario has in every timestep the flows it has in a run of its
own.  The two solvers may have been used before in any way (only `is_first_solve` and, with the presolver, `has_presolved` matter). -/
theorem C85_alone (g : Glpk P B X) (o : Options) (prob : Nat → List X → P) (ids : List Nat) (hn : ids.Nodup) (n : Nat) (m a : St B)
    (hm : m.first = true) (ha : a.first = true) (hpre : o.presolve = true → a.presolved = m.presolved) (H : Nat → List X)
    (hr : (run g o prob ids n (fun _ => []) m).1 = some H) (s : Nat) (hs : s ∈ ids) :
    ∃ K, (run g o (fun _ => prob s) [0] n (fun _ => []) a).1 = some K ∧ K 0 = H s := by
  obtain ⟨K, h1, h2⟩ := run_agree g o prob (fun _ => prob s) ids [0] hn (by simp) (fun _ => s) (fun _ _ => hs) (fun _ _ => rfl) n
    (fun _ => []) (fun _ => []) m a (fun _ _ => ⟨ha.trans hm.symm, hpre, fun h => absurd h (by simp [hm])⟩) (fun _ _ => rfl) H hr
  exact ⟨K, h1, h2 0 (by simp)⟩

private theorem loop_error (g : Glpk P B X) (o : Options) (ps : Nat → P) (ids : List Nat) (hn : ids.Nodup) (st : St B)
    (h : (solve g o ps ids st).1 = none) :
    ∃ s ∈ ids, core g o (ps s) (begin_ o st).first (begin_ o st).smcp ((begin_ o st).table s) = none := by
  by_contra hx
  push Not at hx
  have := (solve_isSome g o ps ids hn st).2 fun s hs => Option.isSome_iff_ne_none.2 (hx s hs)
  rw [h] at this
  cases this

private theorem together (g : Glpk P B X) (o : Options) (prob : Nat → List X → P) (ids : List Nat) (hn : ids.Nodup) (n : Nat) (h : Nat → List X)
    (h' : Nat → Nat → List X) (m : St B) (a : Nat → St B) (hA : ∀ s ∈ ids, Agree o m s (a s) 0) (hh : ∀ s ∈ ids, h' s 0 = h s)
    (hr : ∀ s ∈ ids, (run g o (fun _ => prob s) [0] n (h' s) (a s)).1.isSome) : (run g o prob ids n h m).1.isSome := by
  induction n generalizing h h' m a with
  | zero => rfl
  | succ n ih =>
    have hstep : ∀ s ∈ ids, ∃ l, (solve g o (fun k => prob s (h' s k)) [0] (a s)).1 = some l ∧
        (run g o (fun _ => prob s) [0] n (record (h' s) l) (solve g o (fun k => prob s (h' s k)) [0] (a s)).2).1.isSome := by
      intro s hs
      have := hr s hs
      unfold run at this
      simp only at this
      cases hl : (solve g o (fun k => prob s (h' s k)) [0] (a s)).1 with
      | none => rw [hl] at this; cases this
      | some l => rw [hl] at this; exact ⟨l, rfl, this⟩
    unfold run
    simp only
    cases hm : (solve g o (fun s => prob s (h s)) ids m).1 with
    | none =>
      obtain ⟨s, hs, hc⟩ := loop_error g o _ ids hn m hm
      obtain ⟨l, hl, _⟩ := hstep s hs
      have h1 := (solve_isSome g o (fun k => prob s (h' s k)) [0] (by simp) (a s)).1 (by rw [hl]; rfl) 0 (by simp)
      obtain ⟨hb, hsm⟩ := begin_agree (hA s hs)
      rw [core_agree hb hsm, hh s hs, hc] at h1
      cases h1
    | some l =>
      simp only
      have key := fun s (hs : s ∈ ids) => solve_agree g o (fun s => prob s (h s)) (fun k => prob s (h' s k)) ids [0] hn (by simp) m (a s) s 0 hs (by simp)
        (by simp only [hh s hs]) (hA s hs) l (hstep s hs).choose hm (hstep s hs).choose_spec.1
      refine ih (record h l) (fun s => if hs : s ∈ ids then record (h' s) (hstep s hs).choose else h' s) _
        (fun s => (solve g o (fun k => prob s (h' s k)) [0] (a s)).2) (fun s hs => (key s hs).2) (fun s hs => ?_) (fun s hs => ?_)
      · simp only [dif_pos hs]
        show h' s 0 ++ _ = h s ++ _
        exact congrArg₂ (· ++ ·) (hh s hs) (key s hs).1
      · simp only [dif_pos hs]
        exact (hstep s hs).choose_spec.2

/-- **C85 (together).** If every scenario can be run on its own, they can be run together: no scenario makes the solver fail in another. -/
theorem C85_together (g : Glpk P B X) (o : Options) (prob : Nat → List X → P) (ids : List Nat) (hn : ids.Nodup) (n : Nat) (m : St B)
    (a : Nat → St B) (hm : m.first = true) (ha : ∀ s ∈ ids, (a s).first = true) (hpre : o.presolve = true → ∀ s ∈ ids, (a s).presolved = m.presolved)
    (hr : ∀ s ∈ ids, (run g o (fun _ => prob s) [0] n (fun _ => []) (a s)).1.isSome) : (run g o prob ids n (fun _ => []) m).1.isSome :=
  together g o prob ids hn n (fun _ => []) (fun _ _ => []) m a
    (fun s hs => ⟨(ha s hs).trans hm.symm, fun h => hpre h s hs, fun h => absurd h (by simp [hm])⟩) (fun _ _ => rfl) hr

private theorem history_append (g : Glpk P B X) (o : Options) (es fs : List (Ev P B)) (st : St B) :
    history g o (es ++ fs) st = history g o fs (history g o es st) := by
  induction es generalizing st with
  | nil => rfl
  | cons e es ih => cases e <;> simp only [List.cons_append, history, ih]

/-- **C85 (again), partial.** Without the presolver: a run after a reset gives what the run after a setup gives, whatever the solver was used for
before, including solves that failed or were interrupted between two timesteps: the same flows in every scenario and timestep, or an exception as
well.  With the presolver the claim is false (`C85_presolve_fails`). -/
theorem C85_again_partial (g : Glpk P B X) (o : Options) (ho : o.presolve = false) (prob : Nat → List X → P) (ids : List Nat) (hn : ids.Nodup)
    (n : Nat) (es : List (Ev P B)) (st st' : St B) (junk : Nat → B) (erased : B) :
    (∀ H, (run g o prob ids n (fun _ => []) (setup junk erased st')).1 = some H →
      ∃ K, (run g o prob ids n (fun _ => []) (history g o (es ++ [.reset]) st)).1 = some K ∧ ∀ s ∈ ids, K s = H s) ∧
    (∀ K, (run g o prob ids n (fun _ => []) (history g o (es ++ [.reset]) st)).1 = some K →
      ∃ H, (run g o prob ids n (fun _ => []) (setup junk erased st')).1 = some H ∧ ∀ s ∈ ids, H s = K s) := by
  have h1 : (history g o (es ++ [.reset]) st).first = true := by rw [history_append]; rfl
  constructor
  · intro H hH
    exact run_agree g o prob prob ids ids hn hn id (fun k hk => hk) (fun _ _ => rfl) n _ _ _ _
      (fun k _ => ⟨h1.trans rfl, fun h => absurd h (by simp [ho]), fun h => absurd h (by simp [setup])⟩) (fun _ _ => rfl) H hH
  · intro K hK
    exact run_agree g o prob prob ids ids hn hn id (fun k hk => hk) (fun _ _ => rfl) n _ _ _ _
      (fun k _ => ⟨Eq.trans rfl h1.symm, fun h => absurd h (by simp [ho]), fun h => absurd h (by simp [h1])⟩) (fun _ _ => rfl) K hK

/-- **C85 (subset).** The same for a part of the scenarios, under other numbers and in another order: each keeps its flows. -/
theorem C85_subset (g : Glpk P B X) (o : Options) (prob : Nat → List X → P) (ids js : List Nat) (hn : ids.Nodup) (hj : js.Nodup)
    (f : Nat → Nat) (hf : ∀ k ∈ js, f k ∈ ids) (n : Nat) (m a : St B) (hm : m.first = true) (ha : a.first = true)
    (hpre : o.presolve = true → a.presolved = m.presolved) (H : Nat → List X) (hr : (run g o prob ids n (fun _ => []) m).1 = some H) :
    ∃ K, (run g o (fun k => prob (f k)) js n (fun _ => []) a).1 = some K ∧ ∀ k ∈ js, K k = H (f k) :=
  run_agree g o prob (fun k => prob (f k)) ids js hn hj f hf (fun _ _ => rfl) n _ _ m a
    (fun _ _ => ⟨ha.trans hm.symm, hpre, fun h => absurd h (by simp [hm])⟩) (fun _ _ => rfl) H hr

/-! ## The presolver -/

/-- A solver for `min c·x, 0 ≤ x ≤ u` (the problem is `(c, u)`): where both ends are optimal the presolver takes the upper one, the simplex method
the end at which the basis starts. -/
def oneColumn : Glpk (Rat × Rat) Bool Rat where
  adv := fun _ => false
  std := fun _ => false
  install := fun _ b => b
  simplex := fun pre p b =>
    let up := if p.1 < 0 then true else if 0 < p.1 then false else if pre then true else b
    ⟨decide (0 ≤ p.2), if up then p.2 else 0, up⟩

/-- `oneColumn` is a correct solver: what it calls optimal is. -/
theorem oneColumn_optimal (pre : Bool) (p : Rat × Rat) (b : Bool) (h : (oneColumn.simplex pre p b).optimal = true) :
    0 ≤ (oneColumn.simplex pre p b).flows ∧ (oneColumn.simplex pre p b).flows ≤ p.2 ∧
      ∀ x, 0 ≤ x → x ≤ p.2 → p.1 * (oneColumn.simplex pre p b).flows ≤ p.1 * x := by
  have hu : 0 ≤ p.2 := by simpa [oneColumn] using h
  have e : (oneColumn.simplex pre p b).flows = if p.1 < 0 then p.2 else if 0 < p.1 then 0 else if pre || b then p.2 else 0 := by
    simp only [oneColumn]
    split
    · rfl
    · split
      · rfl
      · cases pre <;> cases b <;> rfl
  rw [e]
  by_cases h1 : p.1 < 0
  · simp only [if_pos h1]
    exact ⟨hu, le_refl _, fun x _ hx => mul_le_mul_of_nonpos_left hx h1.le⟩
  · rw [if_neg h1]
    by_cases h2 : 0 < p.1
    · simp only [if_pos h2]
      exact ⟨le_refl _, hu, fun x hx _ => by rw [mul_zero]; exact mul_nonneg h2.le hx⟩
    · rw [if_neg h2]
      have h0 : p.1 = 0 := le_antisymm (not_lt.1 h2) (not_lt.1 h1)
      refine ⟨?_, ?_, fun x _ _ => by rw [h0]; simp⟩
      · split
        · exact hu
        · exact le_refl _
      · split
        · exact le_refl _
        · exact hu

/-- **C85 fails (presolver).** With `use_presolve`, running a model again after a reset need not give the flows of the first run, even if the solver
always returns an optimal solution: `reset` does not put `has_presolved` back, so that only the first run after a setup uses the presolver. -/
theorem C85_presolve_fails :
    ∃ H K, (run oneColumn ⟨true, false⟩ (fun _ _ => (0, 5)) [0] 1 (fun _ => []) (setup (fun _ => false) false ⟨fun _ => false, false, false, false, false⟩)).1 = some H ∧
      (run oneColumn ⟨true, false⟩ (fun _ _ => (0, 5)) [0] 1 (fun _ => [])
        (history oneColumn ⟨true, false⟩ [.setup (fun _ => false) false, .solve (fun _ => (0, 5)) [0], .reset] ⟨fun _ => false, false, false, false, false⟩)).1 = some K ∧
      H 0 = [5] ∧ K 0 = [0] :=
  ⟨_, _, rfl, rfl, by decide +kernel, by decide +kernel⟩

/-- Two scenarios in one of which the simplex method has reached the upper end: in the next timestep, where both ends are optimal, they differ. -/
example : ∃ H, (run oneColumn ⟨false, true⟩ (fun s h => (if h.isEmpty then (s : Rat) - 1 else 0, 5)) [0, 1] 2 (fun _ => [])
      (setup (fun _ => true) true ⟨fun _ => true, true, false, true, true⟩)).1 = some H ∧ H 0 = [5, 5] ∧ H 1 = [0, 0] :=
  ⟨_, rfl, by decide +kernel, by decide +kernel⟩

end Verif.Basis

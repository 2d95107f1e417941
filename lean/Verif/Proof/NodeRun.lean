import Verif.Spec.NodeRun
/-! # Lemmas about runs of all nodes -/

namespace Verif.NodeRun

open Verif.Storage (State)

theorem put_same (st : St) (i : Nat) (s : State) : st.put i s i = s := by simp [St.put]

theorem put_other (st : St) {i j : Nat} (s : State) (h : j ≠ i) : st.put i s j = st j := by simp [St.put, h]

theorem afterNode_other (c : Config) (d : Decision) (st : St) {i j : Nat} (h : j ≠ i) : afterNode c d st i j = st j := by
  unfold afterNode
  cases c.cls i with
  | virtualStorage ms v p =>
    simp only
    split
    · exact put_other _ _ h
    · rfl
  | _ => exact put_other _ _ h

/-- The nodes before `n` have had their `after`. -/
def afterUpTo (c : Config) (d : Decision) (st : St) (n : Nat) : St := (List.range n).foldl (afterNode c d) st

theorem afterUpTo_succ (c : Config) (d : Decision) (st : St) (n : Nat) :
    afterUpTo c d st (n + 1) = afterNode c d (afterUpTo c d st n) n := by
  unfold afterUpTo
  rw [List.range_succ, List.foldl_append]; rfl

theorem afterUpTo_ge (c : Config) (d : Decision) (st : St) {n i : Nat} (h : n ≤ i) : afterUpTo c d st n i = st i := by
  induction n with
  | zero => rfl
  | succ n ih => rw [afterUpTo_succ, afterNode_other _ _ _ (by omega), ih (by omega)]

theorem afterUpTo_lt (c : Config) (d : Decision) (st : St) {n i : Nat} (h : i < n) :
    afterUpTo c d st n i = afterNode c d (afterUpTo c d st i) i i := by
  induction n with
  | zero => omega
  | succ n ih =>
    rw [afterUpTo_succ]
    by_cases hi : i = n
    · rw [hi]
    · rw [afterNode_other _ _ _ hi, ih (by omega)]

theorem after_eq (c : Config) (d : Decision) (st : St) {i : Nat} (h : i < c.size) :
    after c d st i = afterNode c d (afterUpTo c d st i) i i := afterUpTo_lt c d st h

theorem addFlow_prev (st : St) (i : Nat) (v : Rat) (j : Nat) : (addFlow st i v j).prevFlow = (st j).prevFlow := by
  unfold addFlow St.put; split <;> simp_all

theorem addFlow_volume (st : St) (i : Nat) (v : Rat) (j : Nat) :
    (addFlow st i v j).volume = (st j).volume ∧ (addFlow st i v j).pc = (st j).pc := by
  unfold addFlow St.put; split <;> simp_all

theorem commit_prev (c : Config) (st : St) (p : Nat × Rat) (j : Nat) : (commit c st p j).prevFlow = (st j).prevFlow := by
  unfold commit
  cases c.store p.1 <;> simp only [addFlow_prev]

theorem commits_prev (c : Config) (st : St) (l : List (Nat × Rat)) (j : Nat) : (commits c st l j).prevFlow = (st j).prevFlow := by
  unfold commits
  induction l generalizing st with
  | nil => rfl
  | cons p l ih => rw [List.foldl_cons, ih, commit_prev]

theorem solved_prev (c : Config) (d : Decision) (st : St) (j : Nat) : (solved c d st j).prevFlow = (st j).prevFlow := by
  unfold solved
  rw [commits_prev]; rfl

/-- After a timestep the previous flow of an ordinary node is its flow. -/
theorem step_prev (c : Config) (d : Decision) (st : St) {i : Nat} (h : i < c.size)
    (hc : c.cls i = .node ∨ (∃ v p, c.cls i = .storage v p) ∨ (∃ subs, c.cls i = .piecewise subs) ∨
      ((∃ ms v p, c.cls i = .virtualStorage ms v p) ∧ d.active i = true)) :
    (step c d st i).prevFlow = (step c d st i).flow := by
  unfold step
  rw [after_eq c d _ h]
  unfold afterNode
  rcases hc with hc | ⟨v, p, hc⟩ | ⟨subs, hc⟩ | ⟨⟨ms, v, p, hc⟩, ha⟩
  · rw [hc]; simp only [put_same]
  · rw [hc]; simp only [put_same]; rfl
  · rw [hc]; simp only [put_same]
  · rw [hc]; simp only [ha, if_true, put_same]; rfl

theorem runFrom_length (c : Config) (p : Policy) (k n : Nat) (st : St) : (runFrom c p k n st).length = n := by
  induction n generalizing k st with
  | zero => rfl
  | succ n ih => simp [runFrom, ih]

/-- Consecutive states of a run. -/
theorem runFrom_get (c : Config) (p : Policy) (n k : Nat) (st : St) (j : Nat) (h : j < (runFrom c p k n st).length) :
    (runFrom c p k n st)[j] =
      (if _hj : j = 0 then step c (p k (before st)) st
       else step c (p (k + j) (before ((runFrom c p k n st)[j - 1]'(by omega)))) ((runFrom c p k n st)[j - 1]'(by omega))) := by
  induction n generalizing k st j with
  | zero => simp [runFrom] at h
  | succ n ih =>
    cases j with
    | zero => simp [runFrom]
    | succ j =>
      simp only [runFrom, List.getElem_cons_succ]
      rw [ih (k + 1) _ j (by simpa [runFrom] using h)]
      cases j with
      | zero => simp
      | succ j =>
        have : k + 1 + (j + 1) = k + (j + 1 + 1) := by omega
        simp [this]

/-! ## Composite nodes -/

theorem addFlow_flow (st : St) (i : Nat) (v : Rat) (j : Nat) :
    (addFlow st i v j).flow = if j = i then (st j).flow + v else (st j).flow := by
  unfold addFlow St.put
  by_cases h : j = i
  · subst h; simp
  · simp [h]

theorem commits_untouched (c : Config) (l : List (Nat × Rat)) {i : Nat} (h : ∀ p ∈ l, (p.1 = i → p.2 = 0) ∧ ∀ s, c.store p.1 = some s → s.1 ≠ i)
    (st : St) : (commits c st l i).flow = (st i).flow := by
  unfold commits
  induction l generalizing st with
  | nil => rfl
  | cons p l ih =>
    rw [List.foldl_cons, ih fun q hq => h q (by simp [hq])]
    obtain ⟨h1, h2⟩ := h p (by simp)
    have e : (addFlow st p.1 p.2 i).flow = (st i).flow := by
      rw [addFlow_flow]
      split
      · rename_i hp; rw [h1 hp.symm, Rat.add_zero]
      · rfl
    unfold commit
    cases hs : c.store p.1 with
    | none => exact e
    | some s =>
      obtain ⟨s, sign⟩ := s
      simp only
      rw [addFlow_flow, if_neg (fun hh => h2 _ hs hh.symm)]
      exact e

/-! ## Agreement -/

theorem commits_agree (c : Config) (l : List (Nat × Rat)) (st st' : St) (h : ∀ i < c.size, (st i).flow = (st' i).flow) :
    ∀ i < c.size, (commits c st l i).flow = (commits c st' l i).flow := by
  have hadd : ∀ (st st' : St) (j : Nat) (v : Rat), (∀ i < c.size, (st i).flow = (st' i).flow) →
      ∀ i < c.size, (addFlow st j v i).flow = (addFlow st' j v i).flow := by
    intro st st' j v h i hi
    rw [addFlow_flow, addFlow_flow, h i hi]
  unfold commits
  induction l generalizing st st' with
  | nil => exact h
  | cons p l ih =>
    rw [List.foldl_cons, List.foldl_cons]
    apply ih
    unfold commit
    cases c.store p.1 with
    | none => exact hadd st st' _ _ h
    | some s => exact hadd _ _ _ _ (hadd st st' _ _ h)

theorem commits_volume (c : Config) (st : St) (l : List (Nat × Rat)) (j : Nat) :
    (commits c st l j).volume = (st j).volume ∧ (commits c st l j).pc = (st j).pc := by
  unfold commits
  induction l generalizing st with
  | nil => exact ⟨rfl, rfl⟩
  | cons p l ih =>
    rw [List.foldl_cons]
    obtain ⟨h1, h2⟩ := ih (commit c st p)
    rw [h1, h2]
    unfold commit
    cases c.store p.1 with
    | none => exact addFlow_volume _ _ _ _
    | some s =>
      simp only
      rw [(addFlow_volume _ _ _ _).1, (addFlow_volume _ _ _ _).2]
      exact addFlow_volume _ _ _ _

/-- What `after` of one node needs to agree, and what it makes agree. -/
theorem afterNode_agree (c : Config) (hw : c.WF) (d : Decision) {i : Nat} (hi : i < c.size) (st st' : St)
    (hflow : ∀ j < c.size, (st j).flow = (st' j).flow)
    (hvol : (c.cls i).HasVolume → (st i).volume = (st' i).volume ∧ (st i).pc = (st' i).pc)
    (hprev : c.hidden i = false → (∀ ms v p, c.cls i ≠ .aggregatedStorage ms v p) → (st i).prevFlow = (st' i).prevFlow) :
    (afterNode c d st i i).flow = (afterNode c d st' i i).flow ∧ (afterNode c d st i i).prevFlow = (afterNode c d st' i i).prevFlow ∧
      ((c.cls i).HasVolume → (afterNode c d st i i).volume = (afterNode c d st' i i).volume ∧
        (afterNode c d st i i).pc = (afterNode c d st' i i).pc) := by
  have hr := hw.1 i hi
  have hh := hw.2 i hi
  have hf := hflow i hi
  unfold afterNode
  cases hc : c.cls i with
  | node => simp only [put_same]; exact ⟨hf, hf, fun h => h.elim⟩
  | storage v p =>
    simp only [put_same, State.after]
    rw [hc] at hvol
    obtain ⟨h1, -⟩ := hvol trivial
    rw [hf, h1]
    exact ⟨rfl, rfl, fun _ => ⟨rfl, rfl⟩⟩
  | virtualStorage ms v p =>
    simp only
    rw [hc] at hvol hr
    obtain ⟨h1, h2⟩ := hvol trivial
    by_cases ha : d.active i = true
    · simp only [ha, if_true, put_same, State.after]
      have : (ms.map fun p : Nat × Rat => (⟨p.2, (st p.1).flow⟩ : VirtualStorage.Use)) = ms.map fun p : Nat × Rat => ⟨p.2, (st' p.1).flow⟩ := by
        apply List.map_congr_left
        intro p hp
        rw [hflow p.1 (hr p.1 (List.mem_map.2 ⟨p, hp, rfl⟩))]
      rw [this, h1]
      exact ⟨rfl, rfl, fun _ => ⟨rfl, rfl⟩⟩
    · simp only [ha]
      refine ⟨hf, ?_, fun _ => ⟨h1, h2⟩⟩
      apply hprev
      · by_contra hx
        have := hh (by simpa using hx)
        rw [hc] at this; cases this
      · intro ms v p h; rw [hc] at h; cases h
  | aggregated ms =>
    simp only [put_same]
    rw [hc] at hr
    refine ⟨?_, hf, fun h => h.elim⟩
    congr 1
    apply List.map_congr_left
    intro p hp
    rw [hflow p.1 (hr p.1 (List.mem_map.2 ⟨p, hp, rfl⟩))]
  | aggregatedStorage ms v p =>
    simp only [put_same, aggStorageAfter]
    rw [hc] at hr hvol
    obtain ⟨h1, -⟩ := hvol trivial
    have : (ms.map fun m => (st m).flow) = ms.map fun m => (st' m).flow := List.map_congr_left fun m hm => hflow m (hr m hm)
    rw [this, h1, hf]
    exact ⟨rfl, rfl, fun _ => ⟨rfl, rfl⟩⟩
  | piecewise ms =>
    simp only [put_same]
    rw [hc] at hr
    have : (ms.map fun m => (st m).flow) = ms.map fun m => (st' m).flow := List.map_congr_left fun m hm => hflow m (hr m hm)
    rw [this, hf]
    exact ⟨rfl, rfl, fun h => h.elim⟩
  | copyOf m =>
    simp only [put_same]
    rw [hc] at hr
    rw [hf, hflow m (hr m (by simp [Cls.reads]))]
    exact ⟨rfl, rfl, fun h => h.elim⟩

/-- A timestep with the same decision makes states agree completely. -/
theorem step_agree (c : Config) (hw : c.WF) (d : Decision) (st st' : St) (h : AgreeMostly c (before st) (before st')) :
    Agree c (step c d st) (step c d st') := by
  have hsf : ∀ i < c.size, (solved c d st i).flow = (solved c d st' i).flow := commits_agree c _ _ _ fun i hi => (h i hi).1
  have hsv : ∀ i < c.size, (c.cls i).HasVolume → (solved c d st i).volume = (solved c d st' i).volume ∧
      (solved c d st i).pc = (solved c d st' i).pc := by
    intro i hi hv
    unfold solved
    rw [(commits_volume c _ _ i).1, (commits_volume c _ _ i).2, (commits_volume c _ _ i).1, (commits_volume c _ _ i).2]
    exact (h i hi).2.2 hv
  have hsp : ∀ i < c.size, c.hidden i = false → (∀ ms v p, c.cls i ≠ .aggregatedStorage ms v p) →
      (solved c d st i).prevFlow = (solved c d st' i).prevFlow := by
    intro i hi h1 h2
    rw [solved_prev, solved_prev]
    exact (h i hi).2.1 h1 h2
  have key : ∀ n ≤ c.size, ∀ i < c.size, (afterUpTo c d (solved c d st) n i).flow = (afterUpTo c d (solved c d st') n i).flow := by
    intro n
    induction n with
    | zero => intro _; exact hsf
    | succ n ih =>
      intro hn i hi
      rw [afterUpTo_succ, afterUpTo_succ]
      by_cases he : i = n
      · subst he
        have e : ∀ st : St, afterUpTo c d st i i = st i := fun st => afterUpTo_ge c d st (le_refl i)
        exact (afterNode_agree c hw d hi _ _ (ih (by omega)) (by rw [e, e]; exact hsv i hi) (by rw [e, e]; exact hsp i hi)).1
      · rw [afterNode_other _ _ _ he, afterNode_other _ _ _ he]
        exact ih (by omega) i hi
  intro i hi
  unfold step
  rw [after_eq c d _ hi, after_eq c d _ hi]
  have e : ∀ st : St, afterUpTo c d st i i = st i := fun st => afterUpTo_ge c d st (le_refl i)
  exact afterNode_agree c hw d hi _ _ (key i (by omega)) (by rw [e, e]; exact hsv i hi) (by rw [e, e]; exact hsp i hi)

theorem agreeMostly_before {c : Config} {st st' : St} (h : Agree c st st') : AgreeMostly c (before st) (before st') := by
  intro i hi
  obtain ⟨-, h2, h3⟩ := h i hi
  exact ⟨rfl, fun _ _ => h2, h3⟩

theorem run_agree (c : Config) (hw : c.WF) (p : Policy)
    (hp : ∀ k st st', AgreeMostly c st st' → p k st = p k st') (n k : Nat) (st st' : St)
    (h : AgreeMostly c (before st) (before st')) :
    List.Forall₂ (Agree c) (runFrom c p k n st) (runFrom c p k n st') := by
  induction n generalizing k st st' with
  | zero => exact .nil
  | succ n ih =>
    have hd := hp k _ _ h
    have hs := step_agree c hw (p k (before st')) st st' h
    simp only [runFrom]
    rw [hd]
    exact .cons hs (ih _ _ _ (agreeMostly_before hs))

end Verif.NodeRun

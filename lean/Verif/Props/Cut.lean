import Verif.Spec.Cut
import Verif.Props.Ensemble
import Verif.Props.Counting
import Verif.Props.RollingRecorders
/-! # C130: a run can be cut in two -/

namespace Verif.Simulation

open Verif Verif.Lp Verif.Bounds

variable {N : Net} {answer : Data → (Nat → Rat) → Prop}

/-! ## Helpers -/

theorem SameVolumes.symm {a b : Moment} (h : SameVolumes a b) : SameVolumes b a := ⟨fun i => (h.stores i).symm, fun i => (h.virtuals i).symm⟩

private theorem folded (cs : List Storage.Commit) (s s' : Storage.State) (hv : s.volume = s'.volume) (hf : s.flow = s'.flow) :
    (cs.foldl Storage.State.commit s).volume = (cs.foldl Storage.State.commit s').volume ∧ (cs.foldl Storage.State.commit s).flow = (cs.foldl Storage.State.commit s').flow := by
  induction cs generalizing s s' with
  | nil => exact ⟨hv, hf⟩
  | cons c cs ih => exact ih _ _ (by cases c <;> exact hv) (by cases c <;> simp [Storage.State.commit, hf])

private theorem stepped (t : Storage.Step) (s s' : Storage.State) (hv : s.volume = s'.volume) : (s.step t).volume = (s'.step t).volume := by
  obtain ⟨h1, h2⟩ := folded t.commits s.before s'.before hv rfl
  unfold Storage.State.step Storage.State.after
  simp only [h1, h2]

private theorem seen_same (v : Values) {a b : Moment} (h : SameVolumes a b) (i : Nat) : (a.virtual v i).volume = (b.virtual v i).volume := by
  unfold Moment.virtual
  cases v.refill i with
  | none => exact h.virtuals i
  | some x => rfl

private theorem data_same (v : Values) {a b : Moment} (h : SameVolumes a b) : N.data v a = N.data v b := by
  unfold Net.data
  simp only [h.stores, seen_same v h]

private theorem next_same (v : Values) (flow : Nat → Rat) {a b : Moment} (h : SameVolumes a b) : SameVolumes (N.next v flow a) (N.next v flow b) := by
  refine ⟨fun i => ?_, fun i => ?_⟩
  · unfold Net.next
    simp only
    cases N.stores[i]? with
    | none => exact h.stores i
    | some s => exact stepped _ _ _ (h.stores i)
  · unfold Net.next
    simp only
    cases N.virtuals[i]? with
    | none => exact h.virtuals i
    | some s =>
      have hv := seen_same v h i
      simp only [virtualStep, VirtualStorage.VState.after]
      split
      · simp only [Storage.State.after, hv]
      · exact hv

private theorem runs_snoc {params : List Done → Values} {m0 : Moment} {l : List Done} {t : Done} {m : Moment}
    (hr : Runs N answer params m0 (l ++ [t]) m) : ∃ m' flow, Runs N answer params m0 l m' ∧ answer (N.data (params l) m') flow ∧ t = ⟨params l, flow⟩ ∧
      m = N.next (params l) flow m' := by
  generalize e : l ++ [t] = k at hr
  cases hr with
  | start => simp at e
  | @step h m' flow hr ha =>
    obtain ⟨rfl, e2⟩ := List.append_inj' e rfl
    exact ⟨m', flow, hr, ha, by simpa using e2, rfl⟩

private theorem runs_none {params : List Done → Values} {m0 m : Moment} (hr : Runs N answer params m0 [] m) : m = m0 := by
  generalize e : ([] : List Done) = k at hr
  cases hr with
  | start => rfl
  | step _ _ => simp at e

private theorem runs_of {p q : List Done → Values} {m0 : Moment} {h : List Done} {m : Moment} (hr : Runs N answer p m0 h m)
    (hpq : ∀ l, l.length < h.length → p l = q l) : Runs N answer q m0 h m := by
  induction hr with
  | start => exact .start
  | @step h m flow hr ha ih =>
    have e := hpq h (by simp)
    rw [e] at ha ⊢
    exact .step (ih fun h' hl => hpq h' (by simp; omega)) ha

/-! ## Runs -/

/-- **C130 (moment).** Where a run has got to follows from where it started, what the parameters said and the flows. -/
theorem C130_after (params : List Done → Values) (start : Moment) (h : List Done) (m : Moment) (hr : Runs N answer params start h m) : m = after N start h := by
  induction hr with
  | start => rfl
  | step hr ha ih => rw [after, List.foldl_append]; simp only [List.foldl_cons, List.foldl_nil]; rw [← after, ← ih]

/-- **C130 (cut).** A run of `h₁` and then `h₂` is a run of `h₁` followed by a run of `h₂` that starts where the first has ended, with parameters that remember `h₁`. -/
theorem C130_cut (params : List Done → Values) (start : Moment) (h₁ h₂ : List Done) (m : Moment) :
    Runs N answer params start (h₁ ++ h₂) m ↔ ∃ m₁, Runs N answer params start h₁ m₁ ∧ Runs N answer (fun l => params (h₁ ++ l)) m₁ h₂ m := by
  induction h₂ using List.reverseRecOn generalizing m with
  | nil =>
    rw [List.append_nil]
    exact ⟨fun h => ⟨m, h, .start⟩, fun ⟨m₁, h1, h2⟩ => runs_none h2 ▸ h1⟩
  | append_singleton h₂ t ih =>
    rw [← List.append_assoc]
    constructor
    · intro h
      obtain ⟨m', flow, h1, h2, rfl, rfl⟩ := runs_snoc h
      obtain ⟨m₁, h3, h4⟩ := (ih m').1 h1
      exact ⟨m₁, h3, Runs.step h4 h2⟩
    · rintro ⟨m₁, h3, h4⟩
      obtain ⟨m', flow, h1, h2, rfl, rfl⟩ := runs_snoc h4
      exact Runs.step ((ih m').2 ⟨m₁, h3, h1⟩) h2

/-- **C130 (a longer run begins like a shorter one).** The first timesteps of a run are a run; and what parameters would say later (data after the end of the run, say) has no influence. -/
theorem C130_begins (params params' : List Done → Values) (start : Moment) (h : List Done) (m : Moment) (hr : Runs N answer params start h m) (k : Nat)
    (hp : ∀ l, l.length < k → params l = params' l) : ∃ m', Runs N answer params' start (h.take k) m' := by
  rw [← List.take_append_drop k h] at hr
  obtain ⟨m₁, h1, -⟩ := (C130_cut params start _ _ m).1 hr
  exact ⟨m₁, runs_of h1 fun l hl => hp l (by rw [List.length_take] at hl; omega)⟩

/-- **C130 (only volumes).** What a run can do depends on the volumes it starts with and on nothing else the nodes hold. -/
theorem C130_volumes (params : List Done → Values) (start start' : Moment) (hs : SameVolumes start start') (h : List Done) (m : Moment) (hr : Runs N answer params start h m) :
    ∃ m', Runs N answer params start' h m' ∧ SameVolumes m m' := by
  induction hr with
  | start => exact ⟨start', .start, hs⟩
  | @step h m flow hr ha ih =>
    obtain ⟨m', h1, h2⟩ := ih
    refine ⟨_, .step h1 (flow := flow) ?_, next_same _ _ h2⟩
    rwa [← data_same _ h2]

/-- **C130 (continued).** Let a run have done `h₁`. A second model starts with the volumes the first run ended with (nothing else is handed over), and its parameters say after any history what those of the first say after that history
preceded by `h₁`. Then what the second model can do is exactly what the first can do in the rest of its run, and at the end the volumes are the same. -/
theorem C130_continued (params params' : List Done → Values) (start m₁ start' : Moment) (h₁ h₂ : List Done) (hr : Runs N answer params start h₁ m₁) (hs : SameVolumes m₁ start')
    (hp : ∀ l, l.length < h₂.length → params (h₁ ++ l) = params' l) :
    (∀ m, Runs N answer params start (h₁ ++ h₂) m → ∃ m', Runs N answer params' start' h₂ m' ∧ SameVolumes m m') ∧
    (∀ m', Runs N answer params' start' h₂ m' → ∃ m, Runs N answer params start (h₁ ++ h₂) m ∧ SameVolumes m m') := by
  constructor
  · intro m h
    obtain ⟨m2, h1, h2⟩ := (C130_cut params start h₁ h₂ m).1 h
    have : m2 = m₁ := (C130_after _ _ _ _ h1).trans (C130_after _ _ _ _ hr).symm
    subst this
    exact C130_volumes params' m2 start' hs h₂ m (runs_of h2 hp)
  · intro m' h
    obtain ⟨m, h1, h2⟩ := C130_volumes params' start' m₁ hs.symm h₂ m' h
    exact ⟨m, (C130_cut params start h₁ h₂ m).2 ⟨m₁, hr, runs_of h1 fun l hl => (hp l hl).symm⟩, h2.symm⟩

private theorem after_same {a b : Moment} (h : SameVolumes a b) (l : List Done) : SameVolumes (after N a l) (after N b l) := by
  induction l generalizing a b with
  | nil => exact h
  | cons t l ih => exact ih (next_same _ _ h)

/-- **C130 (warm start).** With parameters that look at the timestep and at volumes only (profiles, data by date, control curves), a model started at a later timestep with the volumes of a run does exactly what that run can do from
there on. -/
theorem C130_warm (p : Nat → (Nat → Rat) → (Nat → Rat) → Values) (first : Nat) (start m₁ start' : Moment) (h₁ h₂ : List Done) (hr : Runs N answer (memoryless N p first start) start h₁ m₁)
    (hs : SameVolumes m₁ start') :
    (∀ m, Runs N answer (memoryless N p first start) start (h₁ ++ h₂) m → ∃ m', Runs N answer (memoryless N p (first + h₁.length) start') start' h₂ m' ∧ SameVolumes m m') ∧
    (∀ m', Runs N answer (memoryless N p (first + h₁.length) start') start' h₂ m' → ∃ m, Runs N answer (memoryless N p first start) start (h₁ ++ h₂) m ∧ SameVolumes m m') := by
  refine C130_continued _ _ start m₁ start' h₁ h₂ hr hs fun l _ => ?_
  have e : after N start (h₁ ++ l) = after N m₁ l := by
    rw [C130_after _ _ _ _ hr]; exact List.foldl_append
  have h := after_same (N := N) hs l
  unfold memoryless
  rw [e, List.length_append, ← Nat.add_assoc]
  simp only [h.stores, h.virtuals]

private def firstFlow : Nat → Rat := sampleNet.commit (routeNodeFlow (sampleNet.data (sampleValues 10) sampleStart) sampleNet.routes [5, 3, 2])

/-- **C130 fails for parameters that remember.** The limit of the input follows the flow of the last timestep: it is 8 in the second timestep of the run, but 10 in the first timestep of a model started with the volumes after the first
timestep; that model can pass 10 through the input, the run cannot. -/
theorem C130_memory_fails : ∃ h₁ m₁ t m', Runs sampleNet (routeAnswer sampleNet) sampleParams sampleStart h₁ m₁ ∧ h₁.length = 1 ∧
    Runs sampleNet (routeAnswer sampleNet) sampleParams m₁ [t] m' ∧ t.flow 0 = 10 ∧ ∀ t' m, Runs sampleNet (routeAnswer sampleNet) sampleParams sampleStart (h₁ ++ [t']) m → t'.values.maxFlow 0 = .fin 8 ∧ t'.flow 0 ≤ 8 := by
  have hfirst : Runs sampleNet (routeAnswer sampleNet) sampleParams sampleStart [⟨sampleValues 10, firstFlow⟩] (sampleNet.next (sampleValues 10) firstFlow sampleStart) :=
    Runs.step (h := []) .start ⟨[5, 3, 2], by decide +kernel, rfl⟩
  refine ⟨_, _, _, _, hfirst, rfl, Runs.step (h := []) .start ⟨[3, 7, 0], by decide +kernel, rfl⟩, by decide +kernel, fun t' m h => ?_⟩
  obtain ⟨m', flow, h1, h2, e, -⟩ := runs_snoc h
  have hp : sampleParams [⟨sampleValues 10, firstFlow⟩] = sampleValues 8 := by
    unfold sampleParams
    show sampleValues (if firstFlow 3 = 7 then 8 else 10) = _
    rw [if_pos (by decide +kernel)]
  have hl := C88_flows sample_ok _ (.inl rfl) _ _ h t' (by simp) 0 (by decide) (by decide) (by rw [e, hp]; exact .inr ⟨0, rfl, by unfold OrdinaryDouble; decide +kernel⟩)
    (by rw [e, hp]; exact .inr ⟨8, rfl, by unfold OrdinaryDouble; decide +kernel⟩)
  rw [e, hp] at hl ⊢
  refine ⟨rfl, ?_⟩
  have e8 : ((sampleValues 8).maxFlow 0).effective = .fin 8 := by decide +kernel
  have e0 : ((sampleValues 8).minFlow 0).effective = .fin 0 := by decide +kernel
  rcases hl with ⟨-, hl⟩ | ⟨-, hl⟩
  · have hl : ((sampleValues 8).maxFlow 0).effective.AtMost (flow 0) := hl
    rw [e8] at hl
    exact hl
  · have hl : ((sampleValues 8).minFlow 0).effective = F.fin (flow 0) := hl
    rw [e0] at hl
    have : (0 : Rat) = flow 0 := F.fin.inj hl
    show flow 0 ≤ 8
    rw [← this]; norm_num

/-! ## Scenarios -/

variable {n : Nat}

private theorem ensemble_snoc {params : List (Fin n → Done) → Fin n → Values} {start : Fin n → Moment} {l : List (Fin n → Done)} {t : Fin n → Done} {m : Fin n → Moment}
    (hr : Ensemble N answer params start (l ++ [t]) m) : ∃ (m' : Fin n → Moment) (flow : Fin n → Nat → Rat), Ensemble N answer params start l m' ∧ (∀ i, answer (N.data (params l i) (m' i)) (flow i)) ∧
      (t = fun i => ⟨params l i, flow i⟩) ∧ m = fun i => N.next (params l i) (flow i) (m' i) := by
  generalize e : l ++ [t] = k at hr
  cases hr with
  | start => simp at e
  | @step h m' flow hr ha =>
    obtain ⟨rfl, e2⟩ := List.append_inj' e rfl
    exact ⟨m', flow, hr, ha, by simpa using e2, rfl⟩

private theorem ensemble_none {params : List (Fin n → Done) → Fin n → Values} {start m : Fin n → Moment} (hr : Ensemble N answer params start [] m) : m = start := by
  generalize e : ([] : List (Fin n → Done)) = k at hr
  cases hr with
  | start => rfl
  | step _ _ => simp at e

private theorem ensemble_of {p q : List (Fin n → Done) → Fin n → Values} {start : Fin n → Moment} {h : List (Fin n → Done)} {m : Fin n → Moment} (hr : Ensemble N answer p start h m)
    (hpq : ∀ l, l.length < h.length → p l = q l) : Ensemble N answer q start h m := by
  induction hr with
  | start => exact .start
  | @step h m flow hr ha ih =>
    have e := hpq h (by simp)
    rw [e] at ha ⊢
    exact .step (ih fun h' hl => hpq h' (by simp; omega)) ha

private theorem ensemble_cut (params : List (Fin n → Done) → Fin n → Values) (start : Fin n → Moment) (h₁ h₂ : List (Fin n → Done)) (m : Fin n → Moment) :
    Ensemble N answer params start (h₁ ++ h₂) m ↔ ∃ m₁, Ensemble N answer params start h₁ m₁ ∧ Ensemble N answer (fun l => params (h₁ ++ l)) m₁ h₂ m := by
  induction h₂ using List.reverseRecOn generalizing m with
  | nil =>
    rw [List.append_nil]
    exact ⟨fun h => ⟨m, h, .start⟩, fun ⟨m₁, h1, h2⟩ => ensemble_none h2 ▸ h1⟩
  | append_singleton h₂ t ih =>
    rw [← List.append_assoc]
    constructor
    · intro h
      obtain ⟨m', flow, h1, h2, rfl, rfl⟩ := ensemble_snoc h
      obtain ⟨m₁, h3, h4⟩ := (ih m').1 h1
      exact ⟨m₁, h3, Ensemble.step h4 h2⟩
    · rintro ⟨m₁, h3, h4⟩
      obtain ⟨m', flow, h1, h2, rfl, rfl⟩ := ensemble_snoc h4
      exact Ensemble.step ((ih m').2 ⟨m₁, h3, h1⟩) h2

private theorem ensemble_same (params : List (Fin n → Done) → Fin n → Values) (start start' : Fin n → Moment) (hs : ∀ i, SameVolumes (start i) (start' i)) (h : List (Fin n → Done)) (m : Fin n → Moment)
    (hr : Ensemble N answer params start h m) : ∃ m', Ensemble N answer params start' h m' ∧ ∀ i, SameVolumes (m i) (m' i) := by
  induction hr with
  | start => exact ⟨start', .start, hs⟩
  | @step h m flow hr ha ih =>
    obtain ⟨m', h1, h2⟩ := ih
    refine ⟨_, .step h1 (flow := flow) fun i => ?_, fun i => next_same _ _ (h2 i)⟩
    rw [← data_same _ (h2 i)]
    exact ha i

private theorem ensemble_end {params params' : List (Fin n → Done) → Fin n → Values} {start : Fin n → Moment} {h : List (Fin n → Done)} {m m' : Fin n → Moment} (hr : Ensemble N answer params start h m)
    (hr' : Ensemble N answer params' start h m') : m = m' := by
  funext i
  exact (C130_after _ _ _ _ (C88_scenario answer h m hr i)).trans (C130_after _ _ _ _ (C88_scenario answer h m' hr' i)).symm

/-- **C130 (continued, scenarios).** The same for all scenarios of a model together, with parameters that may look at all scenarios. -/
theorem C130_scenarios (params params' : List (Fin n → Done) → Fin n → Values) (start m₁ start' : Fin n → Moment) (h₁ h₂ : List (Fin n → Done)) (hr : Ensemble N answer params start h₁ m₁)
    (hs : ∀ i, SameVolumes (m₁ i) (start' i)) (hp : ∀ l, l.length < h₂.length → params (h₁ ++ l) = params' l) :
    (∀ m, Ensemble N answer params start (h₁ ++ h₂) m → ∃ m', Ensemble N answer params' start' h₂ m' ∧ ∀ i, SameVolumes (m i) (m' i)) ∧
    (∀ m', Ensemble N answer params' start' h₂ m' → ∃ m, Ensemble N answer params start (h₁ ++ h₂) m ∧ ∀ i, SameVolumes (m i) (m' i)) := by
  constructor
  · intro m h
    obtain ⟨m2, h1, h2⟩ := (ensemble_cut params start h₁ h₂ m).1 h
    have := ensemble_end h1 hr
    subst this
    exact ensemble_same params' m2 start' hs h₂ m (ensemble_of h2 hp)
  · intro m' h
    obtain ⟨m, h1, h2⟩ := ensemble_same params' start' m₁ (fun i => (hs i).symm) h₂ m' h
    exact ⟨m, (ensemble_cut params start h₁ h₂ m).2 ⟨m₁, hr, ensemble_of h1 fun l hl => (hp l hl).symm⟩, fun i => (h2 i).symm⟩

/-! ## A case in which the hypotheses hold -/

/-- A memoryless parameter of the network of `Props/Simulation`: the input gives 10, or 8 once the reservoir is above 50; two timesteps are run, and the second again from the volumes alone. -/
example : ∃ p : Nat → (Nat → Rat) → (Nat → Rat) → Values, ∃ h₁ m₁ t m start', Runs sampleNet (routeAnswer sampleNet) (memoryless sampleNet p 0 sampleStart) sampleStart h₁ m₁ ∧ h₁.length = 1 ∧
    SameVolumes m₁ start' ∧ (m₁.stores 0).prevFlow ≠ (start'.stores 0).prevFlow ∧ Runs sampleNet (routeAnswer sampleNet) (memoryless sampleNet p 0 sampleStart) sampleStart (h₁ ++ [t]) m ∧
    t.values.maxFlow 0 = .fin 8 ∧ t.flow 0 = 8 := by
  let p : Nat → (Nat → Rat) → (Nat → Rat) → Values := fun _ v _ => sampleValues (if 50 < v 0 then 8 else 10)
  have h1 : Runs sampleNet (routeAnswer sampleNet) (memoryless sampleNet p 0 sampleStart) sampleStart [⟨sampleValues 10, firstFlow⟩] (sampleNet.next (sampleValues 10) firstFlow sampleStart) :=
    Runs.step (h := []) .start ⟨[5, 3, 2], by decide +kernel, rfl⟩
  have e : memoryless sampleNet p 0 sampleStart [⟨sampleValues 10, firstFlow⟩] = sampleValues 8 := by
    show sampleValues (if 50 < ((sampleNet.next (sampleValues 10) firstFlow sampleStart).stores 0).volume then 8 else 10) = _
    rw [if_pos (by decide +kernel)]
  refine ⟨p, _, _, _, _, ⟨fun i => { (sampleNet.next (sampleValues 10) firstFlow sampleStart).stores i with prevFlow := 0 }, (sampleNet.next (sampleValues 10) firstFlow sampleStart).virtuals⟩, h1, rfl,
    ⟨fun _ => rfl, fun _ => rfl⟩, by decide +kernel, Runs.step h1 (flow := sampleNet.commit (routeNodeFlow (sampleNet.data (sampleValues 8) (sampleNet.next (sampleValues 10) firstFlow sampleStart)) sampleNet.routes [1, 7, 2]))
      ⟨[1, 7, 2], ?_, ?_⟩, ?_, by decide +kernel⟩
  · rw [e]; decide +kernel
  · rw [e]
  · rw [e]; rfl

end Verif.Simulation

namespace Verif.Recorders

open Verif.Run Verif.Bounds

/-! ## Recorders -/

private theorem sum_shift {O : Type} (l : List O) (f : O → Nat → Rat) (a k : Nat) : ((l.zipIdx (a + k)).map fun x => f x.1 x.2).sum = ((l.zipIdx k).map fun x => f x.1 (a + x.2)).sum := by
  induction l generalizing k with
  | nil => rfl
  | cons o l ih => simp only [List.zipIdx_cons, List.map_cons, List.sum_cons]; rw [Nat.add_assoc, ih]

/-- **C130 (totals).** The total of a run is the sum of the totals of its two parts. -/
theorem C130_totals (factor : Rat) (days : Nat → Rat) (ncomb : Nat) (a b : List NodeView) (ha : ∀ o ∈ a, o.flow.length = ncomb) (hb : ∀ o ∈ b, o.flow.length = ncomb) (cur cur₁ cur₂ : Option Nat) :
    ∃ v v₁ v₂, (totalFlow factor days ncomb).result (a ++ b) cur = some v ∧ (totalFlow factor days ncomb).result a cur₁ = some v₁ ∧
      (totalFlow factor (fun k => days (a.length + k)) ncomb).result b cur₂ = some v₂ ∧ ∀ i < ncomb, v.getD i 0 = v₁.getD i 0 + v₂.getD i 0 := by
  obtain ⟨v, h1, -, h3⟩ := C40_total_flow factor days ncomb (a ++ b) (fun o ho => (List.mem_append.1 ho).elim (ha o) (hb o)) cur
  obtain ⟨v₁, a1, -, a3⟩ := C40_total_flow factor days ncomb a ha cur₁
  obtain ⟨v₂, b1, -, b3⟩ := C40_total_flow factor (fun k => days (a.length + k)) ncomb b hb cur₂
  refine ⟨v, v₁, v₂, h1, a1, b1, fun i hi => ?_⟩
  rw [h3 i hi, a3 i hi, b3 i hi, List.zipIdx_append, List.map_append, List.sum_append, Nat.zero_add]
  congr 1
  exact sum_shift b (fun o k => o.flow.getD i 0 * factor * days k) a.length 0

private theorem whole {O V : Type} (zero : V) (row : O → List V) (ncomb : Nat) (os : List O) (cur : Option Nat) :
    (arrayRecorder zero row os.length ncomb).result os cur = some (os.map row) := by
  obtain ⟨v, h1, h2, h3, -⟩ := C40_array zero row os.length ncomb os (le_refl _) cur
  rw [h1]
  congr 1
  refine List.ext_getElem? fun k => ?_
  by_cases hk : k < os.length
  · rw [h3 k hk, List.getElem?_map, List.getElem?_eq_getElem hk]; rfl
  · rw [List.getElem?_eq_none (by omega), List.getElem?_eq_none (by simp; omega)]

/-- **C130 (arrays).** The array of a run is the arrays of its two parts, one after the other; so the array of a longer run begins with that of the shorter. -/
theorem C130_arrays {O V : Type} (zero : V) (row : O → List V) (ncomb : Nat) (a b : List O) (cur cur₁ cur₂ : Option Nat) :
    ∃ D₁ D₂, (arrayRecorder zero row a.length ncomb).result a cur₁ = some D₁ ∧ (arrayRecorder zero row b.length ncomb).result b cur₂ = some D₂ ∧
      (arrayRecorder zero row (a.length + b.length) ncomb).result (a ++ b) cur = some (D₁ ++ D₂) := by
  refine ⟨_, _, whole zero row ncomb a cur₁, whole zero row ncomb b cur₂, ?_⟩
  rw [← List.length_append, whole, List.map_append]

/-- **C130 (counts).** Counts of timesteps add up. -/
theorem C130_counts (threshold : Int) (ncomb : Nat) (a b : List (List Int)) (ha : ∀ o ∈ a, o.length = ncomb) (hb : ∀ o ∈ b, o.length = ncomb) (cur cur₁ cur₂ : Option Nat) :
    ∃ v v₁ v₂, (timestepCount threshold ncomb).result (a ++ b) cur = some v ∧ (timestepCount threshold ncomb).result a cur₁ = some v₁ ∧ (timestepCount threshold ncomb).result b cur₂ = some v₂ ∧
      ∀ i < ncomb, v.getD i 0 = v₁.getD i 0 + v₂.getD i 0 := by
  obtain ⟨v, h1, -, h3⟩ := C41_timestep_count threshold ncomb (a ++ b) (fun o ho => (List.mem_append.1 ho).elim (ha o) (hb o)) cur
  obtain ⟨v₁, a1, -, a3⟩ := C41_timestep_count threshold ncomb a ha cur₁
  obtain ⟨v₂, b1, -, b3⟩ := C41_timestep_count threshold ncomb b hb cur₂
  exact ⟨v, v₁, v₂, h1, a1, b1, fun i hi => by rw [h3 i hi, a3 i hi, b3 i hi, List.countP_append]⟩

/-- **C130 (minima).** The minimum volume of a run is the smaller of the minima of its parts. -/
theorem C130_minimum (ncomb : Nat) (a b : List (List Rat)) (hpa : a ≠ []) (hpb : b ≠ []) (ha : ∀ o ∈ a, o.length = ncomb) (hb : ∀ o ∈ b, o.length = ncomb) (cur cur₁ cur₂ : Option Nat) :
    ∃ v v₁ v₂, (minimumVolume ncomb).result (a ++ b) cur = some v ∧ (minimumVolume ncomb).result a cur₁ = some v₁ ∧ (minimumVolume ncomb).result b cur₂ = some v₂ ∧
      ∀ i < ncomb, ∃ x y, v₁.getD i none = some x ∧ v₂.getD i none = some y ∧ v.getD i none = some (min x y) := by
  obtain ⟨v, h1, -, h3⟩ := C63_minimum_volume ncomb (a ++ b) (by simp [hpa]) (fun o ho => (List.mem_append.1 ho).elim (ha o) (hb o)) cur
  obtain ⟨v₁, a1, -, a3⟩ := C63_minimum_volume ncomb a hpa ha cur₁
  obtain ⟨v₂, b1, -, b3⟩ := C63_minimum_volume ncomb b hpb hb cur₂
  refine ⟨v, v₁, v₂, h1, a1, b1, fun i hi => ?_⟩
  obtain ⟨z, z1, ⟨o, ho, z2⟩, z3⟩ := h3 i hi
  obtain ⟨x, x1, ⟨o1, ho1, x2⟩, x3⟩ := a3 i hi
  obtain ⟨y, y1, ⟨o2, ho2, y2⟩, y3⟩ := b3 i hi
  refine ⟨x, y, x1, y1, z1.trans (congrArg some (le_antisymm (le_min ?_ ?_) ?_))⟩
  · rw [← x2]; exact z3 o1 (List.mem_append_left _ ho1)
  · rw [← y2]; exact z3 o2 (List.mem_append_right _ ho2)
  · rw [← z2]
    rcases List.mem_append.1 ho with ho | ho
    · exact (min_le_left _ _).trans (x3 o ho)
    · exact (min_le_right _ _).trans (y3 o ho)

/-- **C130 fails for counts of years.** A year with the threshold reached before and after the cut is counted twice. -/
theorem C130_years_fails : ∃ v v₁ v₂, (annualCount 1 (fun _ => 2000) 1).result ([[1], [0]] ++ [[0], [1]]) (some 4) = some v ∧ (annualCount 1 (fun _ => 2000) 1).result [[1], [0]] (some 2) = some v₁ ∧
    (annualCount 1 (fun _ => 2000) 1).result [[0], [1]] (some 2) = some v₂ ∧ v.count = [1] ∧ v₁.count = [1] ∧ v₂.count = [1] := ⟨_, _, _, rfl, rfl, rfl, by decide, by decide, by decide⟩

example : (∀ o ∈ [(⟨[3], [5]⟩ : NodeView), ⟨[4], [5]⟩], o.flow.length = 1) ∧ (totalFlow 2 (fun k => k + 1) 1).result ([⟨[3], [5]⟩] ++ [⟨[4], [5]⟩]) (some 2) = some [22] ∧
    (totalFlow 2 (fun k => k + 1) 1).result [⟨[3], [5]⟩] (some 1) = some [6] ∧ (totalFlow 2 (fun k => (fun k => k + 1 : Nat → Rat) (1 + k)) 1).result [⟨[4], [5]⟩] (some 1) = some [16] := by decide +kernel

end Verif.Recorders

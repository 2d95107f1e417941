import Verif.Spec.UnitsRun
import Verif.Props.Units
import Verif.Props.Cut
/-! # C133: whole runs in other units -/

namespace Verif.Simulation

open Verif Verif.Lp Verif.Bounds

variable {N : Net}

/-! ## Helpers -/

private theorem data_units (k : Rat) (v : Values) (m : Moment) : N.data (v.inUnits k) (m.inUnits k) = inUnits k (N.data v m) := by
  unfold Net.data inUnits Values.inUnits Moment.inUnits
  simp only [List.map_map, Function.comp_def, stateIn, Data.mk.injEq, true_and, and_true]
  apply List.map_congr_left
  intro q _
  unfold Moment.virtual
  simp only
  cases v.refill q.2 <;> rfl

private theorem sees {k q : Rat} (h : PlainDifference k q) : |k * q| < Storage.e6 ↔ |q| < Storage.e6 := by
  rcases h with rfl | ⟨h1, h2⟩
  · rw [mul_zero]
  · exact ⟨fun h => absurd h (not_lt.2 h2), fun h => absurd h (not_lt.2 h1)⟩

private theorem snap_units {k mx mn v : Rat} (h : PlainFill k (mx, mn) v) : Storage.snap (k * mx) (k * mn) (k * v) = k * Storage.snap mx mn v := by
  obtain ⟨h1, h2, h3⟩ := h
  unfold Storage.snap
  simp only
  have e1 : |k * v - k * mx| < Storage.e6 ↔ |v - mx| < Storage.e6 := by rw [← mul_sub]; exact sees h1
  have e2 : |k * v - k * mn| < Storage.e6 ↔ |v - mn| < Storage.e6 := by rw [← mul_sub]; exact sees h2
  have e3 : |k * mx - k * mn| < Storage.e6 ↔ |mx - mn| < Storage.e6 := by rw [← mul_sub]; exact sees h3
  by_cases c1 : |v - mx| < Storage.e6
  · simp only [e1.2 c1, c1, if_true, e3]
    split <;> rfl
  · simp only [mt e1.1 c1, c1, if_false, e2]
    split <;> rfl

private theorem fraction_units {k v mx : Rat} (hk : 0 < k) : Storage.fraction (k * v) (k * mx) = Storage.fraction v mx := by
  unfold Storage.fraction
  by_cases h : mx = 0
  · rw [h, mul_zero]; rfl
  · rw [if_neg h, if_neg (mul_ne_zero hk.ne' h), mul_div_mul_left _ _ hk.ne']

private theorem folded_units (ins outs : List Nat) (flow : Nat → Rat) (s : Storage.State) :
    let cs := fun f : Nat → Rat => ins.map (fun n => Storage.Commit.fromStore (f n)) ++ outs.map (fun n => .toStore (f n))
    ((cs flow).foldl Storage.State.commit s) = { s with flow := s.flow + ((outs.map flow).sum - (ins.map flow).sum) } := by
  intro cs
  have h1 : ∀ (l : List Nat) (s : Storage.State), (l.map fun n => Storage.Commit.fromStore (flow n)).foldl Storage.State.commit s =
      { s with flow := s.flow - (l.map flow).sum } := by
    intro l
    induction l with
    | nil => intro s; simp
    | cons n l ih =>
      intro s
      rw [List.map_cons, List.foldl_cons, ih]
      simp only [Storage.State.commit, List.map_cons, List.sum_cons]
      congr 1; ring
  have h2 : ∀ (l : List Nat) (s : Storage.State), (l.map fun n => Storage.Commit.toStore (flow n)).foldl Storage.State.commit s =
      { s with flow := s.flow + (l.map flow).sum } := by
    intro l
    induction l with
    | nil => intro s; simp
    | cons n l ih =>
      intro s
      rw [List.map_cons, List.foldl_cons, ih]
      simp only [Storage.State.commit, List.map_cons, List.sum_cons]
      congr 1; ring
  simp only [cs]
  rw [List.foldl_append, h1, h2]
  simp only
  congr 1; ring

private theorem sum_units (k : Rat) (l : List Nat) (flow : Nat → Rat) : (l.map fun n => k * flow n).sum = k * (l.map flow).sum := by
  rw [List.sum_map_mul_left]

private theorem store_units {k : Rat} (hk : 0 < k) (v : Values) (flow : Nat → Rat) (s : List Nat × List Nat) (i : Nat) (st : Storage.State)
    (h : PlainFill k (v.limits i) (st.volume + ((s.2.map flow).sum - (s.1.map flow).sum) * v.days)) :
    storeStep (v.inUnits k) (fun n => k * flow n) s i (stateIn k st) = stateIn k (storeStep v flow s i st) := by
  have e := folded_units s.1 s.2 flow st.before
  have e' := folded_units s.1 s.2 (fun n => k * flow n) (stateIn k st).before
  simp only at e e'
  unfold storeStep Storage.State.step
  simp only [Values.inUnits]
  rw [e, e']
  simp only [Storage.State.after, Storage.State.before, stateIn, zero_add, sum_units]
  have hv : k * st.volume + (k * (s.2.map flow).sum - k * (s.1.map flow).sum) * v.days =
      k * (st.volume + ((s.2.map flow).sum - (s.1.map flow).sum) * v.days) := by ring
  rw [hv, snap_units h, fraction_units hk]
  simp only [mul_sub]

private theorem depletion_eq (us : List VirtualStorage.Use) : VirtualStorage.depletion us = -(us.map fun u => u.factor * u.flow).sum := by
  unfold VirtualStorage.depletion
  have : ∀ (l : List VirtualStorage.Use) (a : Rat), l.foldl (fun acc u => acc - u.factor * u.flow) a = a - (l.map fun u => u.factor * u.flow).sum := by
    intro l
    induction l with
    | nil => intro a; simp
    | cons u l ih => intro a; rw [List.foldl_cons, ih, List.map_cons, List.sum_cons]; ring
  rw [this, zero_sub]

private theorem licence_units {k : Rat} (hk : 0 < k) (v : Values) (flow : Nat → Rat) (s : List Nat × List Rat) (i : Nat) (st : Storage.State)
    (h : v.active i = true → PlainFill k (v.vlimits i) (st.volume - ((s.1.zip s.2).map fun p => p.2 * flow p.1).sum * v.days)) :
    virtualStep (v.inUnits k) (fun n => k * flow n) s i (stateIn k st) = stateIn k (virtualStep v flow s i st) := by
  unfold virtualStep VirtualStorage.VState.after
  simp only [Values.inUnits]
  by_cases ha : v.active i = true
  · simp only [ha, if_true, depletion_eq, List.map_map, Function.comp_def, Storage.State.after, stateIn]
    have e : ((s.1.zip s.2).map fun p => p.2 * (k * flow p.1)).sum = k * ((s.1.zip s.2).map fun p => p.2 * flow p.1).sum := by
      rw [← List.sum_map_mul_left]
      congr 1
      apply List.map_congr_left
      intro p _
      ring
    rw [e]
    have hv : k * st.volume + -(k * ((s.1.zip s.2).map fun p => p.2 * flow p.1).sum) * v.days =
      k * (st.volume - ((s.1.zip s.2).map fun p => p.2 * flow p.1).sum * v.days) := by ring
    have hv' : st.volume + -((s.1.zip s.2).map fun p => p.2 * flow p.1).sum * v.days =
      st.volume - ((s.1.zip s.2).map fun p => p.2 * flow p.1).sum * v.days := by ring
    rw [hv, hv', snap_units (h ha), fraction_units hk]
    simp only [mul_neg]
  · simp only [ha]
    rfl

private theorem seen_units (k : Rat) (v : Values) (m : Moment) (i : Nat) : (m.inUnits k).virtual (v.inUnits k) i = stateIn k (m.virtual v i) := by
  unfold Moment.virtual Values.inUnits Moment.inUnits
  simp only
  cases v.refill i <;> rfl

private theorem next_units {k : Rat} {m : Moment} {t : Done} (h : PlainStep k N m t) :
    N.next (t.values.inUnits k) (fun n => k * t.flow n) (m.inUnits k) = (N.next t.values t.flow m).inUnits k := by
  have hk := h.model.factor
  refine congrArg₂ Moment.mk (funext fun i => ?_) (funext fun i => ?_)
  · show _ = stateIn k ((N.next t.values t.flow m).stores i)
    unfold Net.next
    simp only
    cases hs : N.stores[i]? with
    | none => rfl
    | some s => exact store_units hk _ _ _ _ _ (h.stores i s hs)
  · show _ = stateIn k ((N.next t.values t.flow m).virtuals i)
    unfold Net.next
    simp only
    cases hs : N.virtuals[i]? with
    | none => rfl
    | some s =>
      simp only [seen_units]
      exact licence_units hk _ _ _ _ _ (h.virtuals i s hs)

private theorem commit_units (k : Rat) {f f' : Nat → Rat} (h : ∀ n, f' n = k * f n) : (fun n => k * N.commit f n) = N.commit f' := by
  funext n
  unfold Net.commit
  split
  · rw [h]
  · rw [mul_zero]

private theorem idle_units (k : Rat) (g : Graph) (y : List Rat) (h : Idle g y) : Idle g (y.map (k * ·)) := by
  intro c hc hd
  have := h c hc hd
  rw [List.getD_eq_getElem?_getD] at this ⊢
  rw [List.getElem?_map]
  cases hy : y[c]? with
  | none => rfl
  | some v => rw [hy] at this; simp only [Option.getD_some] at this; simp [this]

private theorem runs_after {answer : Data → (Nat → Rat) → Prop} {params : List Done → Values} {m0 : Moment} {h : List Done} {m : Moment}
    (hr : Runs N answer params m0 h m) : m = after N m0 h := by
  induction hr with
  | start => rfl
  | step _ _ ih => rw [ih]; unfold after; rw [List.foldl_append]; rfl

private theorem runs_units (answer : Net → Data → (Nat → Rat) → Prop)
    (ha : ∀ (k : Rat) (N : Net) (d : Data) (flow : Nat → Rat), PlainModel k d → answer N d flow → answer N (inUnits k d) fun n => k * flow n) : UnitFree answer := by
  intro k N params params' start h m hp hpl hr
  induction hr with
  | start => exact .start
  | @step h m flow hr hf ih =>
    have h0 : PlainRun k N start h := by
      intro h' t h'' e
      exact hpl h' t (h'' ++ [⟨params h, flow⟩]) (by rw [e]; simp)
    have h1 := hpl h _ [] rfl
    rw [← runs_after hr] at h1
    have hstep := ha k N _ flow h1.model hf
    simp only at hstep
    rw [← data_units, ← hp h] at hstep
    have := Runs.step (ih h0) hstep
    rw [List.map_append]
    have e1 : (⟨params' (h.map (Done.inUnits k)), fun n => k * flow n⟩ : Done) = Done.inUnits k ⟨params h, flow⟩ := by rw [hp h]; rfl
    rw [e1, hp h, next_units h1] at this
    exact this

/-! ## Theorems -/

/-- **C133 (flows and volumes).** A run of any length, with either solver and any of its answers or any cost-optimal ones, converted to other units of flow and volume, is a run of the
converted model: in every timestep the flows, volumes and what is left of licences are the converted ones and the fractions of storages are the same.  (The converse is the same statement for
the inverse factor.)  Excluded: runs in which limits, volumes or their differences are not zero but below 1e-8 (or, for volumes at the end of a timestep, below 1e-6) in one of the units. -/
theorem C133_units_partial : UnitFree routeAnswer ∧ UnitFree routeBest ∧ UnitFree edgeAnswer ∧ UnitFree edgeBest := by
  refine ⟨runs_units _ ?_, runs_units _ ?_, runs_units _ ?_, runs_units _ ?_⟩
  · rintro k N d flow hd ⟨x, hx, rfl⟩
    obtain ⟨h1, -, h3⟩ := C120_units_partial k d hd N.routes x
    exact ⟨_, h1.1 hx, commit_units k h3⟩
  · rintro k N d flow hd ⟨x, hx, ho, rfl⟩
    obtain ⟨-, -, h3⟩ := C120_units_partial k d hd N.routes x
    obtain ⟨h4, h5⟩ := (C120_units_optimal_partial k d hd N.routes x).1 ⟨hx, ho⟩
    exact ⟨_, h4, h5, commit_units k h3⟩
  · rintro k N d flow hd ⟨y, hy, hi, rfl⟩
    obtain ⟨h1, -, h3⟩ := C120_edge_units_partial k d hd N.graph y
    exact ⟨_, h1.1 hy, idle_units k _ _ hi, commit_units k h3⟩
  · rintro k N d flow hd ⟨y, hy, hi, ho, rfl⟩
    obtain ⟨-, -, h3⟩ := C120_edge_units_partial k d hd N.graph y
    obtain ⟨h4, h5⟩ := (C120_edge_units_optimal_partial k d hd N.graph y).1 ⟨hy, ho⟩
    exact ⟨_, h4, idle_units k _ _ hi, h5, commit_units k h3⟩

private theorem runs_currency {answer : Net → Data → (Nat → Rat) → Prop} {k : Rat} {N : Net} {params params' : List Done → Values} {start : Moment} {h : List Done} {m : Moment}
    (hp : ∀ h, params' (h.map (Done.inCurrency k)) = (params h).inCurrency k)
    (ha : ∀ t ∈ h, ∀ (m : Moment) (flow : Nat → Rat), answer N (N.data t.values m) flow → answer N (inCurrency k (N.data t.values m)) flow)
    (hr : Runs N (answer N) params start h m) : Runs N (answer N) params' start (h.map (Done.inCurrency k)) m := by
  induction hr with
  | start => exact .start
  | @step h m flow hr hf ih =>
    have h1 := ih fun t ht => ha t (List.mem_append_left _ ht)
    have h2 : answer N (N.data (params' (h.map (Done.inCurrency k))) m) flow := by
      rw [hp h]
      exact ha ⟨params h, flow⟩ (by simp) m flow hf
    have := Runs.step h1 h2
    rw [List.map_append]
    have e : N.next (params' (h.map (Done.inCurrency k))) flow m = N.next (params h) flow m := by rw [hp h]; rfl
    have e1 : (⟨params' (h.map (Done.inCurrency k)), flow⟩ : Done) = Done.inCurrency k ⟨params h, flow⟩ := by rw [hp h]; rfl
    rw [e, e1] at this
    exact this

/-- **C133 (costs, edge solver).** In another currency, a cost-optimal run of any length stays a cost-optimal run, with the same flows and volumes. -/
theorem C133_edge_currency (k : Rat) (hk : 0 < k) (N : Net) (params params' : List Done → Values) (start : Moment) (h : List Done) (m : Moment)
    (hp : ∀ h, params' (h.map (Done.inCurrency k)) = (params h).inCurrency k) (hr : Runs N (edgeBest N) params start h m) :
    Runs N (edgeBest N) params' start (h.map (Done.inCurrency k)) m := by
  refine runs_currency (answer := edgeBest) hp ?_ hr
  rintro t - m flow ⟨y, hy, hi, ho, rfl⟩
  obtain ⟨-, -, h3⟩ := C120_edge_currency k (N.data t.values m) hk N.graph y
  obtain ⟨h4, h5⟩ := h3.1 ⟨hy, ho⟩
  exact ⟨y, h4, hi, h5, rfl⟩

/-- **C133 (costs, route solver).** The same with the route solver, if in no timestep the cost of a route is below 1e-8 in one of the currencies without being zero. -/
theorem C133_currency_partial (k : Rat) (hk : 0 < k) (N : Net) (params params' : List Done → Values) (start : Moment) (h : List Done) (m : Moment)
    (hp : ∀ h, params' (h.map (Done.inCurrency k)) = (params h).inCurrency k)
    (hc : ∀ t ∈ h, ∀ r ∈ N.routes, Plain k (routeCost (N.data t.values start) r)) (hr : Runs N (routeBest N) params start h m) :
    Runs N (routeBest N) params' start (h.map (Done.inCurrency k)) m := by
  refine runs_currency (answer := routeBest) hp ?_ hr
  rintro t ht m flow ⟨x, hx, ho, rfl⟩
  obtain ⟨-, -, h3⟩ := C120_currency_partial k (N.data t.values m) hk N.routes (hc t ht) x
  obtain ⟨h4, h5⟩ := h3.1 ⟨hx, ho⟩
  exact ⟨x, h4, h5, rfl⟩

/-! ## Below 1e-6 -/

private def almostFull : Moment := ⟨fun _ => ⟨100 - 1 / 2000000, 0, 0, none⟩, fun _ => ⟨20, 0, 0, none⟩⟩

private def still : Nat → Rat := sampleNet.commit (routeNodeFlow (sampleNet.data (sampleValues 10) almostFull) sampleNet.routes [0, 0, 0])

/-- **C133 fails for volumes within 1e-6 of a limit.** A storage that is full but for half a millionth of a unit, and to which nothing happens, counts as full after the timestep; in units a
thousand times smaller it stays as it is. -/
theorem C133_units_fails : ∃ (k : Rat) (N : Net) (params params' : List Done → Values) (start : Moment) (h : List Done) (m : Moment), 0 < k ∧
    (∀ h, params' (h.map (Done.inUnits k)) = (params h).inUnits k) ∧ Runs N (routeAnswer N) params start h m ∧
      ¬Runs N (routeAnswer N) params' (start.inUnits k) (h.map (Done.inUnits k)) (m.inUnits k) := by
  refine ⟨1000, sampleNet, fun _ => sampleValues 10, fun _ => (sampleValues 10).inUnits 1000, almostFull, [⟨sampleValues 10, still⟩],
    sampleNet.next (sampleValues 10) still almostFull, by norm_num, fun _ => rfl, Runs.step (h := []) .start ⟨[0, 0, 0], by decide +kernel, rfl⟩, fun hr => ?_⟩
  have h1 := congrArg (fun m => (m.stores 0).volume) (runs_after hr)
  revert h1
  decide +kernel

/-! ## A concrete case -/

private def someFlow : Nat → Rat := sampleNet.commit (routeNodeFlow (sampleNet.data (sampleValues 10) sampleStart) sampleNet.routes [5, 3, 2])

/-- A run of a timestep with a storage, a virtual storage and an aggregated node meets the hypotheses of `C133_units_partial` for a thousandth of the units. -/
example : (∀ h : List Done, (fun _ => (sampleValues 10).inUnits 1000) (h.map (Done.inUnits 1000)) = ((fun _ => sampleValues 10 : List Done → Values) h).inUnits 1000) ∧
    PlainRun 1000 sampleNet sampleStart [⟨sampleValues 10, someFlow⟩] ∧
    Runs sampleNet (routeAnswer sampleNet) (fun _ => sampleValues 10) sampleStart [⟨sampleValues 10, someFlow⟩] (sampleNet.next (sampleValues 10) someFlow sampleStart) ∧
    (((sampleNet.next (sampleValues 10) someFlow sampleStart).inUnits 1000).stores 0).volume = 51000 := by
  refine ⟨fun _ => rfl, ?_, Runs.step (h := []) .start ⟨[5, 3, 2], by decide +kernel, rfl⟩, by decide +kernel⟩
  have hbig : (1000000 : Rat) < dblMax - 1 := by
    unfold dblMax
    exact_mod_cast (by decide +kernel : (1000000 : Int) < 2 ^ 1024 - 2 ^ 971 - 1)
  have z : LowerLimit (.fin 0) := .inr ⟨0, rfl, by constructor <;> linarith⟩
  have z' : LowerLimit (inUnit 1000 (.fin 0)) := .inr ⟨0, by simp [inUnit], by constructor <;> linarith⟩
  have plain : ∀ k q : Rat, 1 / 100 ≤ |q| → 1 / 100 ≤ |k * q| → Plain k q := fun k q h1 h2 => .inr ⟨le_trans (by unfold e8; norm_num) h1, le_trans (by unfold e8; norm_num) h2⟩
  intro h' t h'' e
  obtain ⟨rfl, rfl, rfl⟩ : h' = [] ∧ t = ⟨sampleValues 10, someFlow⟩ ∧ h'' = [] := by
    cases h' with
    | nil => simp at e; exact ⟨rfl, e.1.symm, e.2⟩
    | cons a l => simp at e
  refine ⟨⟨by norm_num, by norm_num [Net.data, sampleValues], ?_, ?_, ?_, ?_⟩, ?_, ?_⟩
  · intro n hn _
    show PlainLimits 1000 (.fin 0) (if n = 0 then .fin 10 else .posInf)
    split
    · refine ⟨⟨z, .inr ⟨10, rfl, by constructor <;> linarith⟩⟩, ⟨z', .inr ⟨1000 * 10, rfl, by constructor <;> linarith⟩⟩, fun p hp => ?_, fun q hq => ?_, fun p q hp hq => ?_⟩
      · cases hp; exact .inl rfl
      · cases hq; exact plain _ _ (by norm_num) (by norm_num)
      · cases hp; cases hq; exact plain _ _ (by norm_num) (by norm_num)
    · exact ⟨⟨z, .inl rfl⟩, ⟨z', .inl rfl⟩, fun p hp => (by cases hp; exact .inl rfl), fun q hq => (by cases hq), fun p q _ hq => (by cases hq)⟩
  · intro s hs
    simp only [Net.data, sampleNet, List.zipIdx_cons, List.zipIdx_nil, List.map_cons, List.map_nil, List.mem_singleton] at hs
    subst hs
    show PlainVolume 1000 50 100 0 1
    exact ⟨plain _ _ (by norm_num) (by norm_num), plain _ _ (by norm_num) (by norm_num), by constructor <;> linarith, by constructor <;> linarith⟩
  · intro s hs
    simp only [Net.data, sampleNet, List.zipIdx_cons, List.zipIdx_nil, List.map_cons, List.map_nil, List.mem_singleton] at hs
    subst hs
    show PlainVolume 1000 20 40 0 1
    exact ⟨plain _ _ (by norm_num) (by norm_num), plain _ _ (by norm_num) (by norm_num), by constructor <;> linarith, by constructor <;> linarith⟩
  · intro a ha
    obtain rfl := List.mem_singleton.1 ha
    refine ⟨⟨.inl rfl, .inr ⟨12, rfl, by constructor <;> linarith⟩⟩, ⟨.inl rfl, .inr ⟨1000 * 12, rfl, by constructor <;> linarith⟩⟩, fun p hp => (by cases hp), fun q hq => ?_, fun p q hp => (by cases hp)⟩
    cases hq; exact plain _ _ (by norm_num) (by norm_num)
  · intro i s hs
    match i, hs with
    | 0, hs =>
      cases hs
      unfold PlainFill PlainDifference
      decide +kernel
  · intro i s hs _
    match i, hs with
    | 0, hs =>
      cases hs
      unfold PlainFill PlainDifference
      decide +kernel

/-- The costs of this run meet the hypothesis of `C133_currency_partial`. -/
example : ∀ t ∈ [(⟨sampleValues 10, someFlow⟩ : Done)], ∀ r ∈ sampleNet.routes, Plain (1 / 100) (routeCost (sampleNet.data t.values sampleStart) r) := by
  intro t ht
  obtain rfl := List.mem_singleton.1 ht
  unfold Plain
  decide +kernel

end Verif.Simulation

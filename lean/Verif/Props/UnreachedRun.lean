import Verif.Spec.UnreachedRun
import Verif.Props.Binding
import Verif.Props.Cut
/-! # C135: limits that are not reached do not matter for whole runs -/

namespace Verif.Simulation

open Verif Verif.Lp Verif.Bounds

variable {N : Net}

/-! ## Helpers -/

private theorem commit_of {n : Nat} (h : n ∈ N.nodes ∧ N.kind n ≠ .other) (f : Nat → Rat) : N.commit f n = f n := if_pos h

private theorem stores_ok (hN : N.Ok) (v : Values) (m : Moment) : StoragesOk (N.data v m) := by
  have e1 : (N.data v m).storages.flatMap (·.inputs) = N.stores.flatMap (·.1) := by
    show (N.stores.zipIdx.map _).flatMap _ = _
    rw [List.flatMap_map]
    conv_rhs => rw [← List.zipIdx_map_fst 0 N.stores, List.flatMap_map]
  have e2 : (N.data v m).storages.flatMap (·.outputs) = N.stores.flatMap (·.2) := by
    show (N.stores.zipIdx.map _).flatMap _ = _
    rw [List.flatMap_map]
    conv_rhs => rw [← List.zipIdx_map_fst 0 N.stores, List.flatMap_map]
  refine ⟨by rw [e1]; exact hN.inputs, by rw [e2]; exact hN.outputs, ?_, ?_⟩
  · intro s hs n hn
    obtain ⟨q, hq, rfl⟩ := List.mem_map.1 (show s ∈ N.stores.zipIdx.map _ from hs)
    exact hN.inputKinds q.1 (List.fst_mem_of_mem_zipIdx hq) n hn
  · intro s hs n hn
    obtain ⟨q, hq, rfl⟩ := List.mem_map.1 (show s ∈ N.stores.zipIdx.map _ from hs)
    exact hN.outputKinds q.1 (List.fst_mem_of_mem_zipIdx hq) n hn

private theorem virtual_same {v v' : Values} {m m' : Moment} (hv : v'.refill = v.refill) (hm : SameVolumes m m') (i : Nat) : (m'.virtual v' i).volume = (m.virtual v i).volume := by
  unfold Moment.virtual
  rw [hv]
  cases v.refill i with
  | none => exact (hm.virtuals i).symm
  | some x => rfl

private theorem forall₂_of {α β : Type} {R : β → β → Prop} {f f' : α → β} {l : List α} (h : ∀ a ∈ l, R (f a) (f' a)) : List.Forall₂ R (l.map f) (l.map f') := by
  induction l with
  | nil => exact .nil
  | cons a l ih => exact .cons (h a (by simp)) (ih fun b hb => h b (by simp [hb]))

/-- The data of the two timesteps, with the flows as they are before committing. -/
private theorem only (hN : N.Ok) {m m' : Moment} {t t' : Done} (h : UnreachedStep N m t t') (hm : SameVolumes m m') {f : Nat → Rat} (hf : t.flow = N.commit f) :
    OnlyUnreached (N.data t.values m) (N.data t'.values m') f where
  kind := rfl
  nodes := rfl
  cost := h.cost
  cross := h.cross
  virtuals := by
    show N.virtuals.zipIdx.map _ = N.virtuals.zipIdx.map _
    refine List.map_congr_left fun q _ => ?_
    rw [h.licences.1, h.licences.2.2, virtual_same h.licences.2.1 hm]
  aggs := h.aggs
  days := h.days
  limits := by
    intro n hn hk
    have := h.flows n hn hk
    rw [hf, commit_of ⟨hn, hk⟩] at this
    exact this
  storages := by
    refine forall₂_of fun q hq => ?_
    have hi : N.stores[q.2]? = some q.1 := List.mem_zipIdx_iff_getElem?.1 hq
    have hs := List.mem_of_getElem? hi
    obtain ⟨h1, h2, h3, h4⟩ := h.volumes q.2 q.1 hi
    have e1 : q.1.2.map t.flow = q.1.2.map f := List.map_congr_left fun n hn => by
      rw [hf]; exact commit_of ⟨(hN.outputKinds q.1 hs n hn).1, by rw [(hN.outputKinds q.1 hs n hn).2]; decide⟩ f
    have e2 : q.1.1.map t.flow = q.1.1.map f := List.map_congr_left fun n hn => by
      rw [hf]; exact commit_of ⟨(hN.inputKinds q.1 hs n hn).1, by rw [(hN.inputKinds q.1 hs n hn).2]; decide⟩ f
    rw [e1, e2] at h3 h4
    exact ⟨⟨rfl, rfl, (hm.stores q.2).symm⟩, h1, h2, h3.imp id fun h => ⟨h.1.2, h.2.2⟩, h4.imp id fun h => ⟨h.1.2, h.2.2⟩⟩

private theorem snap_away {days mx mn mx' mn' v : Rat} (hl : mn' = mn ∨ WellAbove days mn v ∧ WellAbove days mn' v) (hu : mx' = mx ∨ WellBelow days mx v ∧ WellBelow days mx' v) :
    Storage.snap mx' mn' v = Storage.snap mx mn v := by
  have h6 : (0 : Rat) < Storage.e6 := by unfold Storage.e6; norm_num
  have far : ∀ {a b : Rat}, b + Storage.e6 ≤ a → ¬|a - b| < Storage.e6 := fun h c => by rw [abs_lt] at c; linarith [c.2]
  have far' : ∀ {a b : Rat}, a + Storage.e6 ≤ b → ¬|a - b| < Storage.e6 := fun h c => by rw [abs_lt] at c; linarith [c.1]
  unfold Storage.snap
  simp only
  rcases hu with rfl | ⟨⟨u1, -⟩, u2, -⟩
  · rcases hl with rfl | ⟨⟨l1, -⟩, l2, -⟩
    · rfl
    · split
      · rename_i hc
        rw [abs_lt] at hc
        rw [if_neg (far (by linarith [hc.2])), if_neg (far (by linarith [hc.2]))]
      · rw [if_neg (far (by linarith)), if_neg (far (by linarith))]
  · rw [if_neg (far' (b := mx') (by linarith)), if_neg (far' (b := mx) (by linarith))]
    rcases hl with rfl | ⟨⟨l1, -⟩, l2, -⟩
    · rfl
    · rw [if_neg (far (by linarith)), if_neg (far (by linarith))]

private theorem stored (v : Values) (flow : Nat → Rat) (s : List Nat × List Nat) (i : Nat) (st : Storage.State) :
    (storeStep v flow s i st).volume = Storage.snap (v.limits i).1 (v.limits i).2 (st.volume + ((s.2.map flow).sum - (s.1.map flow).sum) * v.days) := by
  have key : ∀ (cs : List Storage.Commit) (a : Storage.State), (cs.foldl Storage.State.commit a).volume = a.volume ∧ (cs.foldl Storage.State.commit a).flow = a.flow + (cs.map Storage.Commit.net).sum := by
    intro cs
    induction cs with
    | nil => intro a; simp
    | cons c cs ih =>
      intro a
      rw [List.foldl_cons, (ih _).1, (ih _).2]
      cases c <;> simp [Storage.State.commit, Storage.Commit.net] <;> ring
  unfold storeStep Storage.State.step Storage.State.after
  simp only
  rw [(key _ _).1, (key _ _).2, net_eq]
  simp [Storage.State.before]

private theorem next_away {m m' : Moment} {t t' : Done} (h : UnreachedStep N m t t') (hm : SameVolumes m m') :
    SameVolumes (N.next t.values t.flow m) (N.next t'.values t'.flow m') := by
  refine ⟨fun i => ?_, fun i => ?_⟩
  · unfold Net.next
    simp only
    cases hi : N.stores[i]? with
    | none => exact hm.stores i
    | some s =>
      have hv := h.volumes i s hi
      simp only [stored]
      rw [h.flow, h.days.1, ← hm.stores i]
      exact (snap_away hv.lower hv.upper).symm
  · unfold Net.next
    simp only
    cases N.virtuals[i]? with
    | none => exact hm.virtuals i
    | some s =>
      have hv := virtual_same h.licences.2.1 hm i
      simp only [virtualStep, VirtualStorage.VState.after, h.flow, h.days.1, h.licences.1, h.licences.2.2]
      split
      · simp only [Storage.State.after, hv]
      · exact hv.symm

private theorem route_flow_same {v v' : Values} {m m' : Moment} (x : List Rat) : routeNodeFlow (N.data v' m') N.routes x = routeNodeFlow (N.data v m) N.routes x := by
  funext n; rw [routeNodeFlow_eq_S, routeNodeFlow_eq_S]; rfl

private theorem edge_flow_same {v v' : Values} {m m' : Moment} (y : List Rat) : edgeNodeFlow (N.data v' m') N.graph y = edgeNodeFlow (N.data v m) N.graph y := by
  funext n; rw [edgeNodeFlow_S, edgeNodeFlow_S]; rfl

private theorem route_same (hN : N.Ok) {m m' : Moment} {t t' : Done} (h : UnreachedStep N m t t') (hm : SameVolumes m m') :
    routeBest N (N.data t.values m) t.flow ↔ routeBest N (N.data t'.values m') t'.flow := by
  unfold routeBest
  rw [h.flow]
  refine exists_congr fun x => ?_
  rw [route_flow_same (v' := t'.values) (v := t.values) (m := m) (m' := m') x, ← and_assoc, ← and_assoc]
  refine and_congr_left fun hf => ?_
  exact C125_unreached (N.data t.values m) _ N.routes hN.routes (stores_ok hN _ _) x (only hN h hm hf)

private theorem edge_same (hN : N.Ok) {m m' : Moment} {t t' : Done} (h : UnreachedStep N m t t') (hm : SameVolumes m m') :
    edgeBest N (N.data t.values m) t.flow ↔ edgeBest N (N.data t'.values m') t'.flow := by
  have key : ∀ y, (EdgeFeasible (N.data t.values m) N.graph y ∧ Idle N.graph y ∧ (∀ y', EdgeFeasible (N.data t.values m) N.graph y' → edgeObjective (N.data t.values m) N.graph y ≤ edgeObjective (N.data t.values m) N.graph y') ∧ t.flow = N.commit (edgeNodeFlow (N.data t.values m) N.graph y)) ↔
      (EdgeFeasible (N.data t'.values m') N.graph y ∧ Idle N.graph y ∧ (∀ y', EdgeFeasible (N.data t'.values m') N.graph y' → edgeObjective (N.data t'.values m') N.graph y ≤ edgeObjective (N.data t'.values m') N.graph y') ∧ t.flow = N.commit (edgeNodeFlow (N.data t'.values m') N.graph y)) := by
    intro y
    rw [edge_flow_same (v' := t'.values) (v := t.values) (m := m) (m' := m') y]
    constructor
    · rintro ⟨h1, h2, h3, h4⟩
      have := (C125_edge_unreached (N.data t.values m) (N.data t'.values m') N.graph hN.edges (stores_ok hN _ _) y h2 (only hN h hm h4)).1 ⟨h1, h3⟩
      exact ⟨this.1, h2, this.2, h4⟩
    · rintro ⟨h1, h2, h3, h4⟩
      have := (C125_edge_unreached (N.data t.values m) (N.data t'.values m') N.graph hN.edges (stores_ok hN _ _) y h2 (only hN h hm h4)).2 ⟨h1, h3⟩
      exact ⟨this.1, h2, this.2, h4⟩
  unfold edgeBest
  rw [h.flow]
  exact exists_congr key

private theorem after_snoc (start : Moment) (h : List Done) (t : Done) : after N start (h ++ [t]) = N.next t.values t.flow (after N start h) := by
  unfold after; rw [List.foldl_append]; rfl

private theorem says_init {params : List Done → Values} {h : List Done} {t : Done} (hs : Says params (h ++ [t])) : Says params h ∧ t.values = params h :=
  ⟨fun h₁ u h₂ e => hs h₁ u (h₂ ++ [t]) (by rw [e]; simp), hs h t [] rfl⟩

private theorem runs_last {answer : Data → (Nat → Rat) → Prop} {params : List Done → Values} {start : Moment} {h : List Done} {t : Done} (ht : t.values = params h) :
    Runs N answer params start (h ++ [t]) (after N start (h ++ [t])) ↔ Runs N answer params start h (after N start h) ∧ answer (N.data t.values (after N start h)) t.flow := by
  constructor
  · intro hr
    generalize e : h ++ [t] = k at hr
    generalize after N start k = m at hr
    cases hr with
    | start => simp at e
    | @step h' m' flow hr ha =>
      obtain ⟨rfl, e2⟩ := List.append_inj' e rfl
      have e2 : t = ⟨params h, flow⟩ := by simpa using e2
      subst e2
      rw [← C130_after _ _ _ _ hr]
      exact ⟨hr, ha⟩
  · rintro ⟨hr, ha⟩
    rw [after_snoc]
    obtain ⟨v, f⟩ := t
    simp only at ht ha ⊢
    subst ht
    exact .step hr ha

private theorem runs_same {answer : Data → (Nat → Rat) → Prop} {params params' : List Done → Values} {start : Moment}
    (hone : ∀ {m m' : Moment} {t t' : Done}, UnreachedStep N m t t' → SameVolumes m m' → (answer (N.data t.values m) t.flow ↔ answer (N.data t'.values m') t'.flow))
    {h h' : List Done} (hu : UnreachedRun N start h h') (hp : Says params h) (hp' : Says params' h') :
    (Runs N answer params start h (after N start h) ↔ Runs N answer params' start h' (after N start h')) ∧ SameVolumes (after N start h) (after N start h') := by
  induction hu with
  | start => exact ⟨⟨fun _ => .start, fun _ => .start⟩, fun _ => rfl, fun _ => rfl⟩
  | step hr ht ih =>
    obtain ⟨p1, p2⟩ := says_init hp
    obtain ⟨q1, q2⟩ := says_init hp'
    obtain ⟨i1, i2⟩ := ih p1 q1
    rw [runs_last p2, runs_last q2, i1, hone ht i2, after_snoc, after_snoc]
    exact ⟨Iff.rfl, next_away ht i2⟩

/-! ## Runs -/

/-- **C135 (route solver).** Two histories with the same flows that differ only in limits of flows and volumes that are never reached: one is a run of least cost in every timestep if and only if the other is, and they lead
to the same volumes. -/
theorem C135_unreached (hN : N.Ok) (params params' : List Done → Values) (start : Moment) (h h' : List Done) (hu : UnreachedRun N start h h') (hp : Says params h) (hp' : Says params' h') :
    ((∃ m, Runs N (routeBest N) params start h m) ↔ ∃ m', Runs N (routeBest N) params' start h' m') ∧
    ∀ m m', Runs N (routeBest N) params start h m → Runs N (routeBest N) params' start h' m' → SameVolumes m m' := by
  obtain ⟨h1, h2⟩ := runs_same (answer := routeBest N) (route_same hN) hu hp hp'
  refine ⟨⟨fun ⟨m, hr⟩ => ⟨_, h1.1 (C130_after _ _ _ _ hr ▸ hr)⟩, fun ⟨m, hr⟩ => ⟨_, h1.2 (C130_after _ _ _ _ hr ▸ hr)⟩⟩, fun m m' hr hr' => ?_⟩
  rw [C130_after _ _ _ _ hr, C130_after _ _ _ _ hr']
  exact h2

/-- **C135 (edge solver).** -/
theorem C135_edge_unreached (hN : N.Ok) (params params' : List Done → Values) (start : Moment) (h h' : List Done) (hu : UnreachedRun N start h h') (hp : Says params h) (hp' : Says params' h') :
    ((∃ m, Runs N (edgeBest N) params start h m) ↔ ∃ m', Runs N (edgeBest N) params' start h' m') ∧
    ∀ m m', Runs N (edgeBest N) params start h m → Runs N (edgeBest N) params' start h' m' → SameVolumes m m' := by
  obtain ⟨h1, h2⟩ := runs_same (answer := edgeBest N) (edge_same hN) hu hp hp'
  refine ⟨⟨fun ⟨m, hr⟩ => ⟨_, h1.1 (C130_after _ _ _ _ hr ▸ hr)⟩, fun ⟨m, hr⟩ => ⟨_, h1.2 (C130_after _ _ _ _ hr ▸ hr)⟩⟩, fun m m' hr hr' => ?_⟩
  rw [C130_after _ _ _ _ hr, C130_after _ _ _ _ hr']
  exact h2

private def someFlow (n : Nat) : Rat := match n with | 0 => 10 | 1 => 10 | 2 => 6 | 3 => 6 | 4 => 2 | 5 => 6 | _ => 0

private def moved : Values := { sampleValues 10 with limits := fun _ => (80, 20), maxFlow := fun n => if n = 0 then .fin 10 else .fin 30 }

private theorem ordinary : OrdinaryDouble 0 ∧ OrdinaryDouble 10 ∧ OrdinaryDouble 30 := by unfold OrdinaryDouble; decide +kernel

/-- A smaller reservoir that is neither full nor empty in either, and links of finite capacity; the input runs at its limit, which is the same. -/
example : UnreachedRun sampleNet sampleStart [⟨sampleValues 10, someFlow⟩] [⟨moved, someFlow⟩] ∧ Says (fun _ => sampleValues 10) [⟨sampleValues 10, someFlow⟩] ∧ Says (fun _ => moved) [⟨moved, someFlow⟩] := by
  refine ⟨.step (h := []) (h' := []) .start ⟨rfl, rfl, rfl, rfl, ⟨rfl, by decide⟩, ⟨rfl, rfl, rfl⟩, ?_, ?_⟩, ?_, ?_⟩
  · intro n hn _
    simp only [sampleNet, List.mem_cons, List.not_mem_nil, or_false] at hn
    rcases hn with rfl | rfl | rfl | rfl | rfl | rfl
    · exact ⟨by simp [sampleValues, moved, LowerLimit, UpperLimit, ordinary], .inl rfl, .inl rfl⟩
    all_goals exact ⟨by simp [sampleValues, moved, LowerLimit, UpperLimit, ordinary], .inl rfl, .inr (by simp [sampleValues, moved, someFlow, ClearOfUpper, e8]; try norm_num)⟩
  · intro i s hi
    have hd : (100 : Rat) ≤ dblMax - 1 := by decide +kernel
    match i, hi with
    | 0, hi =>
      cases hi
      refine ⟨?_, ?_, .inr ?_, .inr ?_⟩ <;> simp [after, sampleStart, sampleValues, moved, someFlow, WellAbove, WellBelow, Storage.e6, e8] <;> norm_num
      exact ⟨⟨by linarith, by linarith⟩, by linarith, by linarith⟩
    | k + 1, hi => simp [sampleNet] at hi
  all_goals
    intro h₁ t h₂ e
    cases h₁ with
    | nil => simp only [List.nil_append, List.cons.injEq] at e; rw [← e.1]
    | cons a l => simp at e

end Verif.Simulation

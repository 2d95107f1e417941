import Verif.Spec.WordingRun
import Verif.Props.Through
import Verif.Props.Wording
import Verif.Props.Twins
import Verif.Props.Apart
/-! # C134: whole runs of the same model in other words -/

namespace Verif.Simulation

open Verif Verif.Lp Verif.Bounds

variable {N N' : Net}

/-! ## Helpers -/

private theorem runs_alike {like : Done → Done → Prop} {answer : Net → Data → (Nat → Rat) → Prop} {params params' : List Done → Values} {start : Moment} (tr : Values → Values)
    (hp : ∀ h h', List.Forall₂ like h h' → params' h' = tr (params h))
    (h1 : ∀ h m flow, answer N (N.data (params h) m) flow → ∃ flow', answer N' (N'.data (tr (params h)) m) flow' ∧ like ⟨params h, flow⟩ ⟨tr (params h), flow'⟩)
    (h2 : ∀ h m flow', answer N' (N'.data (tr (params h)) m) flow' → ∃ flow, answer N (N.data (params h) m) flow ∧ like ⟨params h, flow⟩ ⟨tr (params h), flow'⟩)
    (h3 : ∀ h m flow flow', like ⟨params h, flow⟩ ⟨tr (params h), flow'⟩ → N'.next (tr (params h)) flow' m = N.next (params h) flow m) :
    RunsAlike like answer N N' params params' start := by
  constructor
  · intro h m hr
    induction hr with
    | start => exact ⟨[], .nil, .start⟩
    | @step h m flow _ ha ih =>
      obtain ⟨h', hh, hr'⟩ := ih
      obtain ⟨flow', ha', hl⟩ := h1 h m flow ha
      have e := hp h h' hh
      refine ⟨h' ++ [⟨params' h', flow'⟩], List.rel_append hh (.cons (by rw [e]; exact hl) .nil), ?_⟩
      rw [← h3 h m flow flow' hl, ← e]
      exact .step hr' (by rw [e]; exact ha')
  · intro h' m hr
    induction hr with
    | start => exact ⟨[], .nil, .start⟩
    | @step h' m flow' _ ha ih =>
      obtain ⟨h, hh, hr'⟩ := ih
      have e := hp h h' hh
      rw [e] at ha
      obtain ⟨flow, ha', hl⟩ := h2 h m flow' ha
      refine ⟨h ++ [⟨params h, flow⟩], List.rel_append hh (.cons (by rw [e]; exact hl) .nil), ?_⟩
      rw [e, h3 h m flow flow' hl]
      exact .step hr' ha'

private theorem next_like {N N' : Net} {v v' : Values} {flow flow' : Nat → Rat} {m : Moment} (hs : N'.stores = N.stores) (hv : N'.virtuals = N.virtuals)
    (e1 : v'.days = v.days) (e2 : v'.limits = v.limits) (e3 : v'.vlimits = v.vlimits) (e4 : v'.active = v.active) (e5 : v'.refill = v.refill)
    (f1 : ∀ s ∈ N.stores, ∀ n, n ∈ s.1 ∨ n ∈ s.2 → flow' n = flow n) (f2 : ∀ s ∈ N.virtuals, ∀ n ∈ s.1, flow' n = flow n) :
    N'.next v' flow' m = N.next v flow m := by
  unfold Net.next
  rw [hs, hv]
  refine congrArg₂ Moment.mk (funext fun i => ?_) (funext fun i => ?_)
  · cases h : N.stores[i]? with
    | none => rfl
    | some s =>
      have hm := List.mem_of_getElem? h
      simp only [storeStep, e1, e2]
      rw [List.map_congr_left fun n hn => by rw [f1 s hm n (.inl hn)], List.map_congr_left (l := s.2) fun n hn => by rw [f1 s hm n (.inr hn)]]
  · cases h : N.virtuals[i]? with
    | none => rfl
    | some s =>
      have hm := List.mem_of_getElem? h
      have hvv : m.virtual v' i = m.virtual v i := by unfold Moment.virtual; rw [e5]
      simp only [virtualStep, e1, e3, e4, hvv]
      rw [List.map_congr_left fun p hp => by rw [f2 s hm p.1 (List.of_mem_zip hp).1]]

private theorem plain_link (hl : N.NewLink l) {v : Values} (hv : v.Plain l) (m : Moment) : PlainLink (N.data v m) l where
  kind := hl.kind
  new := hl.new
  minFlow := hv.minFlow
  maxFlow := hv.maxFlow
  cost := hv.cost
  storages := by
    intro s hs
    obtain ⟨q, hq, rfl⟩ := List.mem_map.1 hs
    exact hl.stores q.1 (List.mem_iff_getElem?.2 ⟨q.2, List.mk_mem_zipIdx_iff_getElem?.1 hq⟩)
  virtuals := by
    intro s hs
    obtain ⟨q, hq, rfl⟩ := List.mem_map.1 hs
    exact hl.virtuals q.1 (List.mem_iff_getElem?.2 ⟨q.2, List.mk_mem_zipIdx_iff_getElem?.1 hq⟩)
  aggs := hv.aggs
  cross := hv.cross

private theorem commit_link {a b l : Nat} {f f' : Nat → Rat} (h : ∀ n, n ≠ l → f' n = f n) (n : Nat) (hn : n ≠ l) : (N.withLink a b l).commit f' n = N.commit f n := by
  unfold Net.commit Net.withLink
  simp [hn, h n hn]

private theorem alike_link {answer : Net → Data → (Nat → Rat) → Prop} {a b l : Nat} {params params' : List Done → Values} {start : Moment} (hl : N.NewLink l)
    (hp : ∀ h h', List.Forall₂ (LikeBut l) h h' → params' h' = params h)
    (h1 : ∀ h m flow, answer N (N.data (params h) m) flow → ∃ flow', answer (N.withLink a b l) ((N.withLink a b l).data (params h) m) flow' ∧ ∀ n, n ≠ l → flow' n = flow n)
    (h2 : ∀ h m flow', answer (N.withLink a b l) ((N.withLink a b l).data (params h) m) flow' → ∃ flow, answer N (N.data (params h) m) flow ∧ ∀ n, n ≠ l → flow' n = flow n) :
    RunsAlike (LikeBut l) answer N (N.withLink a b l) params params' start := by
  refine runs_alike id hp (fun h m flow ha => ?_) (fun h m flow' ha => ?_) (fun h m flow flow' hf => ?_)
  · obtain ⟨flow', ha', hf⟩ := h1 h m flow ha
    exact ⟨flow', ha', rfl, hf⟩
  · obtain ⟨flow, ha', hf⟩ := h2 h m flow' ha
    exact ⟨flow, ha', rfl, hf⟩
  · refine next_like (N' := N.withLink a b l) rfl rfl rfl rfl rfl rfl rfl (fun s hs n hn => hf.2 n fun e => ?_) (fun s hs n hn => hf.2 n fun e => ?_)
    · subst e
      exact hn.elim (hl.stores s hs).1 (hl.stores s hs).2
    · subst e
      exact hl.virtuals s hs hn

private theorem idle_double {g : Graph} {a b l : Nat} (hab : g.domain a = g.domain l) (hbl : g.domain b = g.domain l) (y : List Rat) (hlen : y.length = g.edges.length) :
    Idle (g.split a b l) (double a b g.edges y) ↔ Idle g y := by
  have hlen' : ∀ (es : List (Nat × Nat)) (y : List Rat), y.length = es.length → (double a b es y).length = (splitEdges a b l es).length := by
    intro es
    induction es with
    | nil => intro y h; cases y <;> simp_all [double, splitEdges]
    | cons e es ih =>
      intro y h
      cases y with
      | nil => simp at h
      | cons v y =>
        unfold double splitEdges
        split <;> simp [ih y (by simpa using h)]
  rw [idle_zip _ _ (hlen' _ _ hlen), idle_zip _ _ hlen]
  change (∀ p ∈ (splitEdges a b l g.edges).zip (double a b g.edges y), g.domain p.1.1 ≠ g.domain p.1.2 → p.2 = 0) ↔ _
  generalize g.edges = es at *
  induction es generalizing y with
  | nil => cases y <;> simp_all [double, splitEdges]
  | cons e es ih =>
    cases y with
    | nil => simp at hlen
    | cons v y =>
      have := ih y (by simpa using hlen)
      unfold double splitEdges
      split
      · rename_i he
        subst he
        simp only [List.zip_cons_cons, List.forall_mem_cons, this, hab, hbl, ne_eq, not_true_eq_false, false_imp_iff, true_and]
      · simp only [List.zip_cons_cons, List.forall_mem_cons, this]

private theorem commit_same (hk : N'.kind = N.kind) {f f' : Nat → Rat} (hn : ∀ n, N.kind n ≠ .other → (n ∈ N'.nodes ↔ n ∈ N.nodes) ∨ f n = 0) (h : ∀ n, f' n = f n) : N'.commit f' = N.commit f := by
  funext n
  unfold Net.commit
  rw [hk, h]
  by_cases hx : N.kind n = .other
  · simp [hx]
  · rcases hn n hx with e | e
    · simp only [e]
    · simp [e]

private theorem nodeCoef_off {d : Data} {r : List Nat} {n : Nat} (h : n ∉ r) : nodeCoef d r n = 0 := by
  unfold nodeCoef
  apply List.sum_eq_zero
  intro v hv
  obtain ⟨p, hp, rfl⟩ := List.mem_map.1 hv
  have : p.1 ∈ r := by
    have := List.mem_zipIdx' hp
    rw [this.2]; exact List.getElem_mem _
  rw [if_neg]
  rintro ⟨rfl, -⟩
  exact h this

/-! ## A link put into a connection -/

/-- **C134 (link, route solver).** The part of the statement that holds (see C122_unused_fails): at least one supply route takes the connection. -/
theorem C134_link_partial (hN : N.Ok) (a b l : Nat) (hl : N.NewLink l) (hu : ∃ r ∈ N.routes, takes a b r = true) (params params' : List Done → Values) (hv : ∀ h, (params h).Plain l)
    (hp : ∀ h h', List.Forall₂ (LikeBut l) h h' → params' h' = params h) (start : Moment) :
    RunsAlike (LikeBut l) routeAnswer N (N.withLink a b l) params params' start ∧ RunsAlike (LikeBut l) routeBest N (N.withLink a b l) params params' start := by
  have key := fun h m x => C122_route_partial (N.data (params h) m) N.routes hN.routes a b l (plain_link hl (hv h) m) hu x
  constructor
  · refine alike_link hl hp ?_ ?_
    · rintro h m flow ⟨x, hx, rfl⟩
      obtain ⟨k1, -, -, k4, -⟩ := key h m x
      exact ⟨_, ⟨x, k1.2 hx, rfl⟩, commit_link k4⟩
    · rintro h m flow ⟨x, hx, rfl⟩
      obtain ⟨k1, -, -, k4, -⟩ := key h m x
      exact ⟨_, ⟨x, k1.1 hx, rfl⟩, commit_link k4⟩
  · refine alike_link hl hp ?_ ?_
    · rintro h m flow ⟨x, hx, ho, rfl⟩
      obtain ⟨-, -, k3, k4, -⟩ := key h m x
      obtain ⟨o1, o2⟩ := k3.2 ⟨hx, ho⟩
      exact ⟨_, ⟨x, o1, o2, rfl⟩, commit_link k4⟩
    · rintro h m flow ⟨x, hx, ho, rfl⟩
      obtain ⟨-, -, k3, k4, -⟩ := key h m x
      obtain ⟨o1, o2⟩ := k3.1 ⟨hx, ho⟩
      exact ⟨_, ⟨x, o1, o2, rfl⟩, commit_link k4⟩

/-- **C134 (link, edge solver).** The part of the statement that holds (see C122_edge_fails): no component counts both ends of the connection. -/
theorem C134_edge_link_partial (hN : N.Ok) (hn : N.graph.edges.Nodup) (a b l : Nat) (hab : (a, b) ∈ N.graph.edges) (ha : N.graph.domain a = N.graph.domain l) (hb : N.graph.domain b = N.graph.domain l)
    (hl : N.NewLink l) (params params' : List Done → Values) (hv : ∀ h, (params h).Plain l) (he : ∀ h m, EndsApart (N.data (params h) m) a b)
    (hp : ∀ h h', List.Forall₂ (LikeBut l) h h' → params' h' = params h) (start : Moment) :
    RunsAlike (LikeBut l) edgeAnswer N (N.withLink a b l) params params' start ∧ RunsAlike (LikeBut l) edgeBest N (N.withLink a b l) params params' start := by
  have key := fun h m => C122_edge_partial (N.data (params h) m) N.graph hN.edges hn a b l hab ha hb (plain_link hl (hv h) m) (he h m)
  have len : ∀ {d y}, EdgeFeasible d N.graph y → y.length = N.graph.edges.length := fun h => ((edgeFeasible_iff _ _ _).1 h).2.1
  constructor
  · refine alike_link hl hp ?_ ?_
    · rintro h m flow ⟨y, hy, hi, rfl⟩
      obtain ⟨k1, k2⟩ := key h m
      exact ⟨_, ⟨double a b N.graph.edges y, (k1 _).2 ⟨y, hy, rfl⟩, (idle_double ha hb y (len hy)).2 hi, rfl⟩, commit_link (k2 y (len hy)).2.2.1⟩
    · rintro h m flow ⟨y', hy', hi, rfl⟩
      obtain ⟨k1, k2⟩ := key h m
      obtain ⟨y, hy, rfl⟩ := (k1 y').1 hy'
      exact ⟨_, ⟨y, hy, (idle_double ha hb y (len hy)).1 hi, rfl⟩, commit_link (k2 y (len hy)).2.2.1⟩
  · refine alike_link hl hp ?_ ?_
    · rintro h m flow ⟨y, hy, hi, ho, rfl⟩
      obtain ⟨-, k2⟩ := key h m
      obtain ⟨-, k4, k5, -⟩ := k2 y (len hy)
      obtain ⟨o1, o2⟩ := k4.2 ⟨hy, ho⟩
      exact ⟨_, ⟨double a b N.graph.edges y, o1, (idle_double ha hb y (len hy)).2 hi, o2, rfl⟩, commit_link k5⟩
    · rintro h m flow ⟨y', hy', hi, ho, rfl⟩
      obtain ⟨k1, k2⟩ := key h m
      obtain ⟨y, hy, rfl⟩ := (k1 y').1 hy'
      obtain ⟨-, k4, k5, -⟩ := k2 y (len hy)
      obtain ⟨o1, o2⟩ := k4.1 ⟨hy', ho⟩
      exact ⟨_, ⟨y, o1, (idle_double ha hb y (len hy)).1 hi, o2, rfl⟩, commit_link k5⟩

/-! ## Limits of a node in an aggregated node -/

private theorem alike_grouped {answer : Net → Data → (Nat → Rat) → Prop} {n : Nat} {params params' : List Done → Values} {start : Moment}
    (hp : ∀ h h', List.Forall₂ (LikeGrouped n) h h' → params' h' = (params h).grouped n)
    (h1 : ∀ h m flow, answer N (grouped (N.data (params h) m) n) flow ↔ answer N (N.data (params h) m) flow) :
    RunsAlike (LikeGrouped n) answer N N params params' start := by
  refine runs_alike (fun v => v.grouped n) hp (fun h m flow ha => ⟨flow, (h1 h m flow).2 ha, rfl, rfl⟩) (fun h m flow ha => ⟨flow, (h1 h m flow).1 ha, rfl, rfl⟩) (fun h m flow flow' hf => ?_)
  have e : flow' = flow := hf.2
  subst e
  exact next_like rfl rfl rfl rfl rfl rfl rfl (fun _ _ _ _ => rfl) (fun _ _ _ _ => rfl)

/-- **C134 (aggregated node, route solver).** The part of the statement that holds (see C123_grouped_fails): the node is not passed in the middle of a route (an input or output there is not counted). -/
theorem C134_grouped_partial (n : Nat) (hn : n ∈ N.nodes) (hk : N.kind n ≠ .other) (hr : ∀ v m, NoPassThrough (N.data v m) N.routes n) (params params' : List Done → Values)
    (hp : ∀ h h', List.Forall₂ (LikeGrouped n) h h' → params' h' = (params h).grouped n) (start : Moment) :
    RunsAlike (LikeGrouped n) routeAnswer N N params params' start ∧ RunsAlike (LikeGrouped n) routeBest N N params params' start := by
  have key := fun h m x => C123_grouped_partial (N.data (params h) m) N.routes n hn hk (hr _ _) x
  constructor
  · refine alike_grouped hp fun h m flow => ?_
    unfold routeAnswer
    exact exists_congr fun x => and_congr (key h m x).1 Iff.rfl
  · refine alike_grouped hp fun h m flow => ?_
    unfold routeBest
    exact exists_congr fun x => and_congr (key h m x).1 (and_congr (forall_congr' fun x' => imp_congr (key h m x').1 Iff.rfl) Iff.rfl)

/-- **C134 (aggregated node, edge solver).** -/
theorem C134_edge_grouped (n : Nat) (hn : n ∈ N.nodes) (hk : N.kind n ≠ .other) (params params' : List Done → Values)
    (hp : ∀ h h', List.Forall₂ (LikeGrouped n) h h' → params' h' = (params h).grouped n) (start : Moment) :
    RunsAlike (LikeGrouped n) edgeAnswer N N params params' start ∧ RunsAlike (LikeGrouped n) edgeBest N N params params' start := by
  have key := fun h m y => C123_edge_grouped (N.data (params h) m) N.graph n hn hk y
  constructor
  · refine alike_grouped hp fun h m flow => ?_
    unfold edgeAnswer
    exact exists_congr fun x => and_congr (key h m x).1 Iff.rfl
  · refine alike_grouped hp fun h m flow => ?_
    unfold edgeBest
    exact exists_congr fun x => and_congr (key h m x).1 (and_congr Iff.rfl (and_congr (forall_congr' fun x' => imp_congr (key h m x').1 Iff.rfl) Iff.rfl))

/-! ## Nodes that are closed -/

private theorem alike_adds {answer : Net → Data → (Nat → Rat) → Prop} {new : List Nat} (hA : Adds new N N') {params params' : List Done → Values} {start : Moment}
    (hp : ∀ h h', List.Forall₂ LikeAll h h' → params' h' = params h)
    (h1 : ∀ h m flow, answer N' { N.data (params h) m with nodes := (N.data (params h) m).nodes ++ new } flow ↔ answer N (N.data (params h) m) flow) :
    RunsAlike LikeAll answer N N' params params' start := by
  have hd : ∀ v m, N'.data v m = { N.data v m with nodes := (N.data v m).nodes ++ new } := fun v m => by
    unfold Net.data
    simp only [hA.kind, hA.nodes, hA.stores, hA.virtuals]
  refine runs_alike id hp (fun h m flow ha => ⟨flow, by rw [hd]; exact (h1 h m flow).2 ha, rfl, rfl⟩)
    (fun h m flow ha => ⟨flow, (h1 h m flow).1 (by rw [hd] at ha; exact ha), rfl, rfl⟩) (fun h m flow flow' hf => ?_)
  have e : flow' = flow := hf.2
  subst e
  exact next_like hA.stores hA.virtuals rfl rfl rfl rfl rfl (fun _ _ _ _ => rfl) (fun _ _ _ _ => rfl)

private theorem commit_adds {new : List Nat} (hA : Adds new N N') {f f' : Nat → Rat} (h0 : ∀ n ∈ new, f n = 0) (h : ∀ n, f' n = f n) : N'.commit f' = N.commit f := by
  refine commit_same hA.kind (fun n _ => ?_) h
  by_cases hn : n ∈ new
  · exact .inr (h0 n hn)
  · left
    rw [hA.nodes, List.mem_append]
    simp [hn]

/-- **C134 (closed nodes, route solver).** The part of the statement that holds (see C123_closed_fails): the nodes are not passed in the middle of a route (an input or output there is not counted), and both
problems can be built (every node is on a route). -/
theorem C134_closed_partial (new : List Nat) (hA : Adds new N N') (hk : ∀ n ∈ new, N.kind n ≠ .other) (hr : ∀ v m, ∀ n ∈ new, NoPassThrough (N.data v m) N'.routes n) (params params' : List Done → Values)
    (hc : ∀ h m, ∀ n ∈ new, Closed (N.data (params h) m) n) (hb : ∀ h m, ∃ rows, routeRows (N.data (params h) m) N.routes = .ok rows) (hb' : ∀ h m, ∃ rows, routeRows (N'.data (params h) m) N'.routes = .ok rows)
    (hp : ∀ h h', List.Forall₂ LikeAll h h' → params' h' = params h) (start : Moment) :
    RunsAlike LikeAll routeAnswer N N' params params' start ∧ RunsAlike LikeAll routeBest N N' params params' start := by
  have hd : ∀ v m, N'.data v m = { N.data v m with nodes := (N.data v m).nodes ++ new } := fun v m => by
    unfold Net.data
    simp only [hA.kind, hA.nodes, hA.stores, hA.virtuals]
  have off : ∀ {r}, avoids new r = true → ∀ n ∈ new, n ∉ r := by
    intro r h n hn hr
    unfold avoids at h
    have := List.all_eq_true.1 h n hr
    simp [hn] at this
  have down := fun h m z hz => C123_closed_partial (N.data (params h) m) new N'.routes (fun n hn => ⟨hc h m n hn, hk n hn, hr _ _ n hn⟩) (by rw [← hA.routes]; exact hb h m) z hz
  have up := fun h m x hx => C119_added (N.data (params h) m) new N'.routes (avoids new) (by rw [← hd]; exact hb' h m) (fun n hn => (hc h m n hn).1) (fun r _ h => off h) x hx
  simp only [← hA.routes] at down up
  have zero : ∀ d x, ∀ n ∈ new, routeNodeFlow d N.routes x n = 0 := by
    intro d x n hn
    rw [routeNodeFlow_eq_S, S_congr (g := fun _ => 0), S_zero]
    intro r hr
    rw [hA.routes] at hr
    exact nodeCoef_off (off (List.mem_filter.1 hr).2 n hn)
  constructor
  · refine alike_adds hA hp fun h m flow => ⟨?_, ?_⟩
    · rintro ⟨z, hz, rfl⟩
      obtain ⟨-, h1, -, h3⟩ := down h m z hz
      exact ⟨_, h1, commit_adds hA (zero _ _) fun n => (h3 n).symm⟩
    · rintro ⟨x, hx, rfl⟩
      obtain ⟨z, h1, -, h3, -⟩ := up h m x hx
      exact ⟨z, h1, (commit_adds hA (zero _ _) h3).symm⟩
  · refine alike_adds hA hp fun h m flow => ⟨?_, ?_⟩
    · rintro ⟨z, hz, ho, rfl⟩
      obtain ⟨-, h1, h2, h3⟩ := down h m z hz
      refine ⟨_, h1, fun x' hx' => ?_, commit_adds hA (zero _ _) fun n => (h3 n).symm⟩
      obtain ⟨z', k1, k2, -⟩ := up h m x' hx'
      rw [h2, ← k2]
      exact ho z' k1
    · rintro ⟨x, hx, ho, rfl⟩
      obtain ⟨z, h1, h2, h3, -⟩ := up h m x hx
      refine ⟨z, h1, fun z' hz' => ?_, (commit_adds hA (zero _ _) h3).symm⟩
      obtain ⟨-, k1, k2, -⟩ := down h m z' hz'
      rw [h2, ← k2]
      exact ho _ k1

/-- **C134 (closed nodes, edge solver).** For models in which both problems can be built (every node has connections). -/
theorem C134_edge_closed (new : List Nat) (hA : Adds new N N') (hk : ∀ n ∈ new, N.kind n ≠ .other)
    (params params' : List Done → Values)
    (hc : ∀ h m, ∀ n ∈ new, Closed (N.data (params h) m) n) (hb : ∀ h m, ∃ rows, edgeRows (N.data (params h) m) N.graph = .ok rows) (hb' : ∀ h m, ∃ rows, edgeRows (N'.data (params h) m) N'.graph = .ok rows)
    (hp : ∀ h h', List.Forall₂ LikeAll h h' → params' h' = params h) (start : Moment) :
    RunsAlike LikeAll edgeAnswer N N' params params' start ∧ RunsAlike LikeAll edgeBest N N' params params' start := by
  have hd : ∀ v m, N'.data v m = { N.data v m with nodes := (N.data v m).nodes ++ new } := fun v m => by
    unfold Net.data
    simp only [hA.kind, hA.nodes, hA.stores, hA.virtuals]
  have off : ∀ e ∈ N'.graph.edges, avoidsE new e = true → ∀ n ∈ new, e.1 ≠ n ∧ e.2 ≠ n := by
    intro e _ h n hn
    unfold avoidsE at h
    constructor
    · rintro rfl; simp [hn] at h
    · rintro rfl; simp [hn] at h
  have len : ∀ {d g y}, EdgeFeasible d g y → y.length = g.edges.length := fun h => ((edgeFeasible_iff _ _ _).1 h).2.1
  have hes : N.graph.edges = N'.graph.edges.filter (avoidsE new) := by rw [hA.graph]
  have hdo : N.graph.domain = N'.graph.domain := by rw [hA.graph]
  have idle : ∀ z, z.length = N'.graph.edges.length → Idle N'.graph z → Idle N.graph (pick (avoidsE new) N'.graph.edges z) := by
    intro z hl hi
    rw [idle_zip _ _ hl] at hi
    rw [idle_zip _ _ (by rw [hes]; exact pick_length _ _ _ hl), hes, hdo, zip_filter _ _ _ hl]
    exact fun p hp => hi p (List.mem_filter.1 hp).1
  have idle' : ∀ y z, z.length = N'.graph.edges.length → y.length = N.graph.edges.length → (∀ p ∈ N'.graph.edges.zip z, p.2 ≠ 0 → p ∈ N.graph.edges.zip y) → Idle N.graph y → Idle N'.graph z := by
    intro y z hl hl' hpz hi
    rw [idle_zip _ _ hl'] at hi
    rw [idle_zip _ _ hl]
    intro p hp hne
    by_contra h0
    exact h0 (hi p (hpz p hp h0) (by rw [hdo]; exact hne))
  have quiet : ∀ {d z}, EdgeFeasible d N'.graph z → ∃ z', EdgeFeasible d N'.graph z' ∧ Idle N'.graph z' ∧ edgeObjective d N'.graph z' = edgeObjective d N'.graph z := by
    intro d z hz
    obtain ⟨h1, h2, h3⟩ := (feasible_inner d N'.graph z).1 hz
    obtain ⟨y, k1, k2, k3, k4⟩ := exists_lift N'.graph (innerVals N'.graph z) (len h1) ((edgeFeasible_iff _ _ _).1 h1).2.2.1
    exact ⟨y, (feasible_inner d N'.graph y).2 ⟨by rw [k3]; exact h1, k1, k2⟩, k4, by rw [objective_inner, objective_inner d N'.graph z, k3]⟩
  have down := fun h m z hz => C123_edge_closed (N.data (params h) m) new N'.graph (fun n hn => ⟨hc h m n hn, hk n hn⟩) (by rw [← hA.graph]; exact hb h m) z hz
  have up := fun h m x hx => C119_edge_added (N.data (params h) m) new N'.graph (avoidsE new) (by rw [← hd]; exact hb' h m) (fun n hn => (hc h m n hn).1) off x hx
  simp only [← hA.graph] at down up
  have zero : ∀ d x, ∀ n ∈ new, edgeNodeFlow d N.graph x n = 0 := by
    intro d x n hn
    rw [edgeNodeFlow_S, S_congr (g := fun _ => 0), S_zero]
    intro e he
    rw [hA.graph] at he
    have := off e (List.mem_filter.1 he).1 (List.mem_filter.1 he).2 n hn
    simp [this]
  constructor
  · refine alike_adds hA hp fun h m flow => ⟨?_, ?_⟩
    · rintro ⟨z, hz, hi, rfl⟩
      obtain ⟨-, h1, -, h3⟩ := down h m z hz hi
      exact ⟨_, h1, idle z (len hz) hi, commit_adds hA (zero _ _) fun n => (h3 n).symm⟩
    · rintro ⟨x, hx, hi, rfl⟩
      obtain ⟨z, h1, -, h3, h4⟩ := up h m x hx
      exact ⟨z, h1, idle' x z (len h1) (len hx) (by rw [hes]; exact h4) hi, (commit_adds hA (zero _ _) h3).symm⟩
  · refine alike_adds hA hp fun h m flow => ⟨?_, ?_⟩
    · rintro ⟨z, hz, hi, ho, rfl⟩
      obtain ⟨-, h1, h2, h3⟩ := down h m z hz hi
      refine ⟨_, h1, idle z (len hz) hi, fun x' hx' => ?_, commit_adds hA (zero _ _) fun n => (h3 n).symm⟩
      obtain ⟨z', k1, k2, -⟩ := up h m x' hx'
      rw [h2, ← k2]
      exact ho z' k1
    · rintro ⟨x, hx, hi, ho, rfl⟩
      obtain ⟨z, h1, h2, h3, h4⟩ := up h m x hx
      refine ⟨z, h1, idle' x z (len h1) (len hx) (by rw [hes]; exact h4) hi, fun z' hz' => ?_, (commit_adds hA (zero _ _) h3).symm⟩
      obtain ⟨z2, q1, q2, q3⟩ := quiet hz'
      obtain ⟨-, k1, k2, -⟩ := down h m z2 q1 q2
      rw [h2, ← q3, ← k2]
      exact ho _ k1

/-! ## Two supplies -/

private theorem alike_joined {answer : Net → Data → (Nat → Rat) → Prop} {a b : Nat} (hk : N'.stores = N.stores ∧ N'.virtuals = N.virtuals) {params params' : List Done → Values} {start : Moment}
    (hap : (∀ s ∈ N.stores, (a ∉ s.1 ∧ a ∉ s.2) ∧ b ∉ s.1 ∧ b ∉ s.2) ∧ ∀ s ∈ N.virtuals, a ∉ s.1 ∧ b ∉ s.1)
    (hp : ∀ h h', List.Forall₂ (LikeJoined a b) h h' → params' h' = (params h).joined a b)
    (h1 : ∀ h m flow, answer N (N.data (params h) m) flow →
      ∃ flow', answer N' (N'.data ((params h).joined a b) m) flow' ∧ flow' a = flow a + flow b ∧ ∀ n, n ≠ a → n ≠ b → flow' n = flow n)
    (h2 : ∀ h m flow', answer N' (N'.data ((params h).joined a b) m) flow' →
      ∃ flow, answer N (N.data (params h) m) flow ∧ flow' a = flow a + flow b ∧ ∀ n, n ≠ a → n ≠ b → flow' n = flow n) :
    RunsAlike (LikeJoined a b) answer N N' params params' start := by
  refine runs_alike (fun v => v.joined a b) hp (fun h m flow ha => ?_) (fun h m flow' ha => ?_) (fun h m flow flow' hf => ?_)
  · obtain ⟨flow', ha', hf⟩ := h1 h m flow ha
    exact ⟨flow', ha', rfl, hf⟩
  · obtain ⟨flow, ha', hf⟩ := h2 h m flow' ha
    exact ⟨flow, ha', rfl, hf⟩
  · refine next_like hk.1 hk.2 rfl rfl rfl rfl rfl (fun s hs n hn => hf.2.2 n (fun e => ?_) fun e => ?_) (fun s hs n hn => hf.2.2 n (fun e => ?_) fun e => ?_)
    · subst e; exact hn.elim (hap.1 s hs).1.1 (hap.1 s hs).1.2
    · subst e; exact hn.elim (hap.1 s hs).2.1 (hap.1 s hs).2.2
    · subst e; exact (hap.2 s hs).1 hn
    · subst e; exact (hap.2 s hs).2 hn

private theorem twins_apart {a b : Nat} {v : Values} {m : Moment} {A B : Rat} (h : Twins (N.data v m) a b A B) :
    (∀ s ∈ N.stores, (a ∉ s.1 ∧ a ∉ s.2) ∧ b ∉ s.1 ∧ b ∉ s.2) ∧ ∀ s ∈ N.virtuals, a ∉ s.1 ∧ b ∉ s.1 := by
  constructor
  · intro s hs
    obtain ⟨i, hi⟩ := List.mem_iff_getElem?.1 hs
    have hm := List.mem_map_of_mem (f := fun q : (List Nat × List Nat) × Nat => (⟨q.1.1, q.1.2, (m.stores q.2).volume, (v.limits q.2).1, (v.limits q.2).2⟩ : StorageData)) (List.mk_mem_zipIdx_iff_getElem?.2 hi)
    exact ⟨h.apart.1.storages _ hm, h.apart.2.storages _ hm⟩
  · intro s hs
    obtain ⟨i, hi⟩ := List.mem_iff_getElem?.1 hs
    have hm := List.mem_map_of_mem (f := fun q : (List Nat × List Rat) × Nat => (⟨q.1.1, q.1.2, v.active q.2, (m.virtual v q.2).volume, (v.vlimits q.2).1, (v.vlimits q.2).2⟩ : VirtualData)) (List.mk_mem_zipIdx_iff_getElem?.2 hi)
    exact ⟨h.apart.1.virtuals _ hm, h.apart.2.virtuals _ hm⟩

private theorem data_joined {a b : Nat} {rest T : List (List Nat)} {edges : List (Nat × Nat)} {ends : List Nat} {v : Values} {m : Moment} {A B : Rat} (h : Twins (N.data v m) a b A B) :
    (N.joined a b rest T edges ends).data (v.joined a b) m = joined (N.data v m) a b A B := by
  have e1 : v.maxFlow a = .fin A := h.upper.1
  have e2 : v.maxFlow b = .fin B := h.upper.2
  unfold Net.data Net.joined joined Values.joined
  simp only [e1, e2, sumLimit, Moment.virtual]

private theorem commit_joined {a b : Nat} {rest T : List (List Nat)} {edges : List (Nat × Nat)} {ends : List Nat} {v : Values} {m : Moment} {A B : Rat} (h : Twins (N.data v m) a b A B) {f f' : Nat → Rat}
    (h1 : f' a = f a + f b) (h2 : ∀ n, n ≠ a → n ≠ b → f' n = f n) :
    (N.joined a b rest T edges ends).commit f' a = N.commit f a + N.commit f b ∧ ∀ n, n ≠ a → n ≠ b → (N.joined a b rest T edges ends).commit f' n = N.commit f n := by
  have k1 : N.kind a = .input := h.kind.1
  have k2 : N.kind b = .input := h.kind.2
  have m1 : a ∈ N.nodes := h.here.1
  have m2 : b ∈ N.nodes := h.here.2
  unfold Net.commit Net.joined
  refine ⟨?_, fun n ha hb => ?_⟩
  · simp [k1, k2, m1, m2, h.differ, h1]
  · simp [hb, h2 n ha hb]

/-- **C134 (two supplies, route solver).** Two supplies of the same cost from which the same routes go on, or one with both limits together. -/
theorem C134_joined (a b : Nat) (rest T : List (List Nat)) (edges : List (Nat × Nat)) (ends : List Nat) (hr : N.routes = rest ++ T.map (a :: ·) ++ T.map (b :: ·)) (hrest : ∀ r ∈ rest, a ∉ r ∧ b ∉ r)
    (hT : ∀ t ∈ T, t ≠ [] ∧ a ∉ t ∧ b ∉ t) (params params' : List Done → Values) (hv : ∀ h m, ∃ A B, Twins (N.data (params h) m) a b A B)
    (hp : ∀ h h', List.Forall₂ (LikeJoined a b) h h' → params' h' = (params h).joined a b) (start : Moment) :
    RunsAlike (LikeJoined a b) routeAnswer N (N.joined a b rest T edges ends) params params' start ∧ RunsAlike (LikeJoined a b) routeBest N (N.joined a b rest T edges ends) params params' start := by
  have hap := fun h m => let ⟨_, _, ht⟩ := hv h m; twins_apart ht
  have len : ∀ {d routes x}, RouteFeasible d routes x → x.length = routes.length := fun h => ((routeFeasible_iff _ _ _).1 h).2.1
  have cut : ∀ (z : List Rat) {k l : Nat}, z.length = k + l → ∃ x w, z = x ++ w ∧ x.length = k ∧ w.length = l := fun z k l h =>
    ⟨z.take k, z.drop k, (List.take_append_drop _ _).symm, by simp [h], by simp [h]⟩
  have down : ∀ h m z, RouteFeasible (N.data (params h) m) N.routes z → ∃ z', RouteFeasible ((N.joined a b rest T edges ends).data ((params h).joined a b) m) (rest ++ T.map (a :: ·)) z' ∧
      routeObjective ((N.joined a b rest T edges ends).data ((params h).joined a b) m) (rest ++ T.map (a :: ·)) z' = routeObjective (N.data (params h) m) N.routes z ∧
      (N.joined a b rest T edges ends).commit (routeNodeFlow ((N.joined a b rest T edges ends).data ((params h).joined a b) m) (rest ++ T.map (a :: ·)) z') a =
        N.commit (routeNodeFlow (N.data (params h) m) N.routes z) a + N.commit (routeNodeFlow (N.data (params h) m) N.routes z) b ∧
      ∀ n, n ≠ a → n ≠ b → (N.joined a b rest T edges ends).commit (routeNodeFlow ((N.joined a b rest T edges ends).data ((params h).joined a b) m) (rest ++ T.map (a :: ·)) z') n =
        N.commit (routeNodeFlow (N.data (params h) m) N.routes z) n := by
    intro h m z hz
    obtain ⟨A, B, ht⟩ := hv h m
    rw [data_joined ht]
    rw [hr] at hz ⊢
    have hl := len hz
    simp only [List.length_append, List.length_map] at hl
    obtain ⟨y, v, rfl, hy, hvl⟩ := cut z hl
    obtain ⟨x, u, rfl, hx, hu⟩ := cut y hy
    obtain ⟨k1, k2, k3, k4⟩ := C124_joined _ a b A B ht rest T hrest hT x u v hx hu hvl
    exact ⟨_, k1 hz, k2, commit_joined ht k3 k4⟩
  have up : ∀ h m z', RouteFeasible ((N.joined a b rest T edges ends).data ((params h).joined a b) m) (rest ++ T.map (a :: ·)) z' → ∃ z, RouteFeasible (N.data (params h) m) N.routes z ∧
      routeObjective ((N.joined a b rest T edges ends).data ((params h).joined a b) m) (rest ++ T.map (a :: ·)) z' = routeObjective (N.data (params h) m) N.routes z ∧
      (N.joined a b rest T edges ends).commit (routeNodeFlow ((N.joined a b rest T edges ends).data ((params h).joined a b) m) (rest ++ T.map (a :: ·)) z') a =
        N.commit (routeNodeFlow (N.data (params h) m) N.routes z) a + N.commit (routeNodeFlow (N.data (params h) m) N.routes z) b ∧
      ∀ n, n ≠ a → n ≠ b → (N.joined a b rest T edges ends).commit (routeNodeFlow ((N.joined a b rest T edges ends).data ((params h).joined a b) m) (rest ++ T.map (a :: ·)) z') n =
        N.commit (routeNodeFlow (N.data (params h) m) N.routes z) n := by
    intro h m z' hz'
    obtain ⟨A, B, ht⟩ := hv h m
    rw [data_joined ht] at hz' ⊢
    have hl := len hz'
    simp only [List.length_append, List.length_map] at hl
    obtain ⟨x, w, rfl, hx, hw⟩ := cut z' hl
    obtain ⟨u, v, hu, hvl, rfl, hz⟩ := C124_split _ a b A B ht rest T hrest hT x w hx hw hz'
    obtain ⟨-, k2, k3, k4⟩ := C124_joined _ a b A B ht rest T hrest hT x u v hx hu hvl
    rw [hr]
    exact ⟨_, hz, k2, commit_joined ht k3 k4⟩
  constructor
  · refine alike_joined (N := N) (N' := N.joined a b rest T edges ends) ⟨rfl, rfl⟩ (hap [] start) hp ?_ ?_
    · rintro h m flow ⟨z, hz, rfl⟩
      obtain ⟨z', k1, -, k3⟩ := down h m z hz
      exact ⟨_, ⟨z', k1, rfl⟩, k3⟩
    · rintro h m flow ⟨z', hz', rfl⟩
      obtain ⟨z, k1, -, k3⟩ := up h m z' hz'
      exact ⟨_, ⟨z, k1, rfl⟩, k3⟩
  · refine alike_joined (N := N) (N' := N.joined a b rest T edges ends) ⟨rfl, rfl⟩ (hap [] start) hp ?_ ?_
    · rintro h m flow ⟨z, hz, ho, rfl⟩
      obtain ⟨z', k1, k2, k3⟩ := down h m z hz
      refine ⟨_, ⟨z', k1, fun w hw => ?_, rfl⟩, k3⟩
      obtain ⟨y, j1, j2, -⟩ := up h m w hw
      change routeObjective _ (rest ++ T.map (a :: ·)) z' ≤ routeObjective _ (rest ++ T.map (a :: ·)) w
      rw [k2, j2]
      exact ho y j1
    · rintro h m flow ⟨z', hz', ho, rfl⟩
      obtain ⟨z, k1, k2, k3⟩ := up h m z' hz'
      refine ⟨_, ⟨z, k1, fun w hw => ?_, rfl⟩, k3⟩
      obtain ⟨y, j1, j2, -⟩ := down h m w hw
      rw [← k2, ← j2]
      exact ho y j1

/-- **C134 (two supplies, edge solver).** The same with the same connections from both supplies. -/
theorem C134_edge_joined (a b : Nat) (rest T : List (List Nat)) (edges : List (Nat × Nat)) (ends : List Nat) (hr : N.graph.edges = edges ++ ends.map (a, ·) ++ ends.map (b, ·)) (hd : N.graph.domain a = N.graph.domain b)
    (hrest : ∀ e ∈ edges, (e.1 ≠ a ∧ e.2 ≠ a) ∧ e.1 ≠ b ∧ e.2 ≠ b) (hT : ∀ t ∈ ends, t ≠ a ∧ t ≠ b ∧ N.graph.domain t = N.graph.domain a) (params params' : List Done → Values) (hv : ∀ h m, ∃ A B, Twins (N.data (params h) m) a b A B)
    (hp : ∀ h h', List.Forall₂ (LikeJoined a b) h h' → params' h' = (params h).joined a b) (start : Moment) :
    RunsAlike (LikeJoined a b) edgeAnswer N (N.joined a b rest T edges ends) params params' start ∧ RunsAlike (LikeJoined a b) edgeBest N (N.joined a b rest T edges ends) params params' start := by
  have hg : N.graph = ⟨edges ++ ends.map (a, ·) ++ ends.map (b, ·), N.graph.domain⟩ := by rw [← hr]
  have hap := fun h m => let ⟨_, _, ht⟩ := hv h m; twins_apart ht
  have len : ∀ {d routes x}, EdgeFeasible d routes x → x.length = routes.edges.length := fun h => ((edgeFeasible_iff _ _ _).1 h).2.1
  have cut : ∀ (z : List Rat) {k l : Nat}, z.length = k + l → ∃ x w, z = x ++ w ∧ x.length = k ∧ w.length = l := fun z k l h =>
    ⟨z.take k, z.drop k, (List.take_append_drop _ _).symm, by simp [h], by simp [h]⟩
  have idle_joined : ∀ (x u v : List Rat), x.length = edges.length → u.length = ends.length → v.length = ends.length →
      (Idle ⟨edges ++ ends.map (a, ·) ++ ends.map (b, ·), N.graph.domain⟩ (x ++ u ++ v) ↔ Idle ⟨edges ++ ends.map (a, ·), N.graph.domain⟩ (x ++ plus u v)) := by
    intro x u v hx hu hvl
    have hpl : (plus u v).length = ends.length := by simp [plus, hu, hvl]
    rw [idle_zip _ _ (by simp [hx, hu, hvl]), idle_zip _ _ (by simp [hx, hpl])]
    have same : ∀ (c : Nat) (w : List Rat), N.graph.domain c = N.graph.domain a → ∀ p ∈ (ends.map (c, ·)).zip w, N.graph.domain p.1.1 = N.graph.domain p.1.2 := by
      intro c w hc p hp
      obtain ⟨t, ht, e⟩ := List.mem_map.1 (List.of_mem_zip hp).1
      rw [← e]
      exact hc.trans (hT t ht).2.2.symm
    simp only
    rw [List.zip_append (by simp [hx, hu]), List.zip_append (by simp [hx]), List.zip_append (by simp [hx])]
    simp only [List.mem_append, or_imp, forall_and]
    constructor
    · exact fun h => ⟨h.1.1, fun p hp hne => absurd (same a _ rfl p hp) hne⟩
    · exact fun h => ⟨⟨h.1, fun p hp hne => absurd (same a _ rfl p hp) hne⟩, fun p hp hne => absurd (same b _ hd.symm p hp) hne⟩
  have down : ∀ h m z, EdgeFeasible (N.data (params h) m) N.graph z → ∃ z', (Idle N.graph z → Idle ⟨edges ++ ends.map (a, ·), N.graph.domain⟩ z') ∧ EdgeFeasible ((N.joined a b rest T edges ends).data ((params h).joined a b) m) ⟨edges ++ ends.map (a, ·), N.graph.domain⟩ z' ∧
      edgeObjective ((N.joined a b rest T edges ends).data ((params h).joined a b) m) ⟨edges ++ ends.map (a, ·), N.graph.domain⟩ z' = edgeObjective (N.data (params h) m) N.graph z ∧
      (N.joined a b rest T edges ends).commit (edgeNodeFlow ((N.joined a b rest T edges ends).data ((params h).joined a b) m) ⟨edges ++ ends.map (a, ·), N.graph.domain⟩ z') a =
        N.commit (edgeNodeFlow (N.data (params h) m) N.graph z) a + N.commit (edgeNodeFlow (N.data (params h) m) N.graph z) b ∧
      ∀ n, n ≠ a → n ≠ b → (N.joined a b rest T edges ends).commit (edgeNodeFlow ((N.joined a b rest T edges ends).data ((params h).joined a b) m) ⟨edges ++ ends.map (a, ·), N.graph.domain⟩ z') n =
        N.commit (edgeNodeFlow (N.data (params h) m) N.graph z) n := by
    intro h m z hz
    obtain ⟨A, B, ht⟩ := hv h m
    rw [data_joined ht]
    rw [hg] at hz ⊢
    have hl := len hz
    simp only [List.length_append, List.length_map] at hl
    obtain ⟨y, v, rfl, hy, hvl⟩ := cut z hl
    obtain ⟨x, u, rfl, hx, hu⟩ := cut y hy
    obtain ⟨k1, k2, k3, k4⟩ := C124_edge_joined _ a b A B ht N.graph.domain hd edges ends hrest hT x u v hx hu hvl
    exact ⟨_, (idle_joined x u v hx hu hvl).1, k1 hz, k2, commit_joined ht k3 k4⟩
  have up : ∀ h m z', EdgeFeasible ((N.joined a b rest T edges ends).data ((params h).joined a b) m) ⟨edges ++ ends.map (a, ·), N.graph.domain⟩ z' → ∃ z, (Idle ⟨edges ++ ends.map (a, ·), N.graph.domain⟩ z' → Idle N.graph z) ∧ EdgeFeasible (N.data (params h) m) N.graph z ∧
      edgeObjective ((N.joined a b rest T edges ends).data ((params h).joined a b) m) ⟨edges ++ ends.map (a, ·), N.graph.domain⟩ z' = edgeObjective (N.data (params h) m) N.graph z ∧
      (N.joined a b rest T edges ends).commit (edgeNodeFlow ((N.joined a b rest T edges ends).data ((params h).joined a b) m) ⟨edges ++ ends.map (a, ·), N.graph.domain⟩ z') a =
        N.commit (edgeNodeFlow (N.data (params h) m) N.graph z) a + N.commit (edgeNodeFlow (N.data (params h) m) N.graph z) b ∧
      ∀ n, n ≠ a → n ≠ b → (N.joined a b rest T edges ends).commit (edgeNodeFlow ((N.joined a b rest T edges ends).data ((params h).joined a b) m) ⟨edges ++ ends.map (a, ·), N.graph.domain⟩ z') n =
        N.commit (edgeNodeFlow (N.data (params h) m) N.graph z) n := by
    intro h m z' hz'
    obtain ⟨A, B, ht⟩ := hv h m
    rw [data_joined ht] at hz' ⊢
    have hl := len hz'
    simp only [List.length_append, List.length_map] at hl
    obtain ⟨x, w, rfl, hx, hw⟩ := cut z' hl
    obtain ⟨u, v, hu, hvl, rfl, hz⟩ := C124_edge_split _ a b A B ht N.graph.domain hd edges ends hrest hT x w hx hw hz'
    obtain ⟨-, k2, k3, k4⟩ := C124_edge_joined _ a b A B ht N.graph.domain hd edges ends hrest hT x u v hx hu hvl
    rw [hg]
    exact ⟨_, (idle_joined x u v hx hu hvl).2, hz, k2, commit_joined ht k3 k4⟩
  constructor
  · refine alike_joined (N := N) (N' := N.joined a b rest T edges ends) ⟨rfl, rfl⟩ (hap [] start) hp ?_ ?_
    · rintro h m flow ⟨z, hz, hi, rfl⟩
      obtain ⟨z', k0, k1, -, k3⟩ := down h m z hz
      exact ⟨_, ⟨z', k1, k0 hi, rfl⟩, k3⟩
    · rintro h m flow ⟨z', hz', hi, rfl⟩
      obtain ⟨z, k0, k1, -, k3⟩ := up h m z' hz'
      exact ⟨_, ⟨z, k1, k0 hi, rfl⟩, k3⟩
  · refine alike_joined (N := N) (N' := N.joined a b rest T edges ends) ⟨rfl, rfl⟩ (hap [] start) hp ?_ ?_
    · rintro h m flow ⟨z, hz, hi, ho, rfl⟩
      obtain ⟨z', k0, k1, k2, k3⟩ := down h m z hz
      refine ⟨_, ⟨z', k1, k0 hi, fun w hw => ?_, rfl⟩, k3⟩
      obtain ⟨y, -, j1, j2, -⟩ := up h m w hw
      change edgeObjective _ ⟨edges ++ ends.map (a, ·), N.graph.domain⟩ z' ≤ edgeObjective _ ⟨edges ++ ends.map (a, ·), N.graph.domain⟩ w
      rw [k2, j2]
      exact ho y j1
    · rintro h m flow ⟨z', hz', hi, ho, rfl⟩
      obtain ⟨z, k0, k1, k2, k3⟩ := up h m z' hz'
      refine ⟨_, ⟨z, k1, k0 hi, fun w hw => ?_, rfl⟩, k3⟩
      obtain ⟨y, -, j1, j2, -⟩ := down h m w hw
      rw [← k2, ← j2]
      exact ho y j1

/-! ## Examples -/

/-- The model of the examples of C72, and a link (6) that is not connected yet. -/
def spareNet : Net := { sampleNet with kind := fun n => if n = 6 then .link else sampleNet.kind n }

/-- After a first timestep with a supply of seven, less water comes. -/
def spareParams (h : List Done) : Values :=
  { sampleValues (match h with | [] => 10 | t :: _ => if t.flow 3 = 7 then 8 else 10) with cost := fun n => if n = 3 then -10 else if n = 6 then 0 else 1 }

private theorem spare_ok : spareNet.Ok := ⟨by decide, by decide, by decide, by decide, by decide, by
  intro r hr
  simp only [spareNet, sampleNet, List.mem_cons, List.not_mem_nil, or_false] at hr
  rcases hr with rfl | rfl | rfl
  · exact ⟨by decide, ⟨0, rfl, rfl⟩, ⟨3, rfl, rfl⟩, by decide⟩
  · exact ⟨by decide, ⟨0, rfl, rfl⟩, ⟨5, rfl, rfl⟩, by decide⟩
  · exact ⟨by decide, ⟨4, rfl, rfl⟩, ⟨3, rfl, rfl⟩, by decide⟩, by decide⟩

private theorem spare_params {like : Done → Done → Prop} (hl : ∀ t t', like t t' → t'.flow 3 = t.flow 3) (h h' : List Done) (hh : List.Forall₂ like h h') : spareParams h' = spareParams h := by
  cases hh with
  | nil => rfl
  | cons ht _ => unfold spareParams; simp only [hl _ _ ht]

example : spareNet.Ok ∧ spareNet.graph.edges.Nodup ∧ spareNet.NewLink 6 ∧ (∃ r ∈ spareNet.routes, takes 1 2 r = true) ∧ (1, 2) ∈ spareNet.graph.edges ∧ (∀ h, (spareParams h).Plain 6) ∧
    (∀ h m, EndsApart (spareNet.data (spareParams h) m) 1 2) ∧ (∀ h h', List.Forall₂ (LikeBut 6) h h' → spareParams h' = spareParams h) ∧
    ∃ h m, Runs (spareNet.withLink 1 2 6) (routeAnswer (spareNet.withLink 1 2 6)) spareParams sampleStart h m ∧ h.map (fun t => (t.flow 2, t.flow 3, t.flow 6)) = [(7, 7, 5)] := by
  refine ⟨spare_ok, by decide, ⟨rfl, by decide, by decide, by decide⟩, by decide, by decide, fun h => ⟨rfl, rfl, rfl, by simp [spareParams, sampleValues], by simp [spareParams, sampleValues]⟩, fun h m => ⟨by decide, ?_, ?_, by simp [Net.data, spareParams, sampleValues]⟩,
    spare_params fun t t' h => h.2 3 (by decide), ?_⟩
  · intro s hs
    simp [Net.data, spareNet, sampleNet] at hs
    subst hs
    simp
  · intro hk
    exact absurd hk (by simp [Net.data, spareNet, sampleNet])
  · exact ⟨_, _, .step .start ⟨[5, 3, 2], by decide +kernel, rfl⟩, by decide +kernel⟩

example : (0 ∈ spareNet.nodes ∧ spareNet.kind 0 ≠ .other) ∧ (∀ v m, NoPassThrough (spareNet.data v m) spareNet.routes 0) ∧
    (∀ h h', List.Forall₂ (LikeGrouped 0) h h' → (spareParams h').grouped 0 = (spareParams h).grouped 0) ∧
    ∃ h m, Runs spareNet (routeAnswer spareNet) (fun h => (spareParams h).grouped 0) sampleStart h m ∧ h.map (fun t => (t.flow 0, t.flow 3)) = [(8, 7)] := by
  refine ⟨by decide, fun v m r hr h0 => ?_, fun h h' hh => by rw [spare_params (fun t t' h => by rw [h.2]) h h' hh], ?_⟩
  · simp only [spareNet, sampleNet, List.mem_cons, List.not_mem_nil, or_false] at hr
    rcases hr with rfl | rfl | rfl
    · rfl
    · rfl
    · simp at h0
  · exact ⟨_, _, .step .start ⟨[5, 3, 2], by decide +kernel, rfl⟩, by decide +kernel⟩

/-- A supply and a demand, and a second supply that is shut. -/
def shutNet : Net where
  kind n := match n with | 0 | 2 => .input | 1 => .output | _ => .other
  nodes := [0, 1, 2]
  stores := []
  virtuals := []
  routes := [[0, 1], [2, 1]]
  graph := ⟨[(0, 1), (2, 1)], fun _ => 0⟩

/-- The same without it. -/
def openNet : Net := { shutNet with nodes := [0, 1], routes := [[0, 1]], graph := ⟨[(0, 1)], fun _ => 0⟩ }

def shutValues : Values where
  minFlow _ := .fin 0
  maxFlow n := if n = 0 then .fin 5 else if n = 2 then .fin 0 else .posInf
  cost n := if n = 1 then -10 else 1
  limits _ := (0, 0)
  vlimits _ := (0, 0)
  active _ := true
  refill _ := none
  aggs := []
  cross := []
  days := 1

private theorem ok_some {ε α : Type} {e : Except ε α} (h : e.toOption.isSome = true) : ∃ r, e = .ok r := by
  cases e with
  | ok r => exact ⟨r, rfl⟩
  | error x => simp [Except.toOption] at h

example : Adds [2] openNet shutNet ∧ (∀ n ∈ [2], openNet.kind n ≠ .other) ∧ (∀ v m, ∀ n ∈ [2], NoPassThrough (openNet.data v m) shutNet.routes n) ∧ (∀ m, ∀ n ∈ [2], Closed (openNet.data shutValues m) n) ∧
    (∀ m, ∃ rows, routeRows (openNet.data shutValues m) openNet.routes = .ok rows) ∧ (∀ m, ∃ rows, routeRows (shutNet.data shutValues m) shutNet.routes = .ok rows) ∧
    (∀ m, ∃ rows, edgeRows (openNet.data shutValues m) openNet.graph = .ok rows) ∧ (∀ m, ∃ rows, edgeRows (shutNet.data shutValues m) shutNet.graph = .ok rows) ∧
    ∃ h m, Runs shutNet (routeAnswer shutNet) (fun _ => shutValues) sampleStart h m ∧ h.map (fun t => (t.flow 0, t.flow 1, t.flow 2)) = [(5, 5, 0)] := by
  refine ⟨⟨rfl, rfl, by decide, rfl, rfl, by decide, rfl⟩, by decide, ?_, ?_,
    fun m => ok_some (show (routeRows (openNet.data shutValues sampleStart) openNet.routes).toOption.isSome = true by decide +kernel),
    fun m => ok_some (show (routeRows (shutNet.data shutValues sampleStart) shutNet.routes).toOption.isSome = true by decide +kernel),
    fun m => ok_some (show (edgeRows (openNet.data shutValues sampleStart) openNet.graph).toOption.isSome = true by decide +kernel),
    fun m => ok_some (show (edgeRows (shutNet.data shutValues sampleStart) shutNet.graph).toOption.isSome = true by decide +kernel), ?_⟩
  · intro v m n hn r hr h0
    simp only [List.mem_singleton] at hn
    subst hn
    simp only [shutNet, List.mem_cons, List.not_mem_nil, or_false] at hr
    rcases hr with rfl | rfl
    · simp at h0
    · rfl
  · intro m n hn
    simp only [List.mem_singleton] at hn
    subst hn
    refine ⟨?_, 0, rfl, e8_pos⟩
    refine ⟨?_, ?_, ?_, ?_⟩ <;> simp [Net.data, shutValues, LowerLimit, UpperLimit, LimitLe, show OrdinaryDouble 0 by unfold OrdinaryDouble; decide +kernel]
  · exact ⟨_, _, .step .start ⟨[5, 0], by decide +kernel, rfl⟩, by decide +kernel⟩

/-- Two supplies (0, 1) of a link (2) from which a demand (3) and a reservoir (4, 5) are fed. -/
def twinNet : Net where
  kind n := match n with | 0 | 1 | 4 => .input | 2 => .link | 3 | 5 => .output | _ => .other
  nodes := [0, 1, 2, 3, 4, 5]
  stores := [([4], [5])]
  virtuals := []
  routes := [[4, 2, 3], [0, 2, 3], [0, 2, 5], [1, 2, 3], [1, 2, 5]]
  graph := ⟨[(4, 2), (2, 3), (2, 5), (0, 2), (1, 2)], fun _ => 0⟩

/-- The first supply gives less after a timestep in which the demand got ten. -/
def twinParams (h : List Done) : Values where
  minFlow _ := .fin 0
  maxFlow n := if n = 0 then .fin (match h with | [] => 4 | t :: _ => if t.flow 3 = 10 then 3 else 4) else if n = 1 then .fin 6 else .posInf
  cost n := if n = 3 then -10 else if n = 5 then -5 else 1
  limits _ := (100, 0)
  vlimits _ := (0, 0)
  active _ := true
  refill _ := none
  aggs := []
  cross := []
  days := 1

example : twinNet.routes = [[4, 2, 3]] ++ [[2, 3], [2, 5]].map (0 :: ·) ++ [[2, 3], [2, 5]].map (1 :: ·) ∧ (∀ r ∈ [[4, 2, 3]], 0 ∉ r ∧ 1 ∉ r) ∧
    (∀ t ∈ [[2, 3], [2, 5]], t ≠ [] ∧ 0 ∉ t ∧ 1 ∉ t) ∧ twinNet.graph.edges = [(4, 2), (2, 3), (2, 5)] ++ [2].map (0, ·) ++ [2].map (1, ·) ∧
    (∀ h m, ∃ A B, Twins (twinNet.data (twinParams h) m) 0 1 A B) ∧ (∀ h h', List.Forall₂ (LikeJoined 0 1) h h' → (twinParams h').joined 0 1 = (twinParams h).joined 0 1) ∧
    (∃ h m, Runs twinNet (routeAnswer twinNet) twinParams sampleStart h m ∧ h.map (fun t => (t.flow 0, t.flow 1, t.flow 3, t.flow 5)) = [(4, 6, 7, 3)]) ∧
    ∃ h m, Runs (twinNet.joined 0 1 [[4, 2, 3]] [[2, 3], [2, 5]] [] []) (routeAnswer (twinNet.joined 0 1 [[4, 2, 3]] [[2, 3], [2, 5]] [] [])) (fun h => (twinParams h).joined 0 1) sampleStart h m ∧
      h.map (fun t => (t.flow 0, t.flow 1, t.flow 3, t.flow 5)) = [(10, 0, 7, 3)] := by
  refine ⟨by decide, by decide, by decide, by decide, fun h m => ?_, fun h h' hh => ?_, ?_, ?_⟩
  · refine ⟨_, _, by decide, by show [0, 1, 2, 3, 4, 5].Nodup; decide, by show 0 ∈ [0, 1, 2, 3, 4, 5] ∧ 1 ∈ [0, 1, 2, 3, 4, 5]; decide, ⟨rfl, rfl⟩, rfl, ⟨rfl, rfl⟩, ⟨rfl, rfl⟩, ?_, ?_⟩
    · have big : (10 : Rat) ≤ dblMax - 1 := by decide +kernel
      have small : e8 ≤ 3 := by decide +kernel
      refine ⟨?_, by linarith, ?_⟩ <;> split <;> (try split) <;> linarith
    · constructor <;> exact ⟨by simp [Net.data, twinNet], by simp [Net.data, twinNet], by simp [Net.data, twinParams], by simp [Net.data, twinParams]⟩
  · cases hh with
    | nil => rfl
    | cons ht _ =>
      have := ht.2.2 3 (by decide) (by decide)
      unfold twinParams
      simp only [this]
  · exact ⟨_, _, .step .start ⟨[0, 4, 0, 3, 3], by decide +kernel, rfl⟩, by decide +kernel⟩
  · exact ⟨_, _, .step .start ⟨[0, 7, 3], by decide +kernel, rfl⟩, by decide +kernel⟩

end Verif.Simulation

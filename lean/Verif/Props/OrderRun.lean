import Verif.Spec.OrderRun
import Verif.Props.Parts
import Verif.Props.WordingRun
/-! # C136: the order of definition does not matter for whole runs -/

namespace Verif.Simulation

open Verif Verif.Lp Verif.Bounds

variable {σ τ : Equiv.Perm Nat} {N N' : Net}

/-! ## Helpers -/

private theorem zipIdx_perm {α : Type} {l l' : List α} (ρ : Equiv.Perm Nat) (h : ∀ i : Nat, l'[i]? = l[ρ i]?) : (l'.zipIdx.map fun q => (q.1, ρ q.2)).Perm l.zipIdx := by
  have nd : ∀ k : List α, k.zipIdx.Nodup := fun k => List.Nodup.of_map Prod.snd (by rw [List.zipIdx_map_snd]; exact List.nodup_range')
  refine (List.perm_ext_iff_of_nodup ((nd l').map ?_) (nd l)).2 fun p => ?_
  · rintro ⟨a, i⟩ ⟨b, j⟩ e
    simp only [Prod.mk.injEq, EmbeddingLike.apply_eq_iff_eq] at e
    rw [e.1, e.2]
  · rw [List.mem_map, List.mem_zipIdx_iff_getElem?]
    constructor
    · rintro ⟨q, hq, rfl⟩
      rw [List.mem_zipIdx_iff_getElem?] at hq
      rw [← h]; exact hq
    · intro hp
      refine ⟨(p.1, ρ.symm p.2), ?_, by simp⟩
      rw [List.mem_zipIdx_iff_getElem?, h]
      simpa using hp

private theorem data_order (hN : N.SameBut σ τ N') {v v' : Values} (hv : v.SameBut σ τ v') (m : Moment) : Reordered (N.data v m) (N'.data v' (m.inOrder σ τ)) where
  kind := hN.kind
  minFlow := hv.flows.1
  maxFlow := hv.flows.2
  cost := hv.cost
  days := hv.days
  nodes := hN.nodes
  storages := by
    have := (zipIdx_perm σ hN.stores).map fun q : (List Nat × List Nat) × Nat => (⟨q.1.1, q.1.2, (m.stores q.2).volume, (v.limits q.2).1, (v.limits q.2).2⟩ : StorageData)
    rw [List.map_map] at this
    refine List.Perm.trans (List.Perm.of_eq ?_) this
    refine List.map_congr_left fun q _ => ?_
    simp only [Function.comp, Moment.inOrder, hv.limits]
  virtuals := by
    have := (zipIdx_perm τ hN.virtuals).map fun q : (List Nat × List Rat) × Nat => (⟨q.1.1, q.1.2, v.active q.2, (m.virtual v q.2).volume, (v.vlimits q.2).1, (v.vlimits q.2).2⟩ : VirtualData)
    rw [List.map_map] at this
    refine List.Perm.trans (List.Perm.of_eq ?_) this
    refine List.map_congr_left fun q _ => ?_
    simp only [Function.comp, Moment.inOrder, Moment.virtual, hv.vlimits, hv.active, hv.refill]
  aggs := hv.aggs
  cross := hv.cross

private theorem next_order (hN : N.SameBut σ τ N') {v v' : Values} (hv : v.SameBut σ τ v') (flow : Nat → Rat) (m : Moment) :
    N'.next v' flow (m.inOrder σ τ) = (N.next v flow m).inOrder σ τ := by
  unfold Net.next
  refine congrArg₂ Moment.mk (funext fun i => ?_) (funext fun i => ?_)
  · simp only [hN.stores]
    cases N.stores[σ i]? with
    | none => rfl
    | some s => simp only [storeStep, hv.days, hv.limits, Moment.inOrder]
  · simp only [hN.virtuals]
    cases N.virtuals[τ i]? with
    | none => rfl
    | some s => simp only [virtualStep, hv.days, hv.vlimits, hv.active, Moment.inOrder, Moment.virtual, hv.refill]

private theorem perm_lift {α β : Type} (f : α → β) {k k' : List β} (hk : k.Perm k') : ∀ l : List α, l.map f = k → ∃ l', l.Perm l' ∧ l'.map f = k' := by
  induction hk with
  | nil => exact fun l h => ⟨l, .refl _, h⟩
  | cons b _ ih =>
    intro l h
    obtain ⟨a, l, rfl, rfl, hl⟩ := List.map_eq_cons_iff.1 h
    obtain ⟨l', h1, h2⟩ := ih l hl
    exact ⟨a :: l', h1.cons a, by rw [List.map_cons, h2]⟩
  | swap b c k =>
    intro l h
    obtain ⟨a, l, rfl, rfl, hl⟩ := List.map_eq_cons_iff.1 h
    obtain ⟨a', l, rfl, rfl, hl⟩ := List.map_eq_cons_iff.1 hl
    exact ⟨a' :: a :: l, .swap _ _ _, by simp_all⟩
  | trans _ _ ih1 ih2 =>
    intro l h
    obtain ⟨l', h1, h2⟩ := ih1 l h
    obtain ⟨l'', h3, h4⟩ := ih2 l' h2
    exact ⟨l'', h1.trans h3, h4⟩

/-- The values of columns in another order. -/
private theorem carried {β : Type} {k k' : List β} (hk : k.Perm k') (x : List Rat) (hl : x.length = k.length) : ∃ x' : List Rat, x'.length = k'.length ∧ (k.zip x).Perm (k'.zip x') := by
  obtain ⟨l', h1, h2⟩ := perm_lift Prod.fst hk (k.zip x) (List.map_fst_zip hl.ge)
  refine ⟨l'.map Prod.snd, by rw [← h2]; simp, ?_⟩
  rw [← h2, ← List.zip_of_prod (l := l'.map Prod.fst) (l' := l'.map Prod.snd) (xs := l') rfl rfl]
  exact h1

private theorem commit_order (hN : N.SameBut σ τ N') {f f' : Nat → Rat} (h : ∀ n, f' n = f n) : N'.commit f' = N.commit f := by
  funext n
  unfold Net.commit
  rw [hN.kind, h]
  simp only [hN.nodes.mem_iff]

private theorem route_length {d : Data} {routes : List (List Nat)} {x : List Rat} (h : RouteFeasible d routes x) : x.length = routes.length := by
  rw [routeFeasible_iff] at h; exact h.2.1

private theorem edge_length {d : Data} {g : Graph} {y : List Rat} (h : EdgeFeasible d g y) : y.length = g.edges.length := by
  rw [edgeFeasible_iff] at h; exact h.2.1

private theorem idle_order {g g' : Graph} (hd : g'.domain = g.domain) {y y' : List Rat} (hl : y.length = g.edges.length) (hl' : y'.length = g'.edges.length) (hp : (g.edges.zip y).Perm (g'.edges.zip y'))
    (h : Idle g y) : Idle g' y' := by
  rw [idle_zip _ _ hl] at h
  rw [idle_zip _ _ hl', hd]
  exact fun p hm => h p (hp.mem_iff.2 hm)

private theorem route_answer (hN : N.SameBut σ τ N') {d d' : Data} (h : Reordered d d') {flow : Nat → Rat} (ha : routeAnswer N d flow) : routeAnswer N' d' flow := by
  obtain ⟨x, hx, rfl⟩ := ha
  obtain ⟨x', h1, h2⟩ := carried hN.routes.symm x (route_length hx)
  obtain ⟨k1, -, k3⟩ := C118_order d d' h N.routes N'.routes x x' (route_length hx) h1 h2
  exact ⟨x', k1.1 hx, (commit_order hN k3).symm⟩

private theorem route_best (hN : N.SameBut σ τ N') {d d' : Data} (h : Reordered d d') {flow : Nat → Rat} (ha : routeBest N d flow) : routeBest N' d' flow := by
  obtain ⟨x, hx, ho, rfl⟩ := ha
  obtain ⟨x', h1, h2⟩ := carried hN.routes.symm x (route_length hx)
  obtain ⟨k1, k2, k3⟩ := C118_order d d' h N.routes N'.routes x x' (route_length hx) h1 h2
  refine ⟨x', k1.1 hx, fun z' hz' => ?_, (commit_order hN k3).symm⟩
  obtain ⟨z, e1, e2⟩ := carried hN.routes z' (route_length hz')
  obtain ⟨j1, j2, -⟩ := C118_order d d' h N.routes N'.routes z z' e1 (route_length hz') e2.symm
  rw [k2, j2]
  exact ho z (j1.2 hz')

private theorem edge_answer (hN : N.SameBut σ τ N') {d d' : Data} (h : Reordered d d') {flow : Nat → Rat} (ha : edgeAnswer N d flow) : edgeAnswer N' d' flow := by
  obtain ⟨y, hy, hi, rfl⟩ := ha
  obtain ⟨y', h1, h2⟩ := carried hN.edges.symm y (edge_length hy)
  obtain ⟨k1, -, k3⟩ := C118_edge_order d d' h N.graph N'.graph hN.domain y y' (edge_length hy) h1 h2
  exact ⟨y', k1.1 hy, idle_order hN.domain (edge_length hy) h1 h2 hi, (commit_order hN k3).symm⟩

private theorem edge_best (hN : N.SameBut σ τ N') {d d' : Data} (h : Reordered d d') {flow : Nat → Rat} (ha : edgeBest N d flow) : edgeBest N' d' flow := by
  obtain ⟨y, hy, hi, ho, rfl⟩ := ha
  obtain ⟨y', h1, h2⟩ := carried hN.edges.symm y (edge_length hy)
  obtain ⟨k1, k2, k3⟩ := C118_edge_order d d' h N.graph N'.graph hN.domain y y' (edge_length hy) h1 h2
  refine ⟨y', k1.1 hy, idle_order hN.domain (edge_length hy) h1 h2 hi, fun z' hz' => ?_, (commit_order hN k3).symm⟩
  obtain ⟨z, e1, e2⟩ := carried hN.edges z' (edge_length hz')
  obtain ⟨j1, j2, -⟩ := C118_edge_order d d' h N.graph N'.graph hN.domain z z' e1 (edge_length hz') e2.symm
  rw [k2, j2]
  exact ho z (j1.2 hz')

private theorem net_symm (hN : N.SameBut σ τ N') : N'.SameBut σ.symm τ.symm N where
  kind := hN.kind.symm
  nodes := hN.nodes.symm
  stores i := by rw [hN.stores, Equiv.apply_symm_apply]
  virtuals i := by rw [hN.virtuals, Equiv.apply_symm_apply]
  routes := hN.routes.symm
  edges := hN.edges.symm
  domain := hN.domain.symm

private theorem data_symm {d d' : Data} (h : Reordered d d') : Reordered d' d :=
  ⟨h.kind.symm, h.minFlow.symm, h.maxFlow.symm, h.cost.symm, h.days.symm, h.nodes.symm, h.storages.symm, h.virtuals.symm, h.aggs.symm, h.cross.symm⟩

private theorem in_order {answer : Net → Data → (Nat → Rat) → Prop} (hN : N.SameBut σ τ N') {params params' : List Done → Values} {start : Moment}
    (hp : ∀ h h', List.Forall₂ (LikeInOrder σ τ) h h' → (params h).SameBut σ τ (params' h'))
    (h1 : ∀ d d' flow, Reordered d d' → answer N d flow → answer N' d' flow) (h2 : ∀ d d' flow, Reordered d d' → answer N' d flow → answer N d' flow) :
    RunsInOrder σ τ answer N N' params params' start := by
  constructor
  · intro h m hr
    induction hr with
    | start => exact ⟨[], .nil, .start⟩
    | @step h m flow _ ha ih =>
      obtain ⟨h', hh, hr'⟩ := ih
      have hv := hp h h' hh
      refine ⟨h' ++ [⟨params' h', flow⟩], List.rel_append hh (.cons ⟨hv, rfl⟩ .nil), ?_⟩
      rw [← next_order hN hv]
      exact .step hr' (h1 _ _ _ (data_order hN hv m) ha)
  · intro h' m' hr
    induction hr with
    | start => exact ⟨[], start, .nil, .start, rfl⟩
    | @step h' m' flow _ ha ih =>
      obtain ⟨h, m, hh, hr', rfl⟩ := ih
      have hv := hp h h' hh
      refine ⟨h ++ [⟨params h, flow⟩], N.next (params h) flow m, List.rel_append hh (.cons ⟨hv, rfl⟩ .nil), .step hr' (h2 _ _ _ (data_symm (data_order hN hv m)) ha), next_order hN hv flow m⟩

/-! ## Runs -/

/-- **C136 (route solver).** Whatever the order in which nodes, storages, licences, aggregated nodes, conversions and routes are defined: to every run there is a run with the same values of parameters, the same flows of all nodes
and the same volumes; and the same for runs of least cost. -/
theorem C136_order (hN : N.SameBut σ τ N') (params params' : List Done → Values) (start : Moment)
    (hp : ∀ h h', List.Forall₂ (LikeInOrder σ τ) h h' → (params h).SameBut σ τ (params' h')) :
    RunsInOrder σ τ routeAnswer N N' params params' start ∧ RunsInOrder σ τ routeBest N N' params params' start :=
  ⟨in_order hN hp (fun _ _ _ h => route_answer hN h) fun _ _ _ h => route_answer (net_symm hN) h, in_order hN hp (fun _ _ _ h => route_best hN h) fun _ _ _ h => route_best (net_symm hN) h⟩

/-- **C136 (edge solver).** -/
theorem C136_edge_order (hN : N.SameBut σ τ N') (params params' : List Done → Values) (start : Moment)
    (hp : ∀ h h', List.Forall₂ (LikeInOrder σ τ) h h' → (params h).SameBut σ τ (params' h')) :
    RunsInOrder σ τ edgeAnswer N N' params params' start ∧ RunsInOrder σ τ edgeBest N N' params params' start :=
  ⟨in_order hN hp (fun _ _ _ h => edge_answer hN h) fun _ _ _ h => edge_answer (net_symm hN) h, in_order hN hp (fun _ _ _ h => edge_best hN h) fun _ _ _ h => edge_best (net_symm hN) h⟩

/-- Two storages and a licence, and the same with the storages the other way round. -/
private def twoStores : Net where
  kind n := match n with | 0 => .input | 1 => .output | 2 => .input | 3 => .output | _ => .other
  nodes := [0, 1, 2, 3]
  stores := [([0], []), ([2], [3])]
  virtuals := [([1], [1])]
  routes := [[0, 1], [0, 3], [2, 1]]
  graph := ⟨[(0, 1), (0, 3), (2, 1)], fun _ => 0⟩

private def otherWay : Net :=
  { twoStores with nodes := [2, 3, 0, 1], stores := [([2], [3]), ([0], [])], routes := [[2, 1], [0, 1], [0, 3]], graph := ⟨[(2, 1), (0, 1), (0, 3)], fun _ => 0⟩ }

private def plain (a b : Rat) : Values where
  minFlow _ := .fin 0
  maxFlow _ := .fin 5
  cost n := if n = 1 then -10 else 1
  limits i := if i = 0 then (a, 0) else if i = 1 then (b, 0) else (1, 0)
  vlimits _ := (40, 0)
  active _ := true
  refill _ := none
  aggs := []
  cross := []
  days := 1

example : twoStores.SameBut (Equiv.swap 0 1) (Equiv.refl _) otherWay ∧ (plain 60 90).SameBut (Equiv.swap 0 1) (Equiv.refl _) (plain 90 60) := by
  refine ⟨⟨rfl, by decide, fun i => ?_, fun _ => rfl, by decide, by decide, rfl⟩, ⟨⟨rfl, rfl⟩, rfl, fun i => ?_, fun _ => rfl, fun _ => rfl, fun _ => rfl, .refl _, .refl _, rfl⟩⟩
  · match i with
    | 0 => rfl
    | 1 => rfl
    | k + 2 => rw [Equiv.swap_apply_of_ne_of_ne (by omega) (by omega)]; rfl
  · match i with
    | 0 => rfl
    | 1 => rfl
    | k + 2 => rw [Equiv.swap_apply_of_ne_of_ne (by omega) (by omega)]; simp [plain]

end Verif.Simulation

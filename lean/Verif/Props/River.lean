import Verif.Spec.River
import Verif.Props.PiecewiseEdge
import Mathlib.Data.List.Induction
/-! # C83: catchments, discharges and gauges -/

namespace Verif.River

open Verif Verif.Lp Verif.Bounds Verif.Composite

/-! ## Catchments -/

/-- **C83 (limits of a catchment).** Whatever limits were given to the constructor, after any assignments of which the last one is to the flow both limits are that flow. -/
theorem C83_limits (minFlow : Option Rat) (maxFlow : Option F) (flow : Option Rat) (as : List Assign) (q : Rat)
    (hq : lastFlow (flow.getD 0) as = some q) :
    (as.foldl Limits.set (catchment minFlow maxFlow flow)).minFlow = .fin q ∧ (as.foldl Limits.set (catchment minFlow maxFlow flow)).maxFlow = .fin q := by
  induction as using List.reverseRecOn with
  | nil =>
    simp only [lastFlow, List.getLast?_nil, Option.some.injEq] at hq
    subst hq
    exact ⟨rfl, rfl⟩
  | append_singleton as a _ =>
    simp only [lastFlow, List.getLast?_append, List.getLast?_singleton, Option.some_or] at hq
    rw [List.foldl_append]
    cases a with
    | flow v => simp only [Option.some.injEq] at hq; subst hq; exact ⟨rfl, rfl⟩
    | minFlow v => simp at hq
    | maxFlow v => simp at hq

example : lastFlow 3 [.maxFlow (.fin 1), .flow 7] = some 7 := rfl

private theorem fixed {q x : Rat} (h : Limited (.fin q) (.fin q) x) : x = if |q| < e8 then 0 else q := by
  obtain ⟨h1, h2⟩ := C22_between q q x (le_refl _) h
  unfold F.effective at h1 h2
  by_cases c : |q| < e8
  · simp only [c, if_true] at h1 h2 ⊢; exact le_antisymm h2 h1
  · simp only [c, if_false] at h1 h2 ⊢; exact le_antisymm h2 h1

/-- **C83 (catchment, route solver).** Every solution takes exactly the flow from the catchment (flows below 1e-8 are cut to zero). -/
theorem C83_catchment_route (d : Data) (routes : List (List Nat)) (hw : WellRouted d routes) (x : List Rat) (hx : RouteFeasible d routes x) (n : Nat)
    (hn : n ∈ d.nodes) (hk : d.kind n = .input) (minFlow : Option Rat) (maxFlow : Option F) (flow : Option Rat) (as : List Assign) (q : Rat)
    (hq : lastFlow (flow.getD 0) as = some q) (ho : OrdinaryDouble q)
    (hmin : d.minFlow n = (as.foldl Limits.set (catchment minFlow maxFlow flow)).minFlow)
    (hmax : d.maxFlow n = (as.foldl Limits.set (catchment minFlow maxFlow flow)).maxFlow) :
    routeNodeFlow d routes x n = if |q| < e8 then 0 else q := by
  obtain ⟨e1, e2⟩ := C83_limits minFlow maxFlow flow as q hq
  rw [e1] at hmin
  rw [e2] at hmax
  have := C22_route d routes hw x hx n hn (by rw [hk]; decide) (Or.inr ⟨q, hmin, ho⟩) (Or.inr ⟨q, hmax, ho⟩)
  rw [hmin, hmax] at this
  exact fixed this

/-- **C83 (catchment, edge solver).** The same, with any number of domains. -/
theorem C83_catchment_edge (d : Data) (g : Graph) (hg : Connects d g) (y : List Rat) (hy : EdgeFeasible d g y) (h0 : Idle g y) (n : Nat)
    (hn : n ∈ d.nodes) (hk : d.kind n = .input) (minFlow : Option Rat) (maxFlow : Option F) (flow : Option Rat) (as : List Assign) (q : Rat)
    (hq : lastFlow (flow.getD 0) as = some q) (ho : OrdinaryDouble q)
    (hmin : d.minFlow n = (as.foldl Limits.set (catchment minFlow maxFlow flow)).minFlow)
    (hmax : d.maxFlow n = (as.foldl Limits.set (catchment minFlow maxFlow flow)).maxFlow) :
    edgeNodeFlow d g y n = if |q| < e8 then 0 else q := by
  obtain ⟨e1, e2⟩ := C83_limits minFlow maxFlow flow as q hq
  rw [e1] at hmin
  rw [e2] at hmax
  have := C22_edge d g hg y hy h0 n hn (by rw [hk]; decide) (Or.inr ⟨q, hmin, ho⟩) (Or.inr ⟨q, hmax, ho⟩)
  rw [hmin, hmax] at this
  exact fixed this

private theorem nonneg_flow {d : Data} {routes : List (List Nat)} (hw : WellRouted d routes) {x : List Rat} (hx : RouteFeasible d routes x) (n : Nat) :
    0 ≤ routeNodeFlow d routes x n := by
  rw [routeNodeFlow_eq_S]
  obtain ⟨rows, -, -, h0, -⟩ := hx
  refine S_nonneg h0 fun r hr => ?_
  rw [nodeCoef_eq hw hr]
  split_ifs <;> norm_num

private theorem nonneg_edge {d : Data} {g : Graph} {y : List Rat} (hy : EdgeFeasible d g y) (n : Nat) : 0 ≤ edgeNodeFlow d g y n := by
  obtain ⟨rows, -, -, h0, -⟩ := hy
  unfold edgeNodeFlow
  apply List.sum_nonneg
  intro v hv
  obtain ⟨q, -, rfl⟩ := List.mem_map.1 hv
  have hq := getD_nonneg h0 q.2
  simp only
  split_ifs <;> linarith

/-- **C83 (negative flows).** A catchment never takes water out: with a flow of -1e-8 or less the problem has no solution (the run stops with an error). -/
theorem C83_negative (d : Data) (routes : List (List Nat)) (hw : WellRouted d routes) (n : Nat)
    (hn : n ∈ d.nodes) (hk : d.kind n = .input) (minFlow : Option Rat) (maxFlow : Option F) (flow : Option Rat) (as : List Assign) (q : Rat)
    (hq : lastFlow (flow.getD 0) as = some q) (ho : OrdinaryDouble q) (hneg : q ≤ -e8)
    (hmin : d.minFlow n = (as.foldl Limits.set (catchment minFlow maxFlow flow)).minFlow)
    (hmax : d.maxFlow n = (as.foldl Limits.set (catchment minFlow maxFlow flow)).maxFlow) :
    ∀ x, ¬ RouteFeasible d routes x := by
  intro x hx
  have h := C83_catchment_route d routes hw x hx n hn hk minFlow maxFlow flow as q hq ho hmin hmax
  have h0 := nonneg_flow hw hx n
  have e8pos : (0 : Rat) < e8 := by decide +kernel
  rw [if_neg (by rw [abs_of_neg (by linarith)]; linarith)] at h
  linarith

/-- **C83 (negative flows, edge solver).** -/
theorem C83_negative_edge (d : Data) (g : Graph) (hg : Connects d g) (n : Nat)
    (hn : n ∈ d.nodes) (hk : d.kind n = .input) (minFlow : Option Rat) (maxFlow : Option F) (flow : Option Rat) (as : List Assign) (q : Rat)
    (hq : lastFlow (flow.getD 0) as = some q) (ho : OrdinaryDouble q) (hneg : q ≤ -e8)
    (hmin : d.minFlow n = (as.foldl Limits.set (catchment minFlow maxFlow flow)).minFlow)
    (hmax : d.maxFlow n = (as.foldl Limits.set (catchment minFlow maxFlow flow)).maxFlow) :
    ∀ y, ¬ EdgeFeasible d g y := by
  intro y hy
  have e8pos : (0 : Rat) < e8 := by decide +kernel
  obtain ⟨e1, e2⟩ := C83_limits minFlow maxFlow flow as q hq
  rw [e1] at hmin
  rw [e2] at hmax
  have hin := ((feasible_inner d g y).1 hy).1
  have h := C22_edge_partial d _ (inner_one hg) _ hin n hn (by rw [hk]; decide) (Or.inr ⟨q, hmin, ho⟩) (Or.inr ⟨q, hmax, ho⟩)
  rw [hmin, hmax] at h
  have h := fixed h
  have h0 := nonneg_edge hin n
  rw [if_neg (by rw [abs_of_neg (by linarith)]; linarith)] at h
  linarith

/-! ## Gauges -/

private theorem two_set {α : Type} {p : Piecewise} {s t : Nat} (hp : p.sublinks = [s, t]) (hne : s ≠ t) (u v : α) (f : Nat → α) :
    ((p.sublinks.zip [u, v]).foldl (fun m q => fun n => if n = q.1 then q.2 else m n) f) s = u ∧
    ((p.sublinks.zip [u, v]).foldl (fun m q => fun n => if n = q.1 then q.2 else m n) f) t = v := by
  rw [hp]
  simp [hne]

/-- **C83 (attributes of a gauge).** A gauge has two segments; after its construction and any assignments the first is limited by the last MRF and the second is unlimited, and their costs are the
last `mrf_cost` and `cost`. No assignment fails and no other node is touched. -/
theorem C83_attributes (p : Piecewise) (first second : Nat) (hp : p.sublinks = [first, second]) (hne : first ≠ second)
    (mrf : F) (mrfCost cost : Rat) (a0 : Attrs) (as : List GaugeAssign) :
    ∃ a, history p mrf mrfCost cost a0 as = some a ∧
      a.maxFlow first = lastMrf mrf as ∧ a.maxFlow second = .posInf ∧
      a.cost first = lastMrfCost mrfCost as ∧ a.cost second = lastCost cost as ∧
      ∀ n, n ≠ first → n ≠ second → a.maxFlow n = a0.maxFlow n ∧ a.cost n = a0.cost n := by
  induction as using List.reverseRecOn with
  | nil =>
    refine ⟨_, by unfold history gauge setCosts Piecewise.setMaxFlows; rw [hp]; rfl, ?_⟩
    simp [hne, lastMrf, lastMrfCost, lastCost]
    intro n h1 h2
    simp [h1, h2]
  | append_singleton as x ih =>
    obtain ⟨a, h, h1, h2, h3, h4, h5⟩ := ih
    have hh : history p mrf mrfCost cost a0 (as ++ [x]) = a.assign p x := by
      unfold history at h ⊢
      rw [List.foldl_append, h]; rfl
    rw [hh]
    cases x with
    | mrf v =>
      refine ⟨_, by unfold Attrs.assign Attrs.setMax; rw [hp]; rfl, ?_⟩
      simp only [lastMrf, lastMrfCost, lastCost, List.filterMap_append, List.filterMap_cons, List.filterMap_nil, List.append_nil] at h1 h3 h4 ⊢
      simp [hne.symm, h2, h3, h4]
      intro n k1 k2
      simp [k1, h5 n k1 k2]
    | mrfCost v =>
      refine ⟨_, by unfold Attrs.assign Attrs.setCost; rw [hp]; rfl, ?_⟩
      simp only [lastMrf, lastMrfCost, lastCost, List.filterMap_append, List.filterMap_cons, List.filterMap_nil, List.append_nil] at h1 h3 h4 ⊢
      simp [hne.symm, h1, h2, h4]
      intro n k1 k2
      simp [k1, h5 n k1 k2]
    | cost v =>
      refine ⟨_, by unfold Attrs.assign Attrs.setCost; rw [hp]; rfl, ?_⟩
      simp only [lastMrf, lastMrfCost, lastCost, List.filterMap_append, List.filterMap_cons, List.filterMap_nil, List.append_nil] at h1 h3 h4 ⊢
      simp [hne, h1, h2, h3]
      intro n k1 k2
      simp [k2, h5 n k1 k2]

/-- **C83 (costs of the segments).** The costs of the segments of a piecewise link are refused unless there is one for every segment; else every segment has its own, and no other node is touched. -/
theorem C83_costs (p : Piecewise) (hn : p.sublinks.Nodup) (values : List Rat) (cost : Nat → Rat) :
    (setCosts p values cost = none ↔ values.length ≠ p.sublinks.length) ∧
    ∀ c, setCosts p values cost = some c → (∀ (k : Nat) (s : Nat) (v : Rat), p.sublinks[k]? = some s → values[k]? = some v → c s = v) ∧ ∀ n, n ∉ p.sublinks → c n = cost n := by
  unfold setCosts
  refine ⟨by split <;> simp_all [eq_comm], fun c hc => ?_⟩
  split at hc
  · cases hc
  · rename_i hl
    replace hl := not_not.1 hl
    replace hc := (Option.some.inj hc).symm
    rw [hc]
    clear hc
    generalize p.sublinks = l at hn hl
    induction l generalizing values cost with
    | nil => simp
    | cons a l ih =>
      cases values with
      | nil => cases hl
      | cons v vs =>
        rw [List.nodup_cons] at hn
        obtain ⟨h1, h2⟩ := ih vs (fun n => if n = a then v else cost n) hn.2 (by simpa using hl)
        simp only [List.zip_cons_cons, List.foldl_cons]
        refine ⟨fun k s w hs hw => ?_, fun n hm => ?_⟩
        · cases k with
          | zero =>
            simp only [List.getElem?_cons_zero, Option.some.injEq] at hs hw
            subst hs; subst hw
            rw [h2 _ hn.1]; simp
          | succ k => exact h1 k s w (by simpa using hs) (by simpa using hw)
        · rw [List.mem_cons, not_or] at hm
          rw [h2 n hm.2]; simp [hm.1]

private theorem share {mrf : F} {total fa fb : Rat} (ht : total = fa + fb) (hb : 0 ≤ fb) (hcap : Capacity mrf) (hl : mrf.effective.AtMost fa)
    (hfill : 0 < fb → mrf.effective = .fin fa) : fa = upToMrf mrf total := by
  unfold upToMrf
  rcases hcap with rfl | ⟨m, rfl, hm, -⟩
  · rcases hb.lt_or_eq with h | h
    · cases hfill h
    · simp only [F.effective]; linarith
  · obtain ⟨e, he⟩ : ∃ e, (F.fin m).effective = .fin e := by unfold F.effective; simp only; split_ifs <;> exact ⟨_, rfl⟩
    rw [he] at hl hfill ⊢
    simp only [F.AtMost] at hl
    rcases hb.lt_or_eq with h | h
    · have := hfill h
      injection this with this
      simp only; rw [min_eq_right (by linarith)]; exact this.symm
    · simp only; rw [min_eq_left (by linarith)]; linarith

private theorem capLimit {b : F} (h : Capacity b) : UpperLimit b := by
  rcases h with h | ⟨m, h, -, ho⟩
  · exact .inl h
  · exact .inr ⟨m, h, ho⟩

private theorem atMost {m x : Rat} (hm : 0 ≤ m) (h : Limited (.fin 0) (.fin m) x) : (F.fin m).effective.AtMost x := (C22_between 0 m x hm h).2

private theorem limitTop {b : F} (hc : Capacity b) {x : Rat} (h : Limited (.fin 0) b x) : b.effective.AtMost x := by
  rcases hc with rfl | ⟨m, rfl, hm, -⟩
  · trivial
  · exact atMost hm h

private theorem ord0 : OrdinaryDouble 0 := by unfold OrdinaryDouble; decide +kernel

/-- **C83 (the MRF first, route solver).** If the flow up to the MRF is cheaper than the flow beyond it, then in every optimal solution the first segment carries the flow through the gauge up to the
MRF and the second the rest: all water goes to the residual flow until it is met. -/
theorem C83_mrf_first (d : Data) (routes : List (List Nat)) (p : Piecewise) (h : HasPiecewise d routes p) (hw : WellRouted d routes) (x : List Rat)
    (hx : Optimal d routes x) (first second : Nat) (mrf : F) (mrfCost cost : Rat) (a0 a : Attrs) (as : List GaugeAssign)
    (ha : history p mrf mrfCost cost a0 as = some a) (hg : IsGauge d p first second a)
    (hc : roundCost (lastMrfCost mrfCost as + d.cost p.subOutput) < roundCost (lastCost cost as + d.cost p.subOutput)) :
    routeNodeFlow d routes x first = upToMrf (lastMrf mrf as) (routeNodeFlow d routes x p.output) ∧
    routeNodeFlow d routes x second = routeNodeFlow d routes x p.output - upToMrf (lastMrf mrf as) (routeNodeFlow d routes x p.output) := by
  have hn := h.nodup
  rw [hg.segments] at hn
  have hne : first ≠ second := by simpa using hn
  obtain ⟨a', h1, h2, h3, h4, h5, -⟩ := C83_attributes p first second hg.segments hne mrf mrfCost cost a0 as
  rw [ha] at h1; cases h1
  have m1 : first ∈ p.sublinks := by rw [hg.segments]; simp
  have m2 : second ∈ p.sublinks := by rw [hg.segments]; simp
  have ht := (C27_total d routes p h hw x hx.1).1
  simp only [Piecewise.flow, hg.segments, List.map_cons, List.map_nil, List.sum_cons, List.sum_nil, add_zero] at ht
  obtain ⟨s1, s2, s3, s4⟩ := h.sub first m1
  have hm : d.maxFlow first = lastMrf mrf as := hg.maxFlow.1.trans h2
  have lim := C22_route d routes hw x hx.1 first s1 (by rw [s2]; decide) (.inr ⟨0, s3, ord0⟩) (capLimit s4)
  rw [s3] at lim
  have top := limitTop s4 lim
  have key := share ht (nonneg_flow hw hx.1 second) s4 top fun hf =>
    C27_fill d routes p h hw x hx second first m2 m1 hg.free.2 hg.free.1 (by rw [hg.cost.1, hg.cost.2, h4, h5]; exact hc) hf
  rw [hm] at key
  exact ⟨key, by linarith⟩

/-- **C83 (the MRF last, route solver).** If the flow up to the MRF is dearer, the first segment is never used: the gauge ignores its MRF. -/
theorem C83_mrf_never (d : Data) (routes : List (List Nat)) (p : Piecewise) (h : HasPiecewise d routes p) (hw : WellRouted d routes) (x : List Rat)
    (hx : Optimal d routes x) (first second : Nat) (mrf : F) (mrfCost cost : Rat) (a0 a : Attrs) (as : List GaugeAssign)
    (ha : history p mrf mrfCost cost a0 as = some a) (hg : IsGauge d p first second a)
    (hc : roundCost (lastCost cost as + d.cost p.subOutput) < roundCost (lastMrfCost mrfCost as + d.cost p.subOutput)) :
    routeNodeFlow d routes x first = 0 ∧ routeNodeFlow d routes x second = routeNodeFlow d routes x p.output := by
  have hn := h.nodup
  rw [hg.segments] at hn
  have hne : first ≠ second := by simpa using hn
  obtain ⟨a', h1, h2, h3, h4, h5, -⟩ := C83_attributes p first second hg.segments hne mrf mrfCost cost a0 as
  rw [ha] at h1; cases h1
  have m1 : first ∈ p.sublinks := by rw [hg.segments]; simp
  have m2 : second ∈ p.sublinks := by rw [hg.segments]; simp
  have ht := (C27_total d routes p h hw x hx.1).1
  simp only [Piecewise.flow, hg.segments, List.map_cons, List.map_nil, List.sum_cons, List.sum_nil, add_zero] at ht
  have z : routeNodeFlow d routes x first = 0 := by
    rcases (nonneg_flow hw hx.1 first).lt_or_eq with hf | hf
    · have := C27_fill d routes p h hw x hx first second m1 m2 hg.free.1 hg.free.2 (by rw [hg.cost.1, hg.cost.2, h4, h5]; exact hc) hf
      rw [hg.maxFlow.2, h3] at this
      cases this
    · exact hf.symm
  exact ⟨z, by linarith⟩

/-- **C83 (the MRF first, edge solver).** -/
theorem C83_mrf_first_edge (d : Data) (g : Graph) (p : Piecewise) (h : HasPiecewiseEdges d g p) (hcon : Connects d g) (y : List Rat)
    (hy : EdgeOptimal d g y) (h0 : Idle g y) (first second : Nat) (mrf : F) (mrfCost cost : Rat) (a0 a : Attrs) (as : List GaugeAssign)
    (ha : history p mrf mrfCost cost a0 as = some a) (hg : IsGauge d p first second a) (hc : lastMrfCost mrfCost as < lastCost cost as) :
    edgeNodeFlow d g y first = upToMrf (lastMrf mrf as) (edgeNodeFlow d g y p.output) ∧
    edgeNodeFlow d g y second = edgeNodeFlow d g y p.output - upToMrf (lastMrf mrf as) (edgeNodeFlow d g y p.output) := by
  have hn := h.nodup
  rw [hg.segments] at hn
  have hne : first ≠ second := by simpa using hn
  obtain ⟨a', h1, h2, h3, h4, h5, -⟩ := C83_attributes p first second hg.segments hne mrf mrfCost cost a0 as
  rw [ha] at h1; cases h1
  have m1 : first ∈ p.sublinks := by rw [hg.segments]; simp
  have m2 : second ∈ p.sublinks := by rw [hg.segments]; simp
  have ht := (C27_edge_total d g p h hcon y hy.1 h0).1
  simp only [Piecewise.flow, hg.segments, List.map_cons, List.map_nil, List.sum_cons, List.sum_nil, add_zero] at ht
  obtain ⟨s1, s2, s3, s4⟩ := h.sub first m1
  have hm : d.maxFlow first = lastMrf mrf as := hg.maxFlow.1.trans h2
  have lim := C22_edge d g hcon y hy.1 h0 first s1 (by rw [s2]; decide) (.inr ⟨0, s3, ord0⟩) (capLimit s4)
  rw [s3] at lim
  have top := limitTop s4 lim
  have key := share ht (nonneg_edge hy.1 second) s4 top fun hf =>
    C27_edge_fill d g p h hcon y hy h0 second first m2 m1 hg.free.2 hg.free.1 (by rw [hg.cost.1, hg.cost.2, h4, h5]; exact hc) hf
  rw [hm] at key
  exact ⟨key, by linarith⟩

/-- **C83 (the MRF last, edge solver).** -/
theorem C83_mrf_never_edge (d : Data) (g : Graph) (p : Piecewise) (h : HasPiecewiseEdges d g p) (hcon : Connects d g) (y : List Rat)
    (hy : EdgeOptimal d g y) (h0 : Idle g y) (first second : Nat) (mrf : F) (mrfCost cost : Rat) (a0 a : Attrs) (as : List GaugeAssign)
    (ha : history p mrf mrfCost cost a0 as = some a) (hg : IsGauge d p first second a) (hc : lastCost cost as < lastMrfCost mrfCost as) :
    edgeNodeFlow d g y first = 0 ∧ edgeNodeFlow d g y second = edgeNodeFlow d g y p.output := by
  have hn := h.nodup
  rw [hg.segments] at hn
  have hne : first ≠ second := by simpa using hn
  obtain ⟨a', h1, h2, h3, h4, h5, -⟩ := C83_attributes p first second hg.segments hne mrf mrfCost cost a0 as
  rw [ha] at h1; cases h1
  have m1 : first ∈ p.sublinks := by rw [hg.segments]; simp
  have m2 : second ∈ p.sublinks := by rw [hg.segments]; simp
  have ht := (C27_edge_total d g p h hcon y hy.1 h0).1
  simp only [Piecewise.flow, hg.segments, List.map_cons, List.map_nil, List.sum_cons, List.sum_nil, add_zero] at ht
  have z : edgeNodeFlow d g y first = 0 := by
    rcases (nonneg_edge hy.1 first).lt_or_eq with hf | hf
    · have := C27_edge_fill d g p h hcon y hy h0 first second m1 m2 hg.free.1 hg.free.2 (by rw [hg.cost.1, hg.cost.2, h4, h5]; exact hc) hf
      rw [hg.maxFlow.2, h3] at this
      cases this
    · exact hf.symm
  exact ⟨z, by linarith⟩

/-- The two segments of the example in `Props/Piecewise.lean` are those of a gauge with MRF 5 (assigned later), MRF cost 1 and cost 2. Optimal solutions of that model for both solvers are shown there and in
`Props/PiecewiseEdge.lean`. -/
example : (history twoSegments (.fin 3) 1 7 ⟨fun _ => .posInf, fun _ => 0⟩ [.mrf (.fin 5), .cost 2]).any (fun a =>
      decide (twoSegmentModel.maxFlow 2 = a.maxFlow 2 ∧ twoSegmentModel.maxFlow 3 = a.maxFlow 3 ∧
        twoSegmentModel.cost 2 = a.cost 2 ∧ twoSegmentModel.cost 3 = a.cost 3)) = true ∧
    lastMrf (.fin 3) [.mrf (.fin 5), .cost 2] = .fin 5 ∧ upToMrf (.fin 5) 8 = 5 ∧
    roundCost (lastMrfCost 1 [.mrf (.fin 5), .cost 2] + twoSegmentModel.cost 4) < roundCost (lastCost 7 [.mrf (.fin 5), .cost 2] + twoSegmentModel.cost 4) := by
  decide +kernel

/-! ## Discharges -/

/-- **C83 (discharges and the edge solver).** A discharge in line — an input with a connection from a node of its own domain — can not be used with the edge solver: setting up raises an error. -/
theorem C83_discharge_edge (d : Data) (g : Graph) (n : Nat) (hn : n ∈ d.nodes) (hk : d.kind n = .input) (m : Nat) (he : (m, n) ∈ g.edges)
    (hdom : g.domain m = g.domain n) : ∀ rows, edgeRows d g ≠ .ok rows := by
  intro rows hrows
  obtain ⟨row, -, hr⟩ := (edgeRows_parts hrows).1 n (mem_nonStorages.2 ⟨hn, by rw [hk]; decide⟩)
  have := (nodeRowE_ok hr).1 hk
  obtain ⟨i, hi, ei⟩ := List.getElem_of_mem he
  have hmem : i ∈ inEdges g n := by
    unfold inEdges
    rw [mem_colsOf]
    exact ⟨hi, by simp [ei, hdom]⟩
  rw [this] at hmem
  cases hmem

/-- A catchment 0 (flow 4), a discharge 1 in line (flow 3), a link and an output. -/
def dischargeModel : Data :=
  ⟨fun n => match n with | 0 => .input | 1 => .input | 2 => .link | 3 => .output | _ => .other, [0, 1, 2, 3],
    fun n => if n = 0 then .fin 4 else if n = 1 then .fin 3 else .fin 0, fun n => if n = 0 then .fin 4 else if n = 1 then .fin 3 else .posInf, fun _ => 0,
    [], [], [], [], 1⟩

private theorem carries_mem {d : Data} {r : List Nat} {n : Nat} (h : Carries d r n) : n ∈ r := by
  unfold Carries at h
  split at h
  · exact List.mem_of_mem_head? h
  · exact List.mem_of_getLast? h
  · exact h
  · exact h.elim

/-- **C83 (discharge in line, route solver).** In every solution the flow below a discharge in line is the flow above it and the flow last assigned to it. -/
theorem C83_discharge (d : Data) (routes : List (List Nat)) (hw : WellRouted d routes) (x : List Rat) (hx : RouteFeasible d routes x) (up n down : Nat) (hl : InLine d routes up n down)
    (hn : n ∈ d.nodes) (hk : d.kind n = .input) (minFlow : Option Rat) (maxFlow : Option F) (flow : Option Rat) (as : List Assign) (q : Rat)
    (hq : lastFlow (flow.getD 0) as = some q) (ho : OrdinaryDouble q)
    (hmin : d.minFlow n = (as.foldl Limits.set (catchment minFlow maxFlow flow)).minFlow)
    (hmax : d.maxFlow n = (as.foldl Limits.set (catchment minFlow maxFlow flow)).maxFlow) :
    routeNodeFlow d routes x down = routeNodeFlow d routes x up + if |q| < e8 then 0 else q := by
  rw [← C83_catchment_route d routes hw x hx n hn hk minFlow maxFlow flow as q hq ho hmin hmax, routeNodeFlow_eq_S, routeNodeFlow_eq_S, routeNodeFlow_eq_S, ← S_add]
  refine S_congr fun r hr => ?_
  rw [nodeCoef_eq hw hr, nodeCoef_eq hw hr, nodeCoef_eq hw hr]
  have cn : Carries d r n ↔ r.head? = some n := by unfold Carries; rw [hk]
  have cu : Carries d r up ↔ up ∈ r := ⟨carries_mem, (hl.counted r hr).1⟩
  have cd : Carries d r down ↔ n ∈ r := ⟨fun h => (hl.below r hr).2 (carries_mem h), fun h => (hl.counted r hr).2 ((hl.below r hr).1 h)⟩
  simp only [cn, cu, cd]
  by_cases h : n ∈ r
  · by_cases h2 : up ∈ r
    · simp [h, h2, (hl.above r hr h2).2]
    · have := (hl.own r hr h).resolve_right h2
      simp [h, h2, this]
  · have h2 : up ∉ r := fun h2 => h (hl.above r hr h2).1
    have h3 : r.head? ≠ some n := fun h3 => h (List.mem_of_mem_head? h3)
    simp [h, h2, h3]

example : WellRouted dischargeModel [[0, 1, 2, 3], [1, 2, 3]] ∧ RouteFeasible dischargeModel [[0, 1, 2, 3], [1, 2, 3]] [4, 3] ∧ InLine dischargeModel [[0, 1, 2, 3], [1, 2, 3]] 0 1 2 ∧
    dischargeModel.minFlow 1 = (catchment none none (some 3)).minFlow ∧ dischargeModel.maxFlow 1 = (catchment none none (some 3)).maxFlow :=
  ⟨by decide +kernel, by decide +kernel, ⟨by decide +kernel, by decide +kernel, by decide +kernel, by decide +kernel⟩, by decide +kernel, by decide +kernel⟩

/-- **C83 (discharges, violation).** `Discharge` "sits inline to the river network": with the route solver the water of the catchment passes it and its own is added (4 + 3 arrive), with the
edge solver the same model can not be run. -/
theorem C83_discharge_fails :
    RouteFeasible dischargeModel [[0, 1, 2, 3], [1, 2, 3]] [4, 3] ∧ routeNodeFlow dischargeModel [[0, 1, 2, 3], [1, 2, 3]] [4, 3] 3 = 7 ∧
    WellRouted dischargeModel [[0, 1, 2, 3], [1, 2, 3]] ∧ (edgeRows dischargeModel ⟨[(0, 1), (1, 2), (2, 3)], fun _ => 0⟩).toOption = none := by
  decide +kernel

end Verif.River

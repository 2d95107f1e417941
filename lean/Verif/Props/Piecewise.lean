import Verif.Spec.Composite
import Verif.Proof.Shift
import Verif.Proof.Chain
import Verif.Props.RouteLp
/-! # C27: piecewise links -/

namespace Verif.Composite

open Verif Verif.Lp Verif.Bounds

/-! ## Rows of sublinks -/

theorem sub_row {b : F} {r : Row} (hb : Capacity b) (hr : flowRow true (.fin 0) b = .stored r) :
    (∃ u, b.effective = .fin u ∧ r = ⟨.fx, 0, 0⟩ ∧ u = 0) ∨ (∃ u, b.effective = .fin u ∧ 0 < u ∧ r.type = .db ∧ r.lb = 0 ∧ r.ub = u) ∨
      (b = .posInf ∧ r.type = .lo ∧ r.lb = 0) := by
  have hD := dblMax_gt
  have he := e8_pos
  have he1 := e8_lt_one
  have h0 : roundTiny (.fin 0) = .fin 0 := by simp only [roundTiny, abs_zero, he, if_true]
  have hbig : ¬ |dblMax| < e8 := by rw [abs_of_pos (by linarith)]; linarith
  rcases hb with rfl | ⟨m, rfl, hm0, hm⟩
  · right; right
    have hM : roundTiny (.fin dblMax) = .fin dblMax := by simp only [roundTiny, hbig, if_false]
    simp only [flowRow, infToDblMax, h0, hM, setRowBnds] at hr
    have := Outcome.stored.inj hr
    subst this
    have hc : ¬ |0 - dblMax| < e8 := by rw [zero_sub, abs_neg]; exact hbig
    have hne : (0 : Rat) ≠ -dblMax := by intro h; linarith
    simp only [constraintType, hc, if_false, hne, if_true, and_self]
  · by_cases hs : |m| < e8
    · left
      have hM : roundTiny (.fin m) = .fin 0 := by simp only [roundTiny, hs, if_true]
      simp only [flowRow, infToDblMax, h0, hM, setRowBnds] at hr
      have := Outcome.stored.inj hr
      subst this
      have hc : |(0 : Rat) - 0| < e8 := by simpa using he
      refine ⟨0, by simp only [F.effective, hs, if_true], ?_, rfl⟩
      simp only [constraintType, hc, if_true]
    · right; left
      have hM : roundTiny (.fin m) = .fin m := by simp only [roundTiny, hs, if_false]
      simp only [flowRow, infToDblMax, h0, hM, setRowBnds] at hr
      have := Outcome.stored.inj hr
      subst this
      have hc : ¬ |0 - m| < e8 := by rw [zero_sub, abs_neg]; exact hs
      have hne : (0 : Rat) ≠ -dblMax := by intro h; linarith
      have hne' : m ≠ dblMax := by intro h; have := hm.2; linarith
      refine ⟨m, by simp only [F.effective, hs, if_false], ?_, ?_, rfl, rfl⟩
      · rw [abs_of_nonneg hm0] at hs; linarith
      · simp only [constraintType, hc, if_false, hne, hne']

theorem sub_down {b : F} {r : Row} (hb : Capacity b) (hr : flowRow true (.fin 0) b = .stored r) {u v : Rat} (hu : r.Admits u)
    (hv : 0 ≤ v) (hvu : v ≤ u) : r.Admits v := by
  rcases sub_row hb hr with ⟨w, -, rfl, -⟩ | ⟨w, -, -, ht, hl, hub⟩ | ⟨-, ht, hl⟩
  · simp only [Row.Admits] at hu ⊢; linarith
  · simp only [Row.Admits, ht, hl, hub] at hu ⊢; exact ⟨hv, by linarith [hu.2]⟩
  · simp only [Row.Admits, ht, hl] at hu ⊢; exact hv

theorem sub_up {b : F} {r : Row} (hb : Capacity b) (hr : flowRow true (.fin 0) b = .stored r) {u : Rat} (hu : r.Admits u) :
    b.effective = .fin u ∨ ∃ ε, 0 < ε ∧ ∀ δ, 0 ≤ δ → δ ≤ ε → r.Admits (u + δ) := by
  rcases sub_row hb hr with ⟨w, hw, rfl, rfl⟩ | ⟨w, hw, hw0, ht, hl, hub⟩ | ⟨-, ht, hl⟩
  · left; simp only [Row.Admits] at hu; rw [hw, hu]
  · simp only [Row.Admits, ht, hl, hub] at hu ⊢
    by_cases h : u = w
    · left; rw [hw, h]
    · right
      refine ⟨w - u, sub_pos.2 (lt_of_le_of_ne hu.2 h), fun δ h1 h2 => ⟨by linarith, by linarith⟩⟩
  · right
    simp only [Row.Admits, ht, hl] at hu ⊢
    exact ⟨1, one_pos, fun δ h1 _ => by linarith⟩

/-! ## Sublinks of one piecewise link are interchangeable in every other row -/

section

variable {d : Data} {routes : List (List Nat)} {p : Piecewise}

private theorem sub_flow (h : HasPiecewise d routes p) (hw : WellRouted d routes) (x : List Rat) {s : Nat} (hs : s ∈ p.sublinks) :
    routeNodeFlow d routes x s = S routes x (fun r => if r = [s, p.subOutput] then 1 else 0) := by
  rw [routeNodeFlow_eq hw]
  apply S_congr
  intro r hr
  apply if_congr _ rfl rfl
  unfold Carries
  rw [(h.sub s hs).2.1]
  constructor
  · intro hh; exact (h.route s hs).2 r hr (mem_of_head? hh)
  · rintro rfl; rfl

private theorem weight_node {s s' n : Nat} (hn : n ≠ s) (hn' : n ≠ s') :
    (if Carries d [s, p.subOutput] n then (1 : Rat) else 0) = if Carries d [s', p.subOutput] n then 1 else 0 := by
  apply if_congr _ rfl rfl
  unfold Carries
  cases d.kind n <;> simp [hn, hn', Ne.symm hn, Ne.symm hn']

private theorem weight_cross (h : HasPiecewise d routes p) {s s' : Nat} (hs : s ∈ p.sublinks) (hs' : s' ∈ p.sublinks)
    {c : Nat × List (Nat × Rat)} (hc : c ∈ d.cross) :
    ((if Carries d [s, p.subOutput] c.1 then (-1 : Rat) else 0) + (c.2.map fun i => if [s, p.subOutput].head? = some i.1 then 1 / i.2 else 0).sum) =
    (if Carries d [s', p.subOutput] c.1 then (-1 : Rat) else 0) + (c.2.map fun i => if [s', p.subOutput].head? = some i.1 then 1 / i.2 else 0).sum := by
  obtain ⟨hk, hcc⟩ := h.cross c hc
  have e1 : ∀ s, Carries d [s, p.subOutput] c.1 ↔ p.subOutput = c.1 := by
    intro s; unfold Carries; rw [hk]; simp
  rw [if_congr (e1 s) rfl rfl, if_congr (e1 s') rfl rfl]
  congr 1
  simp only [List.head?_cons, Option.some.injEq]
  have none_sum : ∀ t ∈ p.sublinks, (∀ i ∈ c.2, i.1 ∉ p.sublinks) → (c.2.map fun i : Nat × Rat => if t = i.1 then 1 / i.2 else 0).sum = 0 := by
    intro t ht hi
    apply List.sum_eq_zero
    intro v hv
    obtain ⟨i, hm, rfl⟩ := List.mem_map.1 hv
    rw [if_neg]; rintro rfl; exact hi i hm ht
  rcases hcc with hcc | hcc
  · simp only [Piecewise.cross, List.mem_cons, List.not_mem_nil, or_false] at hcc
    rcases hcc with rfl | rfl
    · have one : ∀ t ∈ p.sublinks, ((p.sublinks.map fun u => (u, (1 : Rat))).map fun i : Nat × Rat => if t = i.1 then 1 / i.2 else 0).sum = 1 := by
        intro t ht
        rw [List.map_map]
        have : ((fun i : Nat × Rat => if t = i.1 then 1 / i.2 else 0) ∘ fun u => (u, (1 : Rat))) = fun n => if t = n then (1 : Rat) else 0 := by
          funext n; simp
        rw [this, sum_eq_ite h.nodup, if_pos ht]
      simp only
      rw [one s hs, one s' hs']
    · have out : ∀ i ∈ ([(p.input, 1)] : List (Nat × Rat)), i.1 ∉ p.sublinks := by
        intro i hi; simp at hi; rw [hi]; exact h.outside
      rw [none_sum s hs out, none_sum s' hs' out]
  · rw [none_sum s hs hcc, none_sum s' hs' hcc]

private theorem weight_storage (h : HasPiecewise d routes p) {s s' : Nat} (hs : s ∈ p.sublinks) (hs' : s' ∈ p.sublinks)
    {t : StorageData} (ht : t ∈ d.storages) :
    ((if (inList [s, p.subOutput].getLast? t.outputs && !inList [s, p.subOutput].head? t.inputs) = true then (1 : Rat) else 0) +
      (if (inList [s, p.subOutput].head? t.inputs && !inList [s, p.subOutput].getLast? t.outputs) = true then -1 else 0)) =
    (if (inList [s', p.subOutput].getLast? t.outputs && !inList [s', p.subOutput].head? t.inputs) = true then 1 else 0) +
      (if (inList [s', p.subOutput].head? t.inputs && !inList [s', p.subOutput].getLast? t.outputs) = true then -1 else 0) := by
  have h1 := h.storages t ht s hs
  have h2 := h.storages t ht s' hs'
  simp [inList, h1, h2]

private theorem weight_virtual {s s' : Nat} (hs : Unreferenced d s) (hs' : Unreferenced d s')
    {v : VirtualData} (hv : v ∈ d.virtuals) :
    -(routeFactors v [s, p.subOutput]).sum = -(routeFactors v [s', p.subOutput]).sum := by
  have h1 : v.nodes.idxOf? s = none := by rw [List.idxOf?_eq_none_iff]; exact hs.1 v hv
  have h2 : v.nodes.idxOf? s' = none := by rw [List.idxOf?_eq_none_iff]; exact hs'.1 v hv
  unfold routeFactors
  simp only [List.filterMap_cons, h1, h2, Option.bind_none]

private theorem weight_factor {s s' : Nat} (hs : Unreferenced d s) (hs' : Unreferenced d s')
    {a : AggData} (ha : a ∈ d.aggs) {n : Nat} (hn : n ∈ a.nodes) (k : Rat) :
    (if [s, p.subOutput].contains n = true then k else 0) = if [s', p.subOutput].contains n = true then k else 0 := by
  have h1 : n ≠ s := by rintro rfl; exact hs.2 a ha hn
  have h2 : n ≠ s' := by rintro rfl; exact hs'.2 a ha hn
  simp [h1, h2]

private theorem weight_agg {s s' : Nat} (hs : Unreferenced d s) (hs' : Unreferenced d s')
    {a : AggData} (ha : a ∈ d.aggs) :
    ((lastWeight a fun n => [s, p.subOutput].contains n).getD 0) = ((lastWeight a fun n => [s', p.subOutput].contains n).getD 0) := by
  unfold lastWeight
  congr 3
  apply List.filter_congr
  intro q hq
  have hq' := (List.of_mem_zip hq).1
  have h1 : q.1 ≠ s := by intro e; exact hs.2 a ha (e ▸ hq')
  have h2 : q.1 ≠ s' := by intro e; exact hs'.2 a ha (e ▸ hq')
  simp [h1, h2]

/-- Moving flow between two sublinks keeps a solution feasible as long as their own limits are kept. -/
private theorem shift_feasible (h : HasPiecewise d routes p) (hw : WellRouted d routes) {x : List Rat} (hx : RouteFeasible d routes x)
    {i j : Nat} (hi : i < routes.length) (hj : j < routes.length) {s s' : Nat} (hs : s ∈ p.sublinks) (hs' : s' ∈ p.sublinks) (hne : s ≠ s')
    (free : Unreferenced d s) (free' : Unreferenced d s') (ei : routes[i] = [s, p.subOutput]) (ej : routes[j] = [s', p.subOutput]) {ε : Rat} (hε : 0 ≤ ε)
    (h1 : ε ≤ routeNodeFlow d routes x s)
    (h2 : ∀ r, flowRow true (.fin 0) (d.maxFlow s') = .stored r → r.Admits (routeNodeFlow d routes x s') →
      r.Admits (routeNodeFlow d routes x s' + ε)) :
    RouteFeasible d routes (shift x i j ε) := by
  obtain ⟨rows, hrows, hlen, hx0, hsat⟩ := hx
  have hxi : x.getD i 0 = routeNodeFlow d routes x s := by
    rw [sub_flow h hw x hs, ← ei, S_single h.once x hi]
  refine ⟨rows, hrows, by rw [shift_length, hlen], ?_, ?_⟩
  · intro v hv
    obtain ⟨c, hc, rfl⟩ := List.getElem_of_mem hv
    rw [shift_length] at hc
    have e : (shift x i j ε)[c]'(by rw [shift_length]; exact hc) = (shift x i j ε).getD c 0 := by
      rw [List.getD_eq_getElem?_getD, List.getElem?_eq_getElem (by rw [shift_length]; exact hc)]; rfl
    rw [e, shift_getD hc]
    have hp := getD_nonneg hx0 c
    by_cases hci : c = i
    · subst hci
      rw [if_pos rfl, hxi]
      split_ifs <;> linarith
    · rw [if_neg hci]
      split_ifs <;> linarith
  · intro row hrow
    have hold := hsat row hrow
    have same : ∀ w : List Nat → Rat, (∀ x, rowVal x row.entries = S routes x w) → w [s, p.subOutput] = w [s', p.subOutput] →
        row.bounds.Admits (rowVal (shift x i j ε) row.entries) := by
      intro w he hww
      rw [he, S_shift hlen hi hj, ei, ej, hww, sub_self, mul_zero, add_zero, ← he]; exact hold
    rcases routeRows_mem hrows hrow with ⟨n, hn, hr⟩ | ⟨c, hc, hr⟩ | ⟨t, ht, hr⟩ | ⟨v, hv, hr⟩ | ⟨a, ha, l, hl, hr⟩ | ⟨a, ha, hr⟩
    · obtain ⟨hn1, hn2⟩ := mem_nonStorages.1 hn
      obtain ⟨he, hb, -⟩ := nodeRow_ok hr
      have hval : ∀ x, rowVal x row.entries = S routes x (fun r => if Carries d r n then 1 else 0) := by
        intro x; rw [he, rowVal_nodeCols hn2]
      by_cases hns : n = s
      · subst hns
        obtain ⟨-, hk, hmin, hcap⟩ := h.sub n hs
        rw [hmin] at hb
        rw [he, node_value hw hn2] at hold ⊢
        have e : routeNodeFlow d routes (shift x i j ε) n = routeNodeFlow d routes x n - ε := by
          rw [sub_flow h hw _ hs, sub_flow h hw _ hs, S_shift hlen hi hj, ei, ej, if_pos rfl, if_neg (by simp [Ne.symm hne])]; ring
        rw [e]
        exact sub_down hcap hb hold (by linarith) (by linarith)
      · by_cases hns' : n = s'
        · subst hns'
          obtain ⟨-, hk, hmin, hcap⟩ := h.sub n hs'
          rw [hmin] at hb
          rw [he, node_value hw hn2] at hold ⊢
          have e : routeNodeFlow d routes (shift x i j ε) n = routeNodeFlow d routes x n + ε := by
            rw [sub_flow h hw _ hs', sub_flow h hw _ hs', S_shift hlen hi hj, ei, ej, if_pos rfl, if_neg (by simp [hne])]; ring
          rw [e]
          exact h2 _ hb hold
        · exact same _ hval (weight_node hns hns')
    · exact same _ (fun x => (crossRow_S hr (by rw [(h.cross c hc).1]; simp) x).1) (weight_cross h hs hs' hc)
    · exact same _ (fun x => storageRow_S hr x) (weight_storage h hs hs' ht)
    · exact same _ (fun x => virtualRow_S hr x) (weight_virtual free free' hv)
    · obtain ⟨n, hn, m, hm, k, hval⟩ := factorRow_S hl hr
      exact same _ hval (by rw [weight_factor free free' ha hn 1, weight_factor free free' ha hm (-k)])
    · exact same _ (fun x => aggRow_S hr x) (weight_agg free free' ha)

end

/-- **C27 (filling order).** In every cost-optimal solution a segment carries flow only if every cheaper segment is at its maximum flow (costs are
compared as the solver sees them: the cost of the segment's route, magnitudes below 1e-8 counting as zero; likewise limits). The two segments must not be
used by a virtual storage or an aggregated node. -/
theorem C27_fill (d : Data) (routes : List (List Nat)) (p : Piecewise) (h : HasPiecewise d routes p) (hw : WellRouted d routes) (x : List Rat)
    (hx : Optimal d routes x) (s s' : Nat) (hs : s ∈ p.sublinks) (hs' : s' ∈ p.sublinks) (free : Unreferenced d s) (free' : Unreferenced d s')
    (hcost : roundCost (d.cost s' + d.cost p.subOutput) < roundCost (d.cost s + d.cost p.subOutput))
    (hflow : 0 < routeNodeFlow d routes x s) :
    (d.maxFlow s').effective = .fin (routeNodeFlow d routes x s') := by
  obtain ⟨hfeas, hopt⟩ := hx
  have hne : s ≠ s' := by rintro rfl; exact lt_irrefl _ hcost
  obtain ⟨i, hi, ei⟩ := List.getElem_of_mem (h.route s hs).1
  obtain ⟨j, hj, ej⟩ := List.getElem_of_mem (h.route s' hs').1
  obtain ⟨rows, hrows, hlen, hx0, hsat⟩ := hfeas
  obtain ⟨hm', hk', hmin', hcap'⟩ := h.sub s' hs'
  have hko : d.kind s' ≠ .other := by rw [hk']; simp
  obtain ⟨row, hrow, hr⟩ := (routeRows_parts hrows).1 s' (mem_nonStorages.2 ⟨hm', hko⟩)
  obtain ⟨he, hb, -⟩ := nodeRow_ok hr
  rw [hmin'] at hb
  have hold := hsat row hrow
  rw [he, node_value hw hko] at hold
  rcases sub_up hcap' hb hold with h1 | ⟨ε, hε, hup⟩
  · exact h1
  · exfalso
    set δ := min ε (routeNodeFlow d routes x s) with hδ
    have hδ0 : 0 < δ := lt_min hε hflow
    have hf := shift_feasible h hw ⟨rows, hrows, hlen, hx0, hsat⟩ hi hj hs hs' hne free free' ei ej (le_of_lt hδ0) (min_le_right _ _) (by
      intro r hr' _
      rw [hb] at hr'
      rw [← Outcome.stored.inj hr']
      exact hup δ (le_of_lt hδ0) (min_le_left _ _))
    have := hopt _ hf
    rw [objective_S, objective_S, S_shift hlen hi hj, ei, ej] at this
    have ec : ∀ t, routeCost d [t, p.subOutput] = d.cost t + d.cost p.subOutput := by
      intro t; simp [routeCost]
    rw [ec, ec] at this
    have : δ * (roundCost (d.cost s' + d.cost p.subOutput) - roundCost (d.cost s + d.cost p.subOutput)) < 0 :=
      mul_neg_of_pos_of_neg hδ0 (by linarith)
    linarith

/-- **C27 (total).** In every solution the water entering the link (at its output node) is the sum of the segment flows, which is what leaves it (at its
input node); and with finite segment limits the sum is at most the sum of the limits, the link's reported maximum flow. -/
theorem C27_total (d : Data) (routes : List (List Nat)) (p : Piecewise) (h : HasPiecewise d routes p) (hw : WellRouted d routes) (x : List Rat)
    (hx : RouteFeasible d routes x) :
    routeNodeFlow d routes x p.output = p.flow (routeNodeFlow d routes x) ∧
    routeNodeFlow d routes x p.subOutput = routeNodeFlow d routes x p.input ∧
    ∀ limit : Nat → Rat, (∀ s ∈ p.sublinks, d.maxFlow s = .fin (limit s)) → p.flow (routeNodeFlow d routes x) ≤ p.maxFlow limit := by
  refine ⟨?_, ?_, ?_⟩
  · have := C53_cross d routes hw x hx p.output (p.sublinks.map fun s => (s, 1)) (h.present _ (by simp [Piecewise.cross])) h.ends.1 (by
      intro i hi
      obtain ⟨s, hs, rfl⟩ := List.mem_map.1 hi
      exact (h.sub s hs).2.1)
    rw [this, List.map_map]
    unfold Piecewise.flow
    congr 1
    apply List.map_congr_left
    intro s _
    simp
  · have := C53_cross d routes hw x hx p.subOutput [(p.input, 1)] (h.present _ (by simp [Piecewise.cross])) h.ends.2.1 (by
      intro i hi
      simp at hi; rw [hi]; exact h.ends.2.2)
    rw [this]; simp
  · intro limit hl
    unfold Piecewise.flow Piecewise.maxFlow
    apply List.sum_le_sum
    intro s hs
    obtain ⟨hm, hk, hmin, hcap⟩ := h.sub s hs
    have hko : d.kind s ≠ .other := by rw [hk]; simp
    obtain ⟨rows, hrows, hlen, hx0, hsat⟩ := hx
    obtain ⟨row, hrow, hr⟩ := (routeRows_parts hrows).1 s (mem_nonStorages.2 ⟨hm, hko⟩)
    obtain ⟨he, hb, -⟩ := nodeRow_ok hr
    rw [hmin] at hb
    have hold := hsat row hrow
    rw [he, node_value hw hko] at hold
    rw [hl s hs] at hb hcap
    have h0 : 0 ≤ limit s := by
      rcases hcap with h | ⟨m, h, h0, -⟩
      · cases h
      · injection h with h; rw [h]; exact h0
    rcases sub_row hcap hb with ⟨w, hw', hrb, hw0⟩ | ⟨w, hw', -, ht, hlb, hub⟩ | ⟨h', -⟩
    · rw [hrb] at hold; simp only [Row.Admits] at hold; rw [hold]; exact h0
    · simp only [Row.Admits, ht, hlb, hub] at hold
      refine hold.2.trans ?_
      unfold F.effective at hw'
      simp only at hw'
      split_ifs at hw'
      · injection hw' with hw'; rw [← hw']; exact h0
      · injection hw' with hw'; rw [← hw']
    · cases h'

/-- The routes of the segments follow from the connections made by the constructor: when nothing else is connected to the internal nodes and the segments
lie in a domain of their own, every segment has exactly one route, to the sub-output. -/
theorem C27_routes (d : Data) (g : Digraph) (hg : g.WF) (info : Routes.NodeInfo) (routes : List (List Nat)) (p : Piecewise)
    (hfound : Routes.findAllRoutes g info (.cls fun n => d.kind n == .input) (.cls fun n => d.kind n == .output)
      (some fun n => d.kind n != .other) none .strict = .ok routes)
    (hkind : (∀ s ∈ p.sublinks, d.kind s = .input) ∧ d.kind p.subOutput = .output)
    (hdom : (∀ s ∈ p.sublinks, info.domain s = info.domain p.subOutput) ∧ info.domain p.output ≠ info.domain p.subOutput ∧
      info.domain p.input ≠ info.domain p.subOutput)
    (hmade : ∀ e ∈ p.edges, e ∈ g.edges)
    (honly : ∀ e ∈ g.edges, (e.1 ∈ p.subOutput :: p.sublinks ∨ e.2 ∈ p.sublinks) → e ∈ p.edges) (hout : p.output ∉ p.subOutput :: p.sublinks) :
    ∀ s ∈ p.sublinks, [s, p.subOutput] ∈ routes ∧ ∀ r ∈ routes, s ∈ r → r = [s, p.subOutput] := by
  intro s hs
  obtain ⟨-, hex⟩ := Routes.C26_routes_exact g hg info _ _ _ _ _ routes hfound
  have hne : ∀ t ∈ p.sublinks, t ≠ p.subOutput := by
    rintro t ht rfl
    have := hkind.1 _ ht
    rw [hkind.2] at this; cases this
  have mem_e : ∀ e ∈ p.edges, e = (p.subOutput, p.input) ∨ ∃ t ∈ p.sublinks, e = (t, p.subOutput) ∨ e = (p.output, t) := by
    intro e he
    simp only [Piecewise.edges, List.mem_cons, List.mem_flatMap, List.not_mem_nil, or_false] at he
    exact he
  have hedge : (s, p.subOutput) ∈ g.edges := hmade _ (by
    simp only [Piecewise.edges, List.mem_cons, List.mem_flatMap]
    exact .inr ⟨s, hs, .inl rfl⟩)
  refine ⟨(hex _).2 ⟨s, p.subOutput, ⟨(hg.2.2 _ _ hedge).1, by simp [hkind.1 s hs]⟩, ⟨(hg.2.2 _ _ hedge).2, by simp [hkind.2]⟩, hne s hs, ?_, ?_, ?_, ?_⟩, ?_⟩
  · refine ⟨rfl, rfl, ?_, ?_⟩
    · rw [List.isChain_cons_cons]; exact ⟨hedge, List.isChain_singleton _⟩
    · simp [hne s hs]
  · intro test _ n hn h1 h2
    simp only [List.mem_cons, List.not_mem_nil, or_false] at hn
    rcases hn with h | h
    · exact absurd h h1
    · exact absurd h h2
  · intro k hk; cases hk
  · intro a ha b hb
    simp only [List.mem_cons, List.not_mem_nil, or_false] at ha hb
    have := hdom.1 s hs
    rcases ha with rfl | rfl <;> rcases hb with rfl | rfl <;> simp [this]
  · intro r hr hsr
    obtain ⟨a, z, ha, hz, haz, ⟨hp1, hp2, hp3, hp4⟩, -, -, hstrict⟩ := (hex r).1 hr
    have hstrict : ∀ x ∈ r, ∀ y ∈ r, info.domain x = info.domain y := hstrict
    have hhead : r.head? = some s := by
      by_contra hh
      obtain ⟨i, hi, e, he⟩ := pred_index hp3 hsr hh
      rcases mem_e _ (honly _ he (.inr hs)) with h | ⟨t, ht, h | h⟩
      · injection h with h1 h2; subst h2
        exact hdom.2.2 (hdom.1 _ hs)
      · injection h with h1 h2; exact hne s hs h2
      · injection h with h1 h2
        have := hstrict r[i] (List.getElem_mem _) s hsr
        rw [h1, hdom.1 s hs] at this
        exact hdom.2.1 this
    have hlast : r.getLast? ≠ some s := by
      intro h; rw [hp1] at hhead; rw [hp2] at h; exact haz (by rw [Option.some.inj hhead, Option.some.inj h])
    match r, hhead, hlast, hp2, hp3, hstrict with
    | [a], hhead, hlast, _, _, _ => simp at hhead hlast; exact absurd hhead hlast
    | a :: b :: rest, hhead, hlast, hp2, hp3, hstrict =>
      simp only [List.head?_cons, Option.some.injEq] at hhead
      subst hhead
      rw [List.isChain_cons_cons] at hp3
      have hb : b = p.subOutput := by
        rcases mem_e _ (honly _ hp3.1 (.inl (List.mem_cons_of_mem _ hs))) with h | ⟨t, ht, h | h⟩
        · injection h with h1 h2; exact absurd h1 (hne _ hs)
        · injection h with h1 h2
        · injection h with h1 h2
          exact absurd (List.mem_cons_of_mem _ (h1 ▸ hs)) hout
      subst hb
      match rest, hp3, hstrict with
      | [], _, _ => rfl
      | c :: rest, hp3, hstrict =>
        exfalso
        have h3 := hp3.2
        rw [List.isChain_cons_cons] at h3
        rcases mem_e _ (honly _ h3.1 (.inl (by simp))) with h | ⟨t, ht, h | h⟩
        · injection h with h1 h2
          have := hstrict c (by simp) p.subOutput (by simp)
          rw [h2] at this; exact hdom.2.2 this
        · injection h with h1 h2; exact hne t ht h1.symm
        · injection h with h1 h2; exact hout (by rw [← h1]; simp)

/-! ## The hypotheses are met

Supply 0, piecewise link with output 1, segments 2 (cost 1, at most 5) and 3 (cost 2), sub-output 4 and input 5, demand 6 (benefit 20, at most 8). -/

/-- The piecewise link of the example. -/
def twoSegments : Piecewise := ⟨1, [2, 3], 4, 5⟩

/-- The model of the example. -/
def twoSegmentModel : Data :=
  ⟨fun n => match n with | 0 => .input | 1 => .output | 2 => .input | 3 => .input | 4 => .output | 5 => .input | 6 => .output | _ => .other,
    [0, 1, 2, 3, 4, 5, 6], fun _ => .fin 0, fun n => if n = 2 then .fin 5 else if n = 6 then .fin 8 else .posInf,
    fun n => if n = 2 then 1 else if n = 3 then 2 else if n = 6 then -20 else 0, [], [], [], twoSegments.cross, 1⟩

/-- Its routes. -/
def twoSegmentRoutes : List (List Nat) := [[0, 1], [2, 4], [3, 4], [5, 6]]

private theorem two_has : HasPiecewise twoSegmentModel twoSegmentRoutes twoSegments := by
  have ord : OrdinaryDouble 5 := by
    have : (10 : Rat) < dblMax := by decide +kernel
    constructor <;> linarith
  refine ⟨by decide, ?_, by decide +kernel, by decide +kernel, by decide +kernel, by decide +kernel, by decide +kernel, by decide, ?_⟩
  · intro s hs
    simp only [twoSegments, List.mem_cons, List.not_mem_nil, or_false] at hs
    rcases hs with rfl | rfl
    · exact ⟨by decide +kernel, rfl, rfl, .inr ⟨5, rfl, by norm_num, ord⟩⟩
    · exact ⟨by decide +kernel, rfl, rfl, .inl rfl⟩
  · intro t ht; cases ht

private theorem two_routed : WellRouted twoSegmentModel twoSegmentRoutes := by decide +kernel

/-- The solution filling segment 2 (flow 5) before segment 3 (flow 3) is optimal. -/
example : Optimal twoSegmentModel twoSegmentRoutes [8, 5, 3, 8] ∧
    routeNodeFlow twoSegmentModel twoSegmentRoutes [8, 5, 3, 8] 3 = 3 ∧ (Unreferenced twoSegmentModel 2 ∧ Unreferenced twoSegmentModel 3) ∧
    roundCost (twoSegmentModel.cost 2 + twoSegmentModel.cost 4) < roundCost (twoSegmentModel.cost 3 + twoSegmentModel.cost 4) := by
  refine ⟨⟨by decide +kernel, ?_⟩, by decide +kernel, ⟨⟨fun _ h => (nomatch h), fun _ h => (nomatch h)⟩,
    ⟨fun _ h => (nomatch h), fun _ h => (nomatch h)⟩⟩, by decide +kernel⟩
  intro x hx
  have ord : ∀ q : Rat, 0 ≤ q → q ≤ 8 → OrdinaryDouble q := by intro q _ _; have : (10 : Rat) < dblMax := (by decide +kernel); constructor <;> linarith
  have l2 := C22_route _ _ two_routed x hx 2 (by decide +kernel) (by decide +kernel) (.inr ⟨0, rfl, ord 0 (by norm_num) (by norm_num)⟩)
    (.inr ⟨5, rfl, ord 5 (by norm_num) (by norm_num)⟩)
  have l6 := C22_route _ _ two_routed x hx 6 (by decide +kernel) (by decide +kernel) (.inr ⟨0, rfl, ord 0 (by norm_num) (by norm_num)⟩)
    (.inr ⟨8, rfl, ord 8 (by norm_num) (by norm_num)⟩)
  have b2 := (C22_between 0 5 _ (by norm_num) l2).2
  have b6 := (C22_between 0 8 _ (by norm_num) l6).2
  have e5 : (F.fin 5).effective = .fin 5 := by decide +kernel
  have e8' : (F.fin 8).effective = .fin 8 := by decide +kernel
  rw [e5] at b2
  rw [e8'] at b6
  have t := (C27_total _ _ _ two_has two_routed x hx).2.1
  obtain ⟨-, -, hlen, -, -⟩ := hx
  match x, hlen with
  | [a, b, c, e], _ =>
    have c1 : roundCost (routeCost twoSegmentModel [0, 1]) = 0 := by decide +kernel
    have c2 : roundCost (routeCost twoSegmentModel [2, 4]) = 1 := by decide +kernel
    have c3 : roundCost (routeCost twoSegmentModel [3, 4]) = 2 := by decide +kernel
    have c4 : roundCost (routeCost twoSegmentModel [5, 6]) = -20 := by decide +kernel
    have o : ∀ a b c e : Rat, routeObjective twoSegmentModel twoSegmentRoutes [a, b, c, e] = b + 2 * c - 20 * e := by
      intro a b c e
      rw [objective_S]
      simp [S, twoSegmentRoutes, c1, c2, c3, c4]
      ring
    have f : ∀ n, routeNodeFlow twoSegmentModel twoSegmentRoutes [a, b, c, e] n =
        nodeCoef twoSegmentModel [0, 1] n * a + nodeCoef twoSegmentModel [2, 4] n * b + nodeCoef twoSegmentModel [3, 4] n * c +
        nodeCoef twoSegmentModel [5, 6] n * e := by
      intro n
      rw [routeNodeFlow_eq_S]
      simp [S, twoSegmentRoutes]
      ring
    simp only [F.AtMost] at b2 b6
    have k2 : nodeCoef twoSegmentModel [0, 1] 2 = 0 ∧ nodeCoef twoSegmentModel [2, 4] 2 = 1 ∧ nodeCoef twoSegmentModel [3, 4] 2 = 0 ∧
      nodeCoef twoSegmentModel [5, 6] 2 = 0 := by decide +kernel
    have k6 : nodeCoef twoSegmentModel [0, 1] 6 = 0 ∧ nodeCoef twoSegmentModel [2, 4] 6 = 0 ∧ nodeCoef twoSegmentModel [3, 4] 6 = 0 ∧
      nodeCoef twoSegmentModel [5, 6] 6 = 1 := by decide +kernel
    have k4 : nodeCoef twoSegmentModel [0, 1] 4 = 0 ∧ nodeCoef twoSegmentModel [2, 4] 4 = 1 ∧ nodeCoef twoSegmentModel [3, 4] 4 = 1 ∧
      nodeCoef twoSegmentModel [5, 6] 4 = 0 := by decide +kernel
    have k5 : nodeCoef twoSegmentModel [0, 1] 5 = 0 ∧ nodeCoef twoSegmentModel [2, 4] 5 = 0 ∧ nodeCoef twoSegmentModel [3, 4] 5 = 0 ∧
      nodeCoef twoSegmentModel [5, 6] 5 = 1 := by decide +kernel
    rw [f, k2.1, k2.2.1, k2.2.2.1, k2.2.2.2] at b2
    rw [f, k6.1, k6.2.1, k6.2.2.1, k6.2.2.2] at b6
    have t' : routeNodeFlow twoSegmentModel twoSegmentRoutes [a, b, c, e] 4 = routeNodeFlow twoSegmentModel twoSegmentRoutes [a, b, c, e] 5 := t
    rw [f, f, k4.1, k4.2.1, k4.2.2.1, k4.2.2.2, k5.1, k5.2.1, k5.2.2.1, k5.2.2.2] at t'
    rw [o, o]
    linarith

/-- The model of the example with an aggregated node that keeps the two segments at equal flows, as a `MultiSplitLink` with factors does. -/
def linkedModel : Data := { twoSegmentModel with aggs := [⟨[2, 3], none, some [1, 1], .fin 0, .posInf⟩] }

/-- **C27 fails** for segments which an aggregated node with factors (that of a `MultiSplitLink`) keeps in a ratio: in a cost-optimal solution segment 3 carries
flow although the cheaper segment 2 is not full. -/
theorem C27_linked_fails : Optimal linkedModel twoSegmentRoutes [8, 4, 4, 8] ∧ linkedModel.cost 2 < linkedModel.cost 3 ∧
    routeNodeFlow linkedModel twoSegmentRoutes [8, 4, 4, 8] 3 = 4 ∧ routeNodeFlow linkedModel twoSegmentRoutes [8, 4, 4, 8] 2 = 4 ∧
    linkedModel.maxFlow 2 = .fin 5 := by
  refine ⟨⟨by decide +kernel, ?_⟩, by decide +kernel, by decide +kernel, by decide +kernel, rfl⟩
  intro x hx
  have routed : WellRouted linkedModel twoSegmentRoutes := by decide +kernel
  have has : HasPiecewise linkedModel twoSegmentRoutes twoSegments :=
    ⟨two_has.nodup, two_has.sub, two_has.ends, two_has.route, two_has.once, two_has.present, two_has.cross, two_has.outside, two_has.storages⟩
  have ord : ∀ q : Rat, 0 ≤ q → q ≤ 8 → OrdinaryDouble q := by intro q _ _; have : (10 : Rat) < dblMax := (by decide +kernel); constructor <;> linarith
  have l6 := C22_route _ _ routed x hx 6 (by decide +kernel) (by decide +kernel) (.inr ⟨0, rfl, ord 0 (by norm_num) (by norm_num)⟩)
    (.inr ⟨8, rfl, ord 8 (by norm_num) (by norm_num)⟩)
  have b6 := (C22_between 0 8 _ (by norm_num) l6).2
  have e8' : (F.fin 8).effective = .fin 8 := by decide +kernel
  rw [e8'] at b6
  have t := (C27_total _ _ _ has routed x hx).2.1
  obtain ⟨k, hk⟩ := C21_route_partial _ _ routed x hx _ (List.mem_singleton.2 rfl) [1, 1] rfl rfl (by unfold NoPassThrough; decide +kernel)
  have h2 := (hk (2, 1) (by simp)).2
  have h3 := (hk (3, 1) (by simp)).2
  obtain ⟨-, -, hlen, -, -⟩ := hx
  match x, hlen with
  | [a, b, c, e], _ =>
    have c1 : roundCost (routeCost linkedModel [0, 1]) = 0 := by decide +kernel
    have c2 : roundCost (routeCost linkedModel [2, 4]) = 1 := by decide +kernel
    have c3 : roundCost (routeCost linkedModel [3, 4]) = 2 := by decide +kernel
    have c4 : roundCost (routeCost linkedModel [5, 6]) = -20 := by decide +kernel
    have o : ∀ a b c e : Rat, routeObjective linkedModel twoSegmentRoutes [a, b, c, e] = b + 2 * c - 20 * e := by
      intro a b c e
      rw [objective_S]
      simp [S, twoSegmentRoutes, c1, c2, c3, c4]
      ring
    have f : ∀ n, routeNodeFlow linkedModel twoSegmentRoutes [a, b, c, e] n =
        nodeCoef linkedModel [0, 1] n * a + nodeCoef linkedModel [2, 4] n * b + nodeCoef linkedModel [3, 4] n * c +
        nodeCoef linkedModel [5, 6] n * e := by
      intro n
      rw [routeNodeFlow_eq_S]
      simp [S, twoSegmentRoutes]
      ring
    simp only [F.AtMost] at b6
    have k2 : nodeCoef linkedModel [0, 1] 2 = 0 ∧ nodeCoef linkedModel [2, 4] 2 = 1 ∧ nodeCoef linkedModel [3, 4] 2 = 0 ∧
      nodeCoef linkedModel [5, 6] 2 = 0 := by decide +kernel
    have k3 : nodeCoef linkedModel [0, 1] 3 = 0 ∧ nodeCoef linkedModel [2, 4] 3 = 0 ∧ nodeCoef linkedModel [3, 4] 3 = 1 ∧
      nodeCoef linkedModel [5, 6] 3 = 0 := by decide +kernel
    have k6 : nodeCoef linkedModel [0, 1] 6 = 0 ∧ nodeCoef linkedModel [2, 4] 6 = 0 ∧ nodeCoef linkedModel [3, 4] 6 = 0 ∧
      nodeCoef linkedModel [5, 6] 6 = 1 := by decide +kernel
    have k4 : nodeCoef linkedModel [0, 1] 4 = 0 ∧ nodeCoef linkedModel [2, 4] 4 = 1 ∧ nodeCoef linkedModel [3, 4] 4 = 1 ∧
      nodeCoef linkedModel [5, 6] 4 = 0 := by decide +kernel
    have k5 : nodeCoef linkedModel [0, 1] 5 = 0 ∧ nodeCoef linkedModel [2, 4] 5 = 0 ∧ nodeCoef linkedModel [3, 4] 5 = 0 ∧
      nodeCoef linkedModel [5, 6] 5 = 1 := by decide +kernel
    simp only at h2 h3
    rw [f, k2.1, k2.2.1, k2.2.2.1, k2.2.2.2] at h2
    rw [f, k3.1, k3.2.1, k3.2.2.1, k3.2.2.2] at h3
    rw [f, k6.1, k6.2.1, k6.2.2.1, k6.2.2.2] at b6
    have t' : routeNodeFlow linkedModel twoSegmentRoutes [a, b, c, e] 4 = routeNodeFlow linkedModel twoSegmentRoutes [a, b, c, e] 5 := t
    rw [f, f, k4.1, k4.2.1, k4.2.2.1, k4.2.2.2, k5.1, k5.2.1, k5.2.2.1, k5.2.2.2] at t'
    rw [o, o]
    linarith

/-- **C27 (limits).** Setting the limits gives every sublink its own, and changes no other node; it is refused exactly when the
number of limits is not the number of sublinks. -/
theorem C27_max_flows (p : Piecewise) (hn : p.sublinks.Nodup) (values : List F) (maxFlow : Nat → F) :
    (p.setMaxFlows values maxFlow = none ↔ values.length ≠ p.sublinks.length) ∧
    ∀ m, p.setMaxFlows values maxFlow = some m →
      (∀ (i s : Nat) (v : F), p.sublinks[i]? = some s → values[i]? = some v → m s = v) ∧ ∀ n ∉ p.sublinks, m n = maxFlow n := by
  have key : ∀ (l : List Nat) (vs : List F) (f : Nat → F), l.Nodup → l.length = vs.length →
      (∀ (i s : Nat) (v : F), l[i]? = some s → vs[i]? = some v →
        (l.zip vs).foldl (fun m q => fun n => if n = q.1 then q.2 else m n) f s = v) ∧
      ∀ n ∉ l, (l.zip vs).foldl (fun m q => fun n => if n = q.1 then q.2 else m n) f n = f n := by
    intro l
    induction l with
    | nil => intro vs f _ _; exact ⟨by simp, by simp⟩
    | cons a l ih =>
      intro vs f hnd hlen
      cases vs with
      | nil => simp at hlen
      | cons w vs =>
        obtain ⟨ha, hnd⟩ := List.nodup_cons.1 hnd
        obtain ⟨h1, h2⟩ := ih vs (fun n => if n = a then w else f n) hnd (by simpa using hlen)
        rw [List.zip_cons_cons, List.foldl_cons]
        refine ⟨fun i s v hs hv => ?_, fun n hn => ?_⟩
        · cases i with
          | zero =>
            simp only [List.getElem?_cons_zero, Option.some.injEq] at hs hv
            subst hs hv
            rw [h2 _ ha, if_pos rfl]
          | succ i => exact h1 i s v (by simpa using hs) (by simpa using hv)
        · rw [List.mem_cons, not_or] at hn
          rw [h2 n hn.2, if_neg hn.1]
  unfold Piecewise.setMaxFlows
  by_cases h : p.sublinks.length ≠ values.length
  · rw [if_pos h]
    exact ⟨iff_of_true rfl (Ne.symm h), fun m hm => nomatch hm⟩
  · rw [if_neg h]
    refine ⟨iff_of_false (by simp) (by simpa [eq_comm] using h), fun m hm => ?_⟩
    cases hm
    exact key _ _ _ hn (by simpa using h)

example : (Piecewise.setMaxFlows ⟨1, [2, 3], 4, 5⟩ [.fin 7, .posInf] fun _ => .fin 0).isSome = true := by decide

end Verif.Composite

import Verif.Proof.EdgeShift
import Verif.Props.Piecewise
import Verif.Props.Domains
/-! # C27: piecewise links and the edge-based solver -/

namespace Verif.Composite

open Verif Verif.Lp Verif.Bounds Verif.BreakLink

section

variable {d : Data} {g : Graph} {p : Piecewise}

private theorem edge_inner (h : HasPiecewiseEdges d g p) : HasPiecewiseEdges d (inner g) p := by
  refine ⟨h.nodup, h.sub, h.ends, ?_, h.once.filter _, h.nodes, h.present, h.cross, h.outside, h.storages⟩
  intro s hs
  obtain ⟨h1, h2, h3⟩ := h.edge s hs
  refine ⟨List.mem_filter.2 ⟨h1, by simpa [inside] using h2⟩, h2, ?_⟩
  intro e he hd hn
  exact h3 e (List.mem_filter.1 he).1 hd hn

/-- The column of a segment. -/
private theorem column (h : HasPiecewiseEdges d g p) {s : Nat} (hs : s ∈ p.sublinks) :
    ∃ i, ∃ hi : i < g.edges.length, g.edges[i] = (s, p.subOutput) := List.getElem_of_mem (h.edge s hs).1

private theorem ne_out (h : HasPiecewiseEdges d g p) {s : Nat} (hs : s ∈ p.sublinks) : s ≠ p.subOutput := by
  rintro rfl
  have := (h.sub _ hs).2.1
  rw [h.ends.2.1.2] at this; cases this

private theorem sub_col (h : HasPiecewiseEdges d g p) (h1 : OneDomain d g) {y : List Rat} (hy : EdgeFeasible d g y) {s i : Nat}
    (hs : s ∈ p.sublinks) (hi : i < g.edges.length) (ei : g.edges[i] = (s, p.subOutput)) : edgeNodeFlow d g y s = y.getD i 0 := by
  obtain ⟨hm, hk, -⟩ := h.sub s hs
  rw [edgeNodeFlow_thru h1 hy hm (by rw [hk]; decide), thru_other (by rw [hk]; decide), ← S_single h.once y hi]
  unfold outFlow
  apply S_congr
  intro e he
  apply if_congr _ rfl rfl
  rw [ei]
  exact ⟨fun hes => (h.edge s hs).2.2 e he (h1 e he).1 (.inl hes), fun he => by rw [he]⟩

private theorem mem_out_iff (h1 : OneDomain d g) {i n : Nat} (hi : i < g.edges.length) {s : Nat} (ei : g.edges[i] = (s, p.subOutput)) :
    i ∈ outEdges g n ↔ n = s := by
  rw [mem_outEdges h1]
  simp [hi, ei, eq_comm]

private theorem mem_in_iff (h1 : OneDomain d g) {i n : Nat} (hi : i < g.edges.length) {s : Nat} (ei : g.edges[i] = (s, p.subOutput)) :
    i ∈ inEdges g n ↔ n = p.subOutput := by
  rw [mem_inEdges h1]
  simp [hi, ei, eq_comm]

private theorem flow_iff (h1 : OneDomain d g) {i j n : Nat} (hi : i < g.edges.length) (hj : j < g.edges.length) {s s' : Nat}
    (ei : g.edges[i] = (s, p.subOutput)) (ej : g.edges[j] = (s', p.subOutput)) (hs : n ≠ s) (hs' : n ≠ s') :
    i ∈ flowEdges d g n ↔ j ∈ flowEdges d g n := by
  unfold flowEdges
  split_ifs
  · rw [mem_in_iff h1 hi ei, mem_in_iff h1 hj ej]
  · rw [mem_out_iff h1 hi ei, mem_out_iff h1 hj ej]; simp [hs, hs']

private theorem flow_nodup (n : Nat) : (flowEdges d g n).Nodup := by
  unfold flowEdges inEdges outEdges
  split_ifs <;> exact colsOf_nodup _ _

private theorem coef_flow (h1 : OneDomain d g) {i j n : Nat} (hi : i < g.edges.length) (hj : j < g.edges.length) {s s' : Nat}
    (ei : g.edges[i] = (s, p.subOutput)) (ej : g.edges[j] = (s', p.subOutput)) (hs : n ≠ s) (hs' : n ≠ s') (v : Rat) :
    coef (const v (flowEdges d g n)) i = coef (const v (flowEdges d g n)) j := by
  rw [coef_const _ (flow_nodup n), coef_const _ (flow_nodup n), if_congr (flow_iff h1 hi hj ei ej hs hs') rfl rfl]

/-- Moving flow between two segments keeps a solution feasible as long as their own limits are kept. -/
private theorem shift_feasible (h : HasPiecewiseEdges d g p) (h1 : OneDomain d g) {y : List Rat} (hy : EdgeFeasible d g y)
    {i j : Nat} (hi : i < g.edges.length) (hj : j < g.edges.length) {s s' : Nat} (hs : s ∈ p.sublinks) (hs' : s' ∈ p.sublinks) (hne : s ≠ s')
    (free : Unreferenced d s) (free' : Unreferenced d s')
    (ei : g.edges[i] = (s, p.subOutput)) (ej : g.edges[j] = (s', p.subOutput)) {ε : Rat} (hε : 0 ≤ ε) (hle : ε ≤ y.getD i 0)
    (hup : ∀ r, flowRow true (.fin 0) (d.maxFlow s') = .stored r → r.Admits (y.getD j 0) → r.Admits (y.getD j 0 + ε)) :
    EdgeFeasible d g (shift y i j ε) := by
  have hij : i ≠ j := by
    rintro rfl
    rw [ei] at ej
    exact hne (Prod.mk.inj ej).1
  rw [feasible_iff] at hy ⊢
  obtain ⟨h0, hlen, hpos, f1, f2, f3, f4, f5, f6, f7⟩ := hy
  have fits : ∀ {e : Entries}, Fits g.edges.length e → Fits y.length e := by intro e he; rw [hlen]; exact he
  -- the segment's own row has a single column
  have single : ∀ {t k : Nat}, t ∈ p.sublinks → (hk : k < g.edges.length) → g.edges[k] = (t, p.subOutput) → flowEdges d g t = [k] := by
    intro t k ht hk ek
    have hk' : d.kind t ≠ .output := by rw [(h.sub t ht).2.1]; decide
    unfold flowEdges
    rw [if_neg hk']
    have hn : (outEdges g t).Nodup := colsOf_nodup _ _
    have hm : ∀ c, c ∈ outEdges g t ↔ c = k := by
      intro c
      rw [mem_outEdges h1]
      constructor
      · rintro ⟨hc, e⟩
        have := (h.edge t ht).2.2 g.edges[c] (List.getElem_mem _) (h1 _ (List.getElem_mem _)).1 (.inl e)
        exact (List.getElem_inj h.once).1 (this.trans ek.symm)
      · rintro rfl; exact ⟨hk, by rw [ek]⟩
    exact List.perm_singleton.1 ((List.perm_ext_iff_of_nodup hn (List.nodup_singleton k)).2 fun c => by rw [hm c, List.mem_singleton])
  refine ⟨h0, by rw [shift_length, hlen], ?_, ?_, ?_, ?_, ?_, ?_, ?_, ?_⟩
  · intro v hv
    obtain ⟨c, hc, rfl⟩ := List.getElem_of_mem hv
    rw [shift_length] at hc
    have e : (shift y i j ε)[c]'(by rw [shift_length]; exact hc) = (shift y i j ε).getD c 0 := by
      rw [List.getD_eq_getElem?_getD, List.getElem?_eq_getElem (by rw [shift_length]; exact hc)]; rfl
    rw [e, shift_getD hc]
    have hp := getD_nonneg hpos c
    by_cases hci : c = i
    · subst hci
      rw [if_pos rfl]
      split_ifs <;> linarith
    · rw [if_neg hci]
      split_ifs <;> linarith
  · -- node rows
    intro n hn
    have hold := f1 n hn
    by_cases hns : n = s
    · subst hns
      obtain ⟨-, hk, hmin, hcap⟩ := h.sub n hs
      obtain ⟨row, hr, hA⟩ := hold
      obtain ⟨-, -, -, he, hb⟩ := nodeRowE_ok hr
      rw [hmin] at hb
      refine ⟨row, hr, ?_⟩
      have hval : ∀ z, rowVal z row.entries = z.getD i 0 := by
        intro z; rw [he, single hs hi ei]; simp [rowVal, const]
      rw [hval] at hA ⊢
      rw [shift_getD (by rw [hlen]; exact hi), if_neg hij, if_pos rfl]
      exact sub_down hcap hb hA (by linarith) (by linarith)
    · by_cases hns' : n = s'
      · subst hns'
        obtain ⟨-, hk, hmin, hcap⟩ := h.sub n hs'
        obtain ⟨row, hr, hA⟩ := hold
        obtain ⟨-, -, -, he, hb⟩ := nodeRowE_ok hr
        rw [hmin] at hb
        refine ⟨row, hr, ?_⟩
        have hval : ∀ z, rowVal z row.entries = z.getD j 0 := by
          intro z; rw [he, single hs' hj ej]; simp [rowVal, const]
        rw [hval] at hA ⊢
        rw [shift_getD (by rw [hlen]; exact hj), if_pos rfl, if_neg (Ne.symm hij), sub_zero]
        exact hup _ hb hA
      · refine holds_shift (fun row hr => ?_) hold
        obtain ⟨-, -, -, he, -⟩ := nodeRowE_ok hr
        rw [he]
        exact ⟨fits (fits_const (flow_fits d g n)), coef_flow h1 hi hj ei ej hns hns' 1⟩
  · -- connections between domains
    intro c hc
    refine holds_shift (fun row hr => ?_) (f2 c hc)
    unfold crossRowE at hr
    split at hr
    · cases hr
    obtain ⟨-, he, -⟩ := zeroRow_ok hr
    rw [he]
    refine ⟨fits (fits_append (fits_const (flow_fits d g _)) ?_), ?_⟩
    · intro q hq
      obtain ⟨k, -, hk⟩ := List.mem_flatMap.1 hq
      exact fits_const (out_fits g _) q hk
    · obtain ⟨hk, hcc⟩ := h.cross c hc
      have n1 : c.1 ≠ s := by rintro e; rw [e, (h.sub s hs).2.1] at hk; cases hk
      have n2 : c.1 ≠ s' := by rintro e; rw [e, (h.sub s' hs').2.1] at hk; cases hk
      rw [coef_append, coef_append, coef_flow h1 hi hj ei ej n1 n2]
      congr 1
      rw [coef_flatMap, coef_flatMap]
      have hcoef : ∀ {t k : Nat}, (hk : k < g.edges.length) → g.edges[k] = (t, p.subOutput) → ∀ a : Nat × Rat,
          coef (const (1 / a.2) (outEdges g a.1)) k = if t = a.1 then 1 / a.2 else 0 := by
        intro t k hk ek a
        have hn : (outEdges g a.1).Nodup := colsOf_nodup _ _
        rw [coef_const _ hn]
        refine if_congr ?_ rfl rfl
        rw [mem_out_iff h1 hk ek, eq_comm]
      simp only [hcoef hi ei, hcoef hj ej]
      have none_sum : ∀ t ∈ p.sublinks, (∀ a ∈ c.2, a.1 ∉ p.sublinks) → (c.2.map fun a : Nat × Rat => if t = a.1 then 1 / a.2 else 0).sum = 0 := by
        intro t ht hi
        apply List.sum_eq_zero
        intro v hv
        obtain ⟨a, hm, rfl⟩ := List.mem_map.1 hv
        rw [if_neg]; rintro rfl; exact hi a hm ht
      rcases hcc with hcc | hcc
      · simp only [Piecewise.cross, List.mem_cons, List.not_mem_nil, or_false] at hcc
        rcases hcc with rfl | rfl
        · have one : ∀ t ∈ p.sublinks, ((p.sublinks.map fun u => (u, (1 : Rat))).map fun a : Nat × Rat => if t = a.1 then 1 / a.2 else 0).sum = 1 := by
            intro t ht
            rw [List.map_map]
            have : ((fun a : Nat × Rat => if t = a.1 then 1 / a.2 else 0) ∘ fun u => (u, (1 : Rat))) = fun n => if t = n then (1 : Rat) else 0 := by
              funext n; simp
            rw [this, sum_eq_ite h.nodup, if_pos ht]
          simp only
          rw [one s hs, one s' hs']
        · have out : ∀ a ∈ ([(p.input, 1)] : List (Nat × Rat)), a.1 ∉ p.sublinks := by
            intro a ha; simp at ha; rw [ha]; exact h.outside
          rw [none_sum s hs out, none_sum s' hs' out]
      · rw [none_sum s hs hcc, none_sum s' hs' hcc]
  · -- mass balance of links
    intro n hn hk
    refine holds_shift (fun row hr => ?_) (f3 n hn hk)
    obtain ⟨-, he, -⟩ := zeroRow_ok hr
    rw [he]
    refine ⟨fits (fits_append (fits_const (in_fits g n)) (fits_const (out_fits g n))), ?_⟩
    have hi' : (inEdges g n).Nodup := colsOf_nodup _ _
    have ho' : (outEdges g n).Nodup := colsOf_nodup _ _
    have n1 : n ≠ s := by rintro e; rw [e, (h.sub s hs).2.1] at hk; cases hk
    have n2 : n ≠ s' := by rintro e; rw [e, (h.sub s' hs').2.1] at hk; cases hk
    rw [coef_append, coef_append, coef_const _ hi', coef_const _ hi', coef_const _ ho', coef_const _ ho']
    simp only [mem_in_iff h1 hi ei, mem_in_iff h1 hj ej, mem_out_iff h1 hi ei, mem_out_iff h1 hj ej, n1, n2, if_false]
  · -- storages
    intro t ht
    refine holds_shift (fun row hr => ?_) (f4 t ht)
    obtain ⟨-, he, -⟩ := boundRow_ok hr
    rw [he]
    have cf : ∀ (v : Rat) (l : List Nat) (f : Nat → List Nat), const v (l.flatMap f) = l.flatMap fun n => const v (f n) := by
      intro v l f; simp [const, List.map_flatMap]
    refine ⟨fits (fits_append (fits_const ?_) (fits_const ?_)), ?_⟩
    · intro c hc
      obtain ⟨n, -, hn⟩ := List.mem_flatMap.1 hc
      exact in_fits _ _ c hn
    · intro c hc
      obtain ⟨n, -, hn⟩ := List.mem_flatMap.1 hc
      exact out_fits _ _ c hn
    · rw [coef_append, coef_append, cf, cf, coef_flatMap, coef_flatMap, coef_flatMap, coef_flatMap]
      congr 2
      · apply List.map_congr_left
        intro n _
        have hi' : (inEdges g n).Nodup := colsOf_nodup _ _
        rw [coef_const _ hi', coef_const _ hi']
        simp only [mem_in_iff h1 hi ei, mem_in_iff h1 hj ej]
      · apply List.map_congr_left
        intro n hn
        have ho' : (outEdges g n).Nodup := colsOf_nodup _ _
        have n1 : n ≠ s := by rintro rfl; exact h.storages t ht n hs hn
        have n2 : n ≠ s' := by rintro rfl; exact h.storages t ht n hs' hn
        rw [coef_const _ ho', coef_const _ ho']
        simp only [mem_out_iff h1 hi ei, mem_out_iff h1 hj ej, n1, n2, if_false]
  · -- virtual storages
    intro v hv
    have ef : ∀ c, (if edgeFactors d g v c = [] then none else some (c, -(edgeFactors d g v c).sum)) =
        ((if edgeFactors d g v c = [] then none else some (-(edgeFactors d g v c).sum)).map fun w => (c, w)) := by
      intro c; split_ifs <;> rfl
    refine holds_shift (fun row hr => ?_) (f5 v hv)
    unfold virtualRowE at hr
    simp only [ef] at hr
    obtain ⟨-, he, -⟩ := boundRow_ok hr
    rw [he]
    refine ⟨fits (fits_range _ _), ?_⟩
    rw [coef_range _ _ hi, coef_range _ _ hj]
    have : edgeFactors d g v i = edgeFactors d g v j := by
      unfold edgeFactors
      congr 1
      apply List.filter_congr
      intro q hq
      have hm := (List.of_mem_zip hq).1
      rw [Bool.eq_iff_iff, List.contains_iff_mem, List.contains_iff_mem]
      refine flow_iff h1 hi hj ei ej ?_ ?_
      · rintro e; exact free.1 v hv (e ▸ hm)
      · rintro e; exact free'.1 v hv (e ▸ hm)
    rw [this]
  · -- factors of aggregated nodes
    intro a ha
    obtain ⟨l, hl, hA⟩ := f6 a ha
    refine ⟨l, hl, fun row hm => ?_⟩
    have : ∃ n ∈ a.nodes, ∃ m ∈ a.nodes, ∃ k, row.entries = const 1 (flowEdges d g n) ++ const (-k) (flowEdges d g m) := by
      unfold factorRowsE at hl
      split at hl
      · cases hl; cases hm
      · rcases hN : a.nodes with _ | ⟨n0, rest⟩
        · rw [hN] at hl; cases hl
        · rw [hN] at hl
          simp only at hl
          split at hl
          · cases hl
          · split at hl
            · cases hl
            · obtain ⟨q, hq, hr⟩ := collect_mem hl row hm
              obtain ⟨-, he, -⟩ := zeroRow_ok hr
              exact ⟨n0, by simp, q.1, List.mem_cons_of_mem _ (List.of_mem_zip hq).1, q.2, he⟩
    obtain ⟨n, hn, m, hm', k, he⟩ := this
    have hA := hA row hm
    rw [he] at hA ⊢
    have nn : ∀ {n}, n ∈ a.nodes → n ≠ s ∧ n ≠ s' := by
      intro n hn
      exact ⟨by rintro rfl; exact free.2 a ha hn, by rintro rfl; exact free'.2 a ha hn⟩
    rw [rowVal_shift (fits (fits_append (fits_const (flow_fits d g n)) (fits_const (flow_fits d g m)))), coef_append, coef_append,
      coef_flow h1 hi hj ei ej (nn hn).1 (nn hn).2, coef_flow h1 hi hj ei ej (nn hm').1 (nn hm').2, sub_self, mul_zero, add_zero]
    exact hA
  · -- limits of aggregated nodes
    intro a ha
    refine holds_shift (fun row hr => ?_) (f7 a ha)
    obtain ⟨-, he, -⟩ := limitRow_ok hr
    rw [he]
    refine ⟨fits (fits_range _ _), ?_⟩
    rw [coef_range _ _ hi, coef_range _ _ hj]
    have : (lastWeight a fun n => (flowEdges d g n).contains i) = lastWeight a fun n => (flowEdges d g n).contains j := by
      unfold lastWeight
      congr 2
      apply List.filter_congr
      intro q hq
      have hm := (List.of_mem_zip hq).1
      show (flowEdges d g q.1).contains i = (flowEdges d g q.1).contains j
      rw [Bool.eq_iff_iff, List.contains_iff_mem, List.contains_iff_mem]
      refine flow_iff h1 hi hj ei ej ?_ ?_
      · rintro e; exact free.2 a ha (e ▸ hm)
      · rintro e; exact free'.2 a ha (e ▸ hm)
    rw [this]

private theorem seg_cost (h : HasPiecewiseEdges d g p) (h1 : OneDomain d g) {i s : Nat} (hs : s ∈ p.sublinks) (hi : i < g.edges.length)
    (ei : g.edges[i] = (s, p.subOutput)) : edgeCost d g i = d.cost s + d.cost p.subOutput := by
  rw [edgeCost_eq h1 hi, ei]
  have e : (d.nodes.map fun n => share d n * d.cost n * ((if p.subOutput = n then 1 else 0) + (if s = n then 1 else 0))).sum =
      (d.nodes.map fun n => if p.subOutput = n then d.cost p.subOutput else 0).sum + (d.nodes.map fun n => if s = n then d.cost s else 0).sum := by
    rw [← List.sum_map_add]
    congr 1
    apply List.map_congr_left
    intro n _
    by_cases c1 : p.subOutput = n
    · subst c1
      simp [share, h.ends.2.1.2, ne_out h hs]
    · by_cases c2 : s = n
      · subst c2
        simp [share, (h.sub s hs).2.1, c1]
      · simp [c1, c2]
  simp only at e ⊢
  rw [e, sum_eq_ite h.nodes, sum_eq_ite h.nodes, if_pos h.ends.2.1.1, if_pos (h.sub s hs).1, add_comm]

end

private theorem fill_core {d : Data} {g : Graph} {p : Piecewise} (h : HasPiecewiseEdges d g p) (h1 : OneDomain d g) {y : List Rat}
    (hy : EdgeOptimal d g y) {s s' : Nat} (hs : s ∈ p.sublinks) (hs' : s' ∈ p.sublinks) (free : Unreferenced d s) (free' : Unreferenced d s')
    (hcost : d.cost s' < d.cost s) (hflow : 0 < edgeNodeFlow d g y s) :
    (d.maxFlow s').effective = .fin (edgeNodeFlow d g y s') := by
  obtain ⟨hfeas, hopt⟩ := hy
  have hne : s ≠ s' := by rintro rfl; exact lt_irrefl _ hcost
  obtain ⟨i, hi, ei⟩ := column h hs
  obtain ⟨j, hj, ej⟩ := column h hs'
  rw [sub_col h h1 hfeas hs hi ei] at hflow
  rw [sub_col h h1 hfeas hs' hj ej]
  obtain ⟨rows, hrows, hlen, hx0, hsat⟩ := id hfeas
  obtain ⟨hm', hk', hmin', hcap'⟩ := h.sub s' hs'
  obtain ⟨row, hrow, hr⟩ := (edgeRows_parts hrows).1 s' (mem_nonStorages.2 ⟨hm', by rw [hk']; decide⟩)
  obtain ⟨-, -, -, he, hb⟩ := nodeRowE_ok hr
  rw [hmin'] at hb
  have hold := hsat row hrow
  rw [he, rowVal_flowEdges h1, one_mul, ← edgeNodeFlow_thru h1 hfeas hm' (by rw [hk']; decide), sub_col h h1 hfeas hs' hj ej] at hold
  rcases sub_up hcap' hb hold with hfull | ⟨ε, hε, hup⟩
  · exact hfull
  · exfalso
    have hδ0 : 0 < min ε (y.getD i 0) := lt_min hε hflow
    have hf := shift_feasible h h1 hfeas hi hj hs hs' hne free free' ei ej (le_of_lt hδ0) (min_le_right _ _) (by
      intro r hr' _
      rw [hb] at hr'
      rw [← Outcome.stored.inj hr']
      exact hup _ (le_of_lt hδ0) (min_le_left _ _))
    have := hopt _ hf
    have obj : ∀ z, edgeObjective d g z = S g.edges z (fun e => (d.nodes.map fun n => share d n * d.cost n *
        ((if e.2 = n then 1 else 0) + (if e.1 = n then 1 else 0))).sum) := by
      intro z
      exact sum_range_S z g.edges (edgeCost d g) _ (fun c hc => edgeCost_eq h1 hc)
    rw [obj, obj, S_shift hlen hi hj, ← edgeCost_eq h1 hi, ← edgeCost_eq h1 hj, seg_cost h h1 hs hi ei, seg_cost h h1 hs' hj ej] at this
    have : min ε (y.getD i 0) * (d.cost s' - d.cost s) < 0 := mul_neg_of_pos_of_neg hδ0 (by linarith)
    linarith

/-- **C27 (filling order, edge solver).** In every cost-optimal solution that leaves the columns between domains at zero, a segment carries flow only if
every cheaper segment is at its maximum flow. Only the two segments compared must not be used by a virtual storage or an aggregated node. -/
theorem C27_edge_fill (d : Data) (g : Graph) (p : Piecewise) (h : HasPiecewiseEdges d g p) (hg : Connects d g) (y : List Rat)
    (hy : EdgeOptimal d g y) (h0 : Idle g y) (s s' : Nat) (hs : s ∈ p.sublinks) (hs' : s' ∈ p.sublinks) (free : Unreferenced d s)
    (free' : Unreferenced d s') (hcost : d.cost s' < d.cost s) (hflow : 0 < edgeNodeFlow d g y s) :
    (d.maxFlow s').effective = .fin (edgeNodeFlow d g y s') := by
  rw [flow_inner d h0] at hflow ⊢
  exact fill_core (edge_inner h) (inner_one hg) (optimal_inner hy) hs hs' free free' hcost hflow

/-- **C27 (total, edge solver).** The water entering the link is the sum of the segment flows, which is what leaves it; and with finite segment limits the
sum is at most the sum of the limits. -/
theorem C27_edge_total (d : Data) (g : Graph) (p : Piecewise) (h : HasPiecewiseEdges d g p) (hg : Connects d g) (y : List Rat)
    (hy : EdgeFeasible d g y) (h0 : Idle g y) :
    edgeNodeFlow d g y p.output = p.flow (edgeNodeFlow d g y) ∧
    edgeNodeFlow d g y p.subOutput = edgeNodeFlow d g y p.input ∧
    ∀ limit : Nat → Rat, (∀ s ∈ p.sublinks, d.maxFlow s = .fin (limit s)) → p.flow (edgeNodeFlow d g y) ≤ p.maxFlow limit := by
  refine ⟨?_, ?_, ?_⟩
  · have := C53_edge_cross d g hg y hy h0 p.output (p.sublinks.map fun s => (s, 1)) (h.present _ (by simp [Piecewise.cross])) h.ends.1 (by
      intro i hi
      obtain ⟨s, hs, rfl⟩ := List.mem_map.1 hi
      exact ⟨(h.sub s hs).1, (h.sub s hs).2.1⟩)
    rw [this, List.map_map]
    unfold Piecewise.flow
    congr 1
    apply List.map_congr_left
    intro s _
    simp
  · have := C53_edge_cross d g hg y hy h0 p.subOutput [(p.input, 1)] (h.present _ (by simp [Piecewise.cross])) h.ends.2.1 (by
      intro i hi
      simp at hi; rw [hi]; exact h.ends.2.2)
    rw [this]; simp
  · intro limit hl
    unfold Piecewise.flow Piecewise.maxFlow
    apply List.sum_le_sum
    intro s hs
    obtain ⟨hm, hk, hmin, hcap⟩ := h.sub s hs
    have hf := ((feasible_inner d g y).1 hy).1
    have h1 := inner_one hg
    rw [flow_inner d h0, edgeNodeFlow_thru h1 hf hm (by rw [hk]; decide)]
    obtain ⟨rows, hrows, hlen, hx0, hsat⟩ := hf
    obtain ⟨row, hrow, hr⟩ := (edgeRows_parts hrows).1 s (mem_nonStorages.2 ⟨hm, by rw [hk]; decide⟩)
    obtain ⟨-, -, -, he, hb⟩ := nodeRowE_ok hr
    rw [hmin] at hb
    have hold := hsat row hrow
    rw [he, rowVal_flowEdges h1, one_mul] at hold
    rw [hl s hs] at hb hcap
    have hl0 : 0 ≤ limit s := by
      rcases hcap with h | ⟨m, h, h0, -⟩
      · cases h
      · injection h with h; rw [h]; exact h0
    rcases sub_row hcap hb with ⟨w, hw', hrb, hw0⟩ | ⟨w, hw', -, ht, hlb, hub⟩ | ⟨h', -⟩
    · rw [hrb] at hold; simp only [Row.Admits] at hold; rw [hold]; exact hl0
    · simp only [Row.Admits, ht, hlb, hub] at hold
      refine hold.2.trans ?_
      unfold F.effective at hw'
      simp only at hw'
      split_ifs at hw'
      · injection hw' with hw'; rw [← hw']; exact hl0
      · injection hw' with hw'; rw [← hw']
    · cases h'

/-! ## The hypotheses are met -/

/-- The network of the example in `Props/Piecewise.lean`: the segments are in a domain of their own. -/
def twoSegmentGraph : Graph := ⟨twoSegments.edges ++ [(0, 1), (5, 6)], fun n => if n = 2 ∨ n = 3 ∨ n = 4 then 1 else 0⟩

example : HasPiecewiseEdges twoSegmentModel twoSegmentGraph twoSegments ∧ Connects twoSegmentModel twoSegmentGraph := by
  have ord : OrdinaryDouble 5 := by unfold OrdinaryDouble; decide +kernel
  refine ⟨⟨by decide, ?_, by decide +kernel, by decide +kernel, by decide +kernel, by decide +kernel, by decide +kernel, by decide +kernel, by decide, ?_⟩,
    by unfold Connects; decide +kernel⟩
  · intro s hs
    simp only [twoSegments, List.mem_cons, List.not_mem_nil, or_false] at hs
    rcases hs with rfl | rfl
    · exact ⟨by decide +kernel, rfl, rfl, .inr ⟨5, rfl, by norm_num, ord⟩⟩
    · exact ⟨by decide +kernel, rfl, rfl, .inl rfl⟩
  · intro t ht; cases ht

/-- Filling segment 2 (flow 5) before segment 3 (flow 3) is optimal, and leaves the columns between domains at zero. -/
example : EdgeOptimal twoSegmentModel twoSegmentGraph [0, 5, 0, 3, 0, 8, 8] ∧ Idle twoSegmentGraph [0, 5, 0, 3, 0, 8, 8] ∧
    Unreferenced twoSegmentModel 2 ∧ Unreferenced twoSegmentModel 3 ∧ edgeNodeFlow twoSegmentModel twoSegmentGraph [0, 5, 0, 3, 0, 8, 8] 3 = 3 := by
  refine ⟨⟨by decide +kernel, ?_⟩, ?_, ⟨fun _ hv => (nomatch hv), fun _ hv => (nomatch hv)⟩, ⟨fun _ hv => (nomatch hv), fun _ hv => (nomatch hv)⟩, by decide +kernel⟩
  · intro z hz
    have o0 : OrdinaryDouble 0 := by unfold OrdinaryDouble; decide +kernel
    have o5 : OrdinaryDouble 5 := by unfold OrdinaryDouble; decide +kernel
    have o8 : OrdinaryDouble 8 := by unfold OrdinaryDouble; decide +kernel
    have l2 := row_limit hz (n := 2) (c := 1) (by decide +kernel) (by decide +kernel) (by norm_num : (0 : Rat) ≤ 5) rfl rfl o0 o5 (by decide +kernel)
    have l6 := row_limit hz (n := 6) (c := 6) (by decide +kernel) (by decide +kernel) (by norm_num : (0 : Rat) ≤ 8) rfl rfl o0 o8 (by decide +kernel)
    obtain ⟨rows, hrows, hlen, -, hsat⟩ := hz
    obtain ⟨row, hm, hr⟩ := (edgeRows_parts hrows).2.1 (4, [(5, 1)]) (by simp [twoSegmentModel, twoSegments, Piecewise.cross])
    unfold crossRowE at hr
    split at hr
    · cases hr
    obtain ⟨-, he, hb⟩ := zeroRow_ok hr
    have hz := admits_zero hb (hsat row hm)
    have f4 : flowEdges twoSegmentModel twoSegmentGraph 4 = [1, 3] := by decide +kernel
    have f5 : outEdges twoSegmentGraph 5 = [6] := by decide +kernel
    rw [he] at hz
    simp only [f4, f5, List.flatMap_cons, List.flatMap_nil] at hz
    simp [rowVal, const] at hz
    have hc : edgeCost twoSegmentModel twoSegmentGraph 0 = 0 ∧ edgeCost twoSegmentModel twoSegmentGraph 1 = 1 ∧
      edgeCost twoSegmentModel twoSegmentGraph 2 = 0 ∧ edgeCost twoSegmentModel twoSegmentGraph 3 = 2 ∧
      edgeCost twoSegmentModel twoSegmentGraph 4 = 0 ∧ edgeCost twoSegmentModel twoSegmentGraph 5 = 0 ∧
      edgeCost twoSegmentModel twoSegmentGraph 6 = -20 := by decide +kernel
    obtain ⟨c0, c1, c2, c3, c4, c5, c6⟩ := hc
    have hlen' : twoSegmentGraph.edges.length = 7 := by decide +kernel
    have o : ∀ z, edgeObjective twoSegmentModel twoSegmentGraph z = z.getD 1 0 + 2 * z.getD 3 0 - 20 * z.getD 6 0 := by
      intro z
      unfold edgeObjective
      rw [hlen']
      simp [List.range_succ, c0, c1, c2, c3, c4, c5, c6]
      ring
    rw [o, o]
    simp only [List.getD_eq_getElem?_getD] at l2 l6 ⊢
    simp at l2 l6 ⊢
    linarith
  · unfold Idle; decide +kernel

end Verif.Composite

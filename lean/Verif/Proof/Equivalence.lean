import Verif.Proof.Decompose
import Verif.Props.Routes
import Verif.Props.EdgeLp
/-! # Rows of the route problem and of the edge problem have the same values -/

namespace Verif.Lp

open Verif Verif.Bounds

/-- Where the rows of the route problem come from. -/
theorem routeRows_mem {d : Data} {routes : List (List Nat)} {rows : List LpRow} (h : routeRows d routes = .ok rows) {row : LpRow}
    (hr : row ∈ rows) :
    (∃ n ∈ d.nonStorages, nodeRow d routes n = .ok row) ∨ (∃ c ∈ d.cross, crossRow d routes c = .ok row) ∨
    (∃ s ∈ d.storages, storageRowR d routes s = .ok row) ∨ (∃ v ∈ d.virtuals, virtualRowR d routes v = .ok row) ∨
    (∃ a ∈ d.aggs, ∃ l, factorRowsR routes a = .ok l ∧ row ∈ l) ∨ (∃ a ∈ d.aggs, aggRowR routes a = .ok row) := by
  unfold routeRows at h
  split at h
  · cases h
  · obtain ⟨l, hl, hm⟩ := concat_mem h row hr
    simp only [List.mem_append, List.mem_cons, List.not_mem_nil, or_false, List.mem_map] at hl
    rcases hl with ((h | h | h | h) | ⟨a, ha, h⟩) | h
    · exact .inl (collect_mem h.symm row hm)
    · exact .inr (.inl (collect_mem h.symm row hm))
    · exact .inr (.inr (.inl (collect_mem h.symm row hm)))
    · exact .inr (.inr (.inr (.inl (collect_mem h.symm row hm))))
    · exact .inr (.inr (.inr (.inr (.inl ⟨a, ha, l, h, hm⟩))))
    · exact .inr (.inr (.inr (.inr (.inr (collect_mem h.symm row hm)))))

/-- Where the rows of the edge problem come from. -/
theorem edgeRows_mem {d : Data} {g : Graph} {rows : List LpRow} (h : edgeRows d g = .ok rows) {row : LpRow} (hr : row ∈ rows) :
    (∃ n ∈ d.nonStorages, nodeRowE d g n = .ok row) ∨ (∃ c ∈ d.cross, crossRowE d g c = .ok row) ∨
    (∃ n ∈ d.nodes, d.kind n = .link ∧ balanceRow g n = .ok row) ∨
    (∃ s ∈ d.storages, storageRowE d g s = .ok row) ∨ (∃ v ∈ d.virtuals, virtualRowE d g v = .ok row) ∨
    (∃ a ∈ d.aggs, ∃ l, factorRowsE d g a = .ok l ∧ row ∈ l) ∨ (∃ a ∈ d.aggs, aggRowE d g a = .ok row) := by
  unfold edgeRows at h
  split at h
  · cases h
  · obtain ⟨l, hl, hm⟩ := concat_mem h row hr
    simp only [List.mem_append, List.mem_cons, List.not_mem_nil, or_false, List.mem_map] at hl
    rcases hl with ((h | h | h | h | h) | ⟨a, ha, h⟩) | h
    · exact .inl (collect_mem h.symm row hm)
    · exact .inr (.inl (collect_mem h.symm row hm))
    · obtain ⟨n, hn, hb⟩ := collect_mem h.symm row hm
      simp only [List.mem_filter, beq_iff_eq] at hn
      exact .inr (.inr (.inl ⟨n, hn.1, hn.2, hb⟩))
    · exact .inr (.inr (.inr (.inl (collect_mem h.symm row hm))))
    · exact .inr (.inr (.inr (.inr (.inl (collect_mem h.symm row hm)))))
    · exact .inr (.inr (.inr (.inr (.inr (.inl ⟨a, ha, l, h, hm⟩)))))
    · exact .inr (.inr (.inr (.inr (.inr (.inr (collect_mem h.symm row hm))))))

section
variable {d : Data} {g : Graph} {routes : List (List Nat)}

theorem Comparable.wf (h : Comparable d g routes) : Digraph.WF ⟨d.nodes, g.edges⟩ :=
  ⟨h.nodes, h.edges, fun _ _ he => ⟨(h.one _ he).2.1, (h.one _ he).2.2.1⟩⟩

theorem Comparable.wellRouted (h : Comparable d g routes) : WellRouted d routes := by
  obtain ⟨info, -, hf⟩ := h.found
  exact wellRouted_of_findAllRoutes d _ h.wf info routes (fun n hn => hn) hf

theorem sameDomain (h1 : OneDomain d g) {r : List Nat} (hc : r.IsChain fun a b => (a, b) ∈ g.edges) :
    ∀ x ∈ r, ∀ y ∈ r, g.domain x = g.domain y := by
  have key : ∀ (a : Nat) (l : List Nat), (a :: l).IsChain (fun a b => (a, b) ∈ g.edges) → ∀ x ∈ a :: l, g.domain x = g.domain a := by
    intro a l
    induction l generalizing a with
    | nil => intro _ x hx; simp at hx; rw [hx]
    | cons b l ih =>
      intro hc x hx
      rw [List.isChain_cons_cons] at hc
      rcases List.mem_cons.1 hx with rfl | hx
      · rfl
      · rw [ih b hc.2 x hx]; exact (h1 _ hc.1).1.symm
  cases r with
  | nil => simp
  | cons a l => intro x hx y hy; rw [key a l hc x hx, key a l hc y hy]

theorem Comparable.exact (h : Comparable d g routes) : routes.Nodup ∧ ∀ r, r ∈ routes ↔ IsSupply d.kind g.edges r := by
  obtain ⟨info, hd, hf⟩ := h.found
  obtain ⟨hn, hex⟩ := Routes.C26_routes_exact _ h.wf info _ _ _ _ _ routes hf
  refine ⟨hn, fun r => ?_⟩
  rw [hex]
  constructor
  · rintro ⟨s, t, hs, ht, -, ⟨hp1, hp2, hp3, hp4⟩, -⟩
    obtain ⟨hs1, hs2⟩ := hs
    obtain ⟨ht1, ht2⟩ := ht
    simp only [beq_iff_eq] at hs2 ht2
    exact ⟨hp4, hp3, ⟨s, hp1, hs2⟩, ⟨t, hp2, ht2⟩⟩
  · rintro ⟨hnd, hc, ⟨s, hs, hsk⟩, ⟨t, ht, htk⟩⟩
    have hne : s ≠ t := by rintro rfl; rw [hsk] at htk; cases htk
    have hmem : ∀ n ∈ r, n ∈ d.nodes ∧ d.kind n ≠ .other := by
      match r, hs, ht, hc with
      | [a], hs, ht, _ => simp at hs ht; exact absurd (hs.symm.trans ht) hne
      | a :: b :: l, _, _, hc =>
        have key : ∀ (l : List Nat) (a b : Nat), (a :: b :: l).IsChain (fun a b => (a, b) ∈ g.edges) →
            ∀ n ∈ a :: b :: l, n ∈ d.nodes ∧ d.kind n ≠ .other := by
          intro l
          induction l with
          | nil =>
            intro a b hc n hn
            simp at hc
            obtain ⟨-, m1, m2, m3, m4⟩ := h.one _ hc
            simp at hn
            rcases hn with rfl | rfl
            · exact ⟨m1, m3⟩
            · exact ⟨m2, m4⟩
          | cons c l ih =>
            intro a b hc n hn
            rw [List.isChain_cons_cons] at hc
            obtain ⟨-, m1, m2, m3, m4⟩ := h.one _ hc.1
            rcases List.mem_cons.1 hn with rfl | hn
            · exact ⟨m1, m3⟩
            · exact ih b c hc.2 n hn
        exact key l a b hc
    have hsm : s ∈ r := List.mem_of_head? hs
    have htm : t ∈ r := List.mem_of_getLast? ht
    refine ⟨s, t, ⟨(hmem s hsm).1, by simp [hsk]⟩, ⟨(hmem t htm).1, by simp [htk]⟩, hne, ⟨hs, ht, hc, hnd⟩, ?_, by simp, ?_⟩
    · rintro test ⟨⟩ x hx _ _
      simpa using (hmem x hx).2
    · intro x hx y hy
      rw [hd]
      exact sameDomain h.one hc x hx y hy

/-- What the comparison of the two problems uses: the edges are inside domains and the routes are the supply paths over them. -/
structure Alike (d : Data) (g : Graph) (routes : List (List Nat)) : Prop where
  one : OneDomain d g
  nodes : d.nodes.Nodup
  edges : g.edges.Nodup
  cross : ∀ c ∈ d.cross, (c.1 ∈ d.nodes ∧ d.kind c.1 = .output) ∧ ∀ i ∈ c.2, i.1 ∈ d.nodes ∧ d.kind i.1 = .input
  exact : routes.Nodup ∧ ∀ r, r ∈ routes ↔ IsSupply d.kind g.edges r
  wellRouted : WellRouted d routes
  storages : ∀ s ∈ d.storages, s.inputs.Nodup ∧ s.outputs.Nodup ∧ (∀ n ∈ s.inputs, n ∈ d.nodes ∧ d.kind n = .input) ∧
    ∀ n ∈ s.outputs, n ∈ d.nodes ∧ d.kind n = .output
  acyclic : ¬ Digraph.Cyclic ⟨d.nodes, g.edges⟩
  virtuals : ∀ v ∈ d.virtuals, v.nodes.Nodup ∧ ∀ n ∈ v.nodes, n ∈ d.nodes ∧ d.kind n ≠ .other
  aggs : ∀ a ∈ d.aggs, (∀ n ∈ a.nodes, n ∈ d.nodes ∧ d.kind n ≠ .other) ∧
    ∀ r ∈ routes, ((a.nodes.zip a.weightList).filter fun p => r.contains p.1).length ≤ 1

theorem Alike.wf (h : Alike d g routes) : Digraph.WF ⟨d.nodes, g.edges⟩ :=
  ⟨h.nodes, h.edges, fun _ _ he => ⟨(h.one _ he).2.1, (h.one _ he).2.2.1⟩⟩

theorem Comparable.alike (h : Comparable d g routes) : Alike d g routes :=
  ⟨h.one, h.nodes, h.edges, fun c hc => (by rw [h.cross] at hc; cases hc), h.exact, h.wellRouted, h.storages, h.acyclic, h.virtuals, h.aggs⟩

/-- What an edge problem that can be set up says about its edges. -/
theorem edge_ends (h1 : OneDomain d g) {rows : List LpRow} (hrows : edgeRows d g = .ok rows) :
    ∀ e ∈ g.edges, (d.kind e.1 = .input ∨ d.kind e.1 = .link) ∧ (d.kind e.2 = .link ∨ d.kind e.2 = .output) := by
  intro e he
  obtain ⟨-, m1, m2, k1, k2⟩ := h1 e he
  obtain ⟨i, hi, rfl⟩ := List.getElem_of_mem he
  obtain ⟨row1, -, hr1⟩ := (edgeRows_parts hrows).1 _ (mem_nonStorages.2 ⟨m1, k1⟩)
  obtain ⟨row2, -, hr2⟩ := (edgeRows_parts hrows).1 _ (mem_nonStorages.2 ⟨m2, k2⟩)
  constructor
  · have h := (nodeRowE_ok hr1).2.1
    have hm : i ∈ outEdges g g.edges[i].1 := (mem_outEdges h1).2 ⟨hi, rfl⟩
    cases hk : d.kind g.edges[i].1 with
    | input => simp
    | link => simp
    | output => rw [h hk] at hm; cases hm
    | other => exact absurd hk k1
  · have h := (nodeRowE_ok hr2).1
    have hm : i ∈ inEdges g g.edges[i].2 := (mem_inEdges h1).2 ⟨hi, rfl⟩
    cases hk : d.kind g.edges[i].2 with
    | input => rw [h hk] at hm; cases hm
    | link => simp
    | output => simp
    | other => exact absurd hk k2

/-- Shape of a route in such a model. -/
theorem supply_shape {r : List Nat} (he : ∀ e ∈ g.edges, (d.kind e.1 = .input ∨ d.kind e.1 = .link) ∧ (d.kind e.2 = .link ∨ d.kind e.2 = .output))
    (hr : IsSupply d.kind g.edges r) (n : Nat) :
    (d.kind n = .input → (n ∈ r.dropLast ↔ r.head? = some n) ∧ n ∉ r.tail) ∧
    (d.kind n = .output → (n ∈ r.tail ↔ r.getLast? = some n) ∧ n ∉ r.dropLast) ∧
    (d.kind n = .link → (n ∈ r.tail ↔ n ∈ r) ∧ (n ∈ r.dropLast ↔ n ∈ r)) := by
  obtain ⟨hnd, hc, ⟨s, hs, hsk⟩, ⟨t, ht, htk⟩⟩ := hr
  have hrne : r ≠ [] := by rintro rfl; cases hs
  obtain ⟨m, hm⟩ : ∃ m, r = s :: m := by
    cases r with
    | nil => cases hs
    | cons a l => simp at hs; subst hs; exact ⟨l, rfl⟩
  have hl : r = r.dropLast ++ [t] := by
    have := List.dropLast_append_getLast hrne
    rw [List.getLast?_eq_getLast_of_ne_nil hrne] at ht
    injection ht with ht
    rw [ht] at this; exact this.symm
  have htail : ∀ n ∈ r.tail, d.kind n = .link ∨ d.kind n = .output := by
    intro n hn
    rw [← pairs_snd] at hn
    obtain ⟨e, hem, rfl⟩ := List.mem_map.1 hn
    exact (he e (chain_pairs.1 hc e hem)).2
  have hdrop : ∀ n ∈ r.dropLast, d.kind n = .input ∨ d.kind n = .link := by
    intro n hn
    rw [← pairs_fst] at hn
    obtain ⟨e, hem, rfl⟩ := List.mem_map.1 hn
    exact (he e (chain_pairs.1 hc e hem)).1
  have hne : s ≠ t := by rintro rfl; rw [hsk] at htk; cases htk
  have a1 : ∀ n, n ∈ r ↔ n = s ∨ n ∈ r.tail := by intro n; rw [hm]; simp
  have a2 : ∀ n, n ∈ r ↔ n ∈ r.dropLast ∨ n = t := by intro n; conv_lhs => rw [hl]
                                                      simp
  have hs' : ∀ n, r.head? = some n ↔ n = s := by intro n; rw [hs, Option.some.injEq]; exact eq_comm
  have ht' : ∀ n, r.getLast? = some n ↔ n = t := by intro n; rw [ht, Option.some.injEq]; exact eq_comm
  refine ⟨fun hk => ?_, fun hk => ?_, fun hk => ?_⟩
  · have nt : n ∉ r.tail := by intro h; rcases htail n h with h | h <;> rw [hk] at h <;> cases h
    refine ⟨?_, nt⟩
    rw [hs']
    constructor
    · intro h
      rcases (a1 n).1 ((a2 n).2 (.inl h)) with h | h
      · exact h
      · exact absurd h nt
    · intro h
      rcases (a2 n).1 ((a1 n).2 (.inl h)) with h' | h'
      · exact h'
      · exact absurd (h.symm.trans h') hne
  · have nt : n ∉ r.dropLast := by intro h; rcases hdrop n h with h | h <;> rw [hk] at h <;> cases h
    refine ⟨?_, nt⟩
    rw [ht']
    constructor
    · intro h
      rcases (a2 n).1 ((a1 n).2 (.inr h)) with h | h
      · exact absurd h nt
      · exact h
    · intro h
      rcases (a1 n).1 ((a2 n).2 (.inr h)) with h' | h'
      · exact absurd (h'.symm.trans h) hne
      · exact h'
  · have n1 : n ≠ s := by rintro rfl; rw [hk] at hsk; cases hsk
    have n2 : n ≠ t := by rintro rfl; rw [hk] at htk; cases htk
    constructor
    · rw [a1 n]; simp [n1]
    · rw [a2 n]; simp [n2]

theorem noPassThrough (he : ∀ e ∈ g.edges, (d.kind e.1 = .input ∨ d.kind e.1 = .link) ∧ (d.kind e.2 = .link ∨ d.kind e.2 = .output))
    (hr : ∀ r ∈ routes, IsSupply d.kind g.edges r) {n : Nat} (hk : d.kind n ≠ .other) : NoPassThrough d routes n := by
  intro r hm hn
  obtain ⟨s1, s2, -⟩ := supply_shape he (hr r hm) n
  unfold Carries
  cases hkn : d.kind n with
  | input =>
    simp only
    obtain ⟨-, hnt⟩ := s1 hkn
    cases r with
    | nil => cases hn
    | cons a l =>
      rcases List.mem_cons.1 hn with rfl | h
      · rfl
      · exact absurd h hnt
  | output =>
    simp only
    obtain ⟨h1, -⟩ := s2 hkn
    refine h1.1 ?_
    obtain ⟨-, -, ⟨s, hs, hsk⟩, -⟩ := hr r hm
    cases r with
    | nil => cases hn
    | cons a l =>
      rcases List.mem_cons.1 hn with rfl | h
      · simp at hs; rw [hs, hsk] at hkn; cases hkn
      · exact h
  | link => exact hn
  | other => exact absurd hkn hk

section flows
variable (he : ∀ e ∈ g.edges, (d.kind e.1 = .input ∨ d.kind e.1 = .link) ∧ (d.kind e.2 = .link ∨ d.kind e.2 = .output))
  (hnd : g.edges.Nodup) (hr : ∀ r ∈ routes, IsSupply d.kind g.edges r) {X : List Nat → Rat} {Y : Nat × Nat → Rat}
  (hdec : Decomposes g.edges routes X Y)

include hnd hr hdec

theorem flows_in (n : Nat) : inFlow g (g.edges.map Y) n = S routes (routes.map X) (fun r => if n ∈ r.tail then 1 else 0) := by
  unfold inFlow
  rw [S_decomposes hnd (fun r hm => ⟨(hr r hm).1, chain_pairs.1 (hr r hm).2.1⟩) hdec]
  exact S_congr fun r hm => sum_pairs_snd (hr r hm).1 n

theorem flows_out (n : Nat) : outFlow g (g.edges.map Y) n = S routes (routes.map X) (fun r => if n ∈ r.dropLast then 1 else 0) := by
  unfold outFlow
  rw [S_decomposes hnd (fun r hm => ⟨(hr r hm).1, chain_pairs.1 (hr r hm).2.1⟩) hdec]
  exact S_congr fun r hm => sum_pairs_fst (hr r hm).1 n

include he in
theorem flows_thru (hw : WellRouted d routes) {n : Nat} (hk : d.kind n ≠ .other) :
    thru d g (g.edges.map Y) n = routeNodeFlow d routes (routes.map X) n := by
  rw [routeNodeFlow_eq hw]
  cases hkn : d.kind n with
  | input =>
    rw [thru_other (by rw [hkn]; simp), flows_out hnd hr hdec]
    apply S_congr
    intro r hm
    exact if_congr (by rw [((supply_shape he (hr r hm) n).1 hkn).1]; unfold Carries; rw [hkn]) rfl rfl
  | output =>
    rw [thru_output hkn, flows_in hnd hr hdec]
    apply S_congr
    intro r hm
    exact if_congr (by rw [((supply_shape he (hr r hm) n).2.1 hkn).1]; unfold Carries; rw [hkn]) rfl rfl
  | link =>
    rw [thru_other (by rw [hkn]; simp), flows_out hnd hr hdec]
    apply S_congr
    intro r hm
    exact if_congr (by rw [((supply_shape he (hr r hm) n).2.2 hkn).2]; unfold Carries; rw [hkn]) rfl rfl
  | other => exact absurd hkn hk

include he in
theorem flows_balance {n : Nat} (hk : d.kind n = .link) : inFlow g (g.edges.map Y) n = outFlow g (g.edges.map Y) n := by
  rw [flows_in hnd hr hdec, flows_out hnd hr hdec]
  apply S_congr
  intro r hm
  obtain ⟨h1, h2⟩ := (supply_shape he (hr r hm) n).2.2 hk
  exact if_congr (h1.trans h2.symm) rfl rfl

end flows

theorem storageFlow_congr {f f' : Nat → Rat} {s : StorageData} (h : ∀ n, n ∈ s.inputs ∨ n ∈ s.outputs → f n = f' n) :
    storageFlow f s = storageFlow f' s := by
  unfold storageFlow
  rw [List.map_congr_left fun n hn => h n (.inl hn), List.map_congr_left (l := s.outputs) fun n hn => h n (.inr hn)]

theorem uses_congr {f f' : Nat → Rat} {v : VirtualData} (h : ∀ n ∈ v.nodes, f n = f' n) : uses f v = uses f' v := by
  unfold uses
  apply List.map_congr_left
  intro p hp
  rw [h p.1 (List.of_mem_zip hp).1]

theorem aggFlow_congr {f f' : Nat → Rat} {a : AggData} (h : ∀ n ∈ a.nodes, f n = f' n) : aggFlow f a = aggFlow f' a := by
  unfold aggFlow
  congr 1
  apply List.map_congr_left
  intro p hp
  rw [h p.1 (List.of_mem_zip hp).1]

/-- A ranking of the nodes of an acyclic graph that increases along edges. -/
theorem exists_rank {G : Digraph} (hac : ¬ G.Cyclic) (hwf : G.WF) : ∃ rank : Nat → Nat, ∀ u v, G.Edge u v → rank u < rank v := by
  classical
  refine ⟨fun v => (G.nodes.filter fun u => decide (Relation.TransGen G.Edge u v)).length, fun u v huv => ?_⟩
  refine filter_length_lt (a := u) ?_ (hwf.2.2 u v huv).1 ?_ ?_
  · intro a _ h
    simp only [decide_eq_true_eq] at h ⊢
    exact h.tail huv
  · simp only [decide_eq_true_eq]; exact .single huv
  · simp only [decide_eq_false_iff_not]; exact fun h => hac ⟨u, h⟩

theorem cross_value (hw : WellRouted d routes) (x : List Rat) {c : Nat × List (Nat × Rat)} (ho : d.kind c.1 = .output)
    (hi : ∀ i ∈ c.2, d.kind i.1 = .input) {r : LpRow} (h : crossRow d routes c = .ok r) :
    rowVal x r.entries = (c.2.map fun i => routeNodeFlow d routes x i.1 / i.2).sum - routeNodeFlow d routes x c.1 ∧ r.bounds = ⟨.fx, 0, 0⟩ := by
  unfold crossRow at h
  split at h
  · cases h
  · obtain ⟨-, he, hb⟩ := zeroRow_ok h
    refine ⟨?_, hb⟩
    rw [he, rowVal_append, rowVal_flatMap]
    rw [rowVal_nodeCols (by rw [ho]; simp)]
    have h1 : S routes x (fun r => if Carries d r c.1 then -1 else 0) = - routeNodeFlow d routes x c.1 := by
      rw [routeNodeFlow_eq hw, ← S_neg]; apply S_congr; intro r _; split_ifs <;> simp
    have h2 : (c.2.map fun i => rowVal x (const (1 / i.2) (colsOf (fun r => r.head? == some i.1) routes))) =
        c.2.map fun i => routeNodeFlow d routes x i.1 / i.2 := by
      apply List.map_congr_left
      intro i hmem
      rw [rowVal_const, one_div, routeNodeFlow_eq hw, div_eq_inv_mul, ← S_mul]
      apply S_congr
      intro r _
      simp only [Carries, hi i hmem, beq_iff_eq]
      split_ifs <;> simp
    rw [h1, h2]
    ring

theorem cross_valueE (h1 : OneDomain d g) (y : List Rat) {c : Nat × List (Nat × Rat)} (hi : ∀ i ∈ c.2, d.kind i.1 = .input) {r : LpRow}
    (h : crossRowE d g c = .ok r) :
    rowVal y r.entries = (c.2.map fun i => thru d g y i.1 / i.2).sum - thru d g y c.1 ∧ r.bounds = ⟨.fx, 0, 0⟩ := by
  unfold crossRowE at h
  split at h
  · cases h
  · obtain ⟨-, he, hb⟩ := zeroRow_ok h
    refine ⟨?_, hb⟩
    rw [he, rowVal_append, rowVal_flatMap, rowVal_flowEdges h1]
    have h2 : (c.2.map fun i => rowVal y (const (1 / i.2) (outEdges g i.1))) = c.2.map fun i => thru d g y i.1 / i.2 := by
      apply List.map_congr_left
      intro i hm
      rw [rowVal_out h1, thru_other (by rw [hi i hm]; simp)]
      ring
    rw [h2]
    ring

/-- Every edge lies on a route. -/
theorem edge_on_route (hC : Alike d g routes) {rowsR : List LpRow} (hR : routeRows d routes = .ok rowsR) {e : Nat × Nat}
    (he : e ∈ g.edges) : ∃ r ∈ routes, e.1 ∈ r ∧ e.2 ∈ r := by
  obtain ⟨-, m1, m2, k1, k2⟩ := hC.one e he
  obtain ⟨rank, hrank⟩ := exists_rank hC.acyclic hC.wf
  have hon : ∀ n ∈ d.nodes, d.kind n ≠ .other → ∃ r ∈ routes, n ∈ r := by
    intro n hn hk
    obtain ⟨row, -, hr⟩ := (routeRows_parts hR).1 n (mem_nonStorages.2 ⟨hn, hk⟩)
    have hne := (nodeRow_ok hr).2.2
    by_contra hno
    apply hne
    unfold nodeCols
    have hno : ∀ r ∈ routes, n ∉ r := fun r hr hn => hno ⟨r, hr, hn⟩
    cases hkn : d.kind n with
    | input => simp only; rw [colsOf_eq_nil]; intro r hr; have := hno r hr
               by_contra hh; simp at hh; exact this (List.mem_of_head? hh)
    | output => simp only; rw [colsOf_eq_nil]; intro r hr; have := hno r hr
                by_contra hh; simp at hh; exact this (List.mem_of_getLast? hh)
    | link => simp only; rw [colsOf_eq_nil]; intro r hr; have := hno r hr; simpa using this
    | other => exact absurd hkn hk
  obtain ⟨r1, hr1, hu⟩ := hon e.1 m1 k1
  obtain ⟨r2, hr2, hv⟩ := hon e.2 m2 k2
  obtain ⟨-, c1, ⟨s, hs, hsk⟩, -⟩ := (hC.exact.2 r1).1 hr1
  obtain ⟨-, c2, -, ⟨t, ht, htk⟩⟩ := (hC.exact.2 r2).1 hr2
  obtain ⟨a, b, rfl⟩ := List.append_of_mem hu
  obtain ⟨c, q, rfl⟩ := List.append_of_mem hv
  have hchain : ((a ++ [e.1]) ++ e.2 :: q).IsChain (fun a b => (a, b) ∈ g.edges) := by
    rw [List.isChain_append]
    refine ⟨?_, ?_, ?_⟩
    · have : a ++ e.1 :: b = (a ++ [e.1]) ++ b := by simp
      rw [this, List.isChain_append] at c1
      exact c1.1
    · rw [List.isChain_append] at c2; exact c2.2.1
    · intro x hx y hy
      simp at hx hy
      subst hx; subst hy
      exact he
  refine ⟨(a ++ [e.1]) ++ e.2 :: q, (hC.exact.2 _).2 ⟨?_, hchain, ⟨s, ?_, hsk⟩, ⟨t, ?_, htk⟩⟩, by simp, by simp⟩
  · have h1 : ((a ++ [e.1]) ++ e.2 :: q).IsChain (fun a b => rank a < rank b) := hchain.imp fun a b h => hrank _ _ h
    have h2 : ((a ++ [e.1]) ++ e.2 :: q).Pairwise (fun a b => rank a < rank b) := by
      have : IsTrans Nat (fun a b => rank a < rank b) := ⟨fun _ _ _ h1 h2 => lt_trans h1 h2⟩
      exact List.isChain_iff_pairwise.1 h1
    exact h2.imp fun h he => by rw [he] at h; exact lt_irrefl _ h
  · cases a with
    | nil => simpa using hs
    | cons z a => simpa using hs
  · rw [List.getLast?_append] at ht ⊢
    simp at ht
    rw [ht]; rfl

theorem edge_once (hC : Alike d g routes) {rowsR : List LpRow} (hR : routeRows d routes = .ok rowsR) {a : AggData} (ha : a ∈ d.aggs) :
    ∀ e ∈ g.edges, ((a.nodes.zip a.weightList).filter fun p => counts d p.1 e).length ≤ 1 := by
  intro e he
  obtain ⟨r, hr, h1, h2⟩ := edge_on_route hC hR he
  refine le_trans (List.Sublist.length_le ?_) ((hC.aggs a ha).2 r hr)
  apply List.monotone_filter_right
  intro p hp
  unfold counts at hp
  split_ifs at hp <;> simp at hp <;> rw [← hp] <;> simpa

/-- **Transfer of rows.** With the same flow through every node (and balance at links) the rows of the two problems are satisfied together. -/
theorem rows_transfer (hC : Alike d g routes) {rowsR rowsE : List LpRow} (hR : routeRows d routes = .ok rowsR)
    (hE : edgeRows d g = .ok rowsE) {x y : List Rat}
    (hflow : ∀ n ∈ d.nodes, d.kind n ≠ .other → thru d g y n = routeNodeFlow d routes x n)
    (hbal : ∀ n, d.kind n = .link → inFlow g y n = outFlow g y n) :
    (∀ r ∈ rowsR, r.bounds.Admits (rowVal x r.entries)) ↔ ∀ r ∈ rowsE, r.bounds.Admits (rowVal y r.entries) := by
  have hends := edge_ends hC.one hE
  have hw := hC.wellRouted
  have hsup : ∀ r ∈ routes, IsSupply d.kind g.edges r := fun r hr => (hC.exact.2 r).1 hr
  have hpt : ∀ {n : Nat}, d.kind n ≠ .other → NoPassThrough d routes n := fun hk => noPassThrough hends hsup hk
  obtain ⟨pE1, pE2, -, pE4, pE5, pE6, pE7⟩ := edgeRows_parts hE
  obtain ⟨pR1, pR2, pR3, pR4, pR5, pR6⟩ := routeRows_parts hR
  -- values of corresponding rows
  have node : ∀ {n : Nat} {r e : LpRow}, n ∈ d.nonStorages → nodeRow d routes n = .ok r → nodeRowE d g n = .ok e →
      (r.bounds.Admits (rowVal x r.entries) ↔ e.bounds.Admits (rowVal y e.entries)) := by
    intro n r e hn h1 h2
    obtain ⟨hm, hk⟩ := mem_nonStorages.1 hn
    obtain ⟨e1, b1, -⟩ := nodeRow_ok h1
    obtain ⟨-, -, -, e2, b2⟩ := nodeRowE_ok h2
    have : r.bounds = e.bounds := Outcome.stored.inj (b1.symm.trans b2)
    rw [e1, e2, this, node_value hw hk, node_valueE hC.one, hflow n hm hk]
  have crss : ∀ {c : Nat × List (Nat × Rat)} {r e : LpRow}, c ∈ d.cross → crossRow d routes c = .ok r → crossRowE d g c = .ok e →
      (r.bounds.Admits (rowVal x r.entries) ↔ e.bounds.Admits (rowVal y e.entries)) := by
    intro c r e hc h1 h2
    obtain ⟨⟨co, ck⟩, ci⟩ := hC.cross c hc
    obtain ⟨v1, b1⟩ := cross_value hw x ck (fun i hi => (ci i hi).2) h1
    obtain ⟨v2, b2⟩ := cross_valueE hC.one y (fun i hi => (ci i hi).2) h2
    rw [v1, v2, b1, b2, hflow c.1 co (by rw [ck]; simp)]
    have : (c.2.map fun i => thru d g y i.1 / i.2) = c.2.map fun i => routeNodeFlow d routes x i.1 / i.2 :=
      List.map_congr_left fun i hi => by rw [hflow i.1 (ci i hi).1 (by rw [(ci i hi).2]; simp)]
    rw [this]
  have stor : ∀ {s : StorageData} {r e : LpRow}, s ∈ d.storages → storageRowR d routes s = .ok r → storageRowE d g s = .ok e →
      (r.bounds.Admits (rowVal x r.entries) ↔ e.bounds.Admits (rowVal y e.entries)) := by
    intro s r e hs h1 h2
    obtain ⟨hi, ho, hik, hok⟩ := hC.storages s hs
    obtain ⟨v1, b1⟩ := storage_value hw x hi ho (fun n hn => (hik n hn).2) (fun n hn => (hok n hn).2) h1
    obtain ⟨v2, b2⟩ := storage_valueE hC.one y (fun n hn => (hik n hn).2) (fun n hn => (hok n hn).2) h2
    rw [v1, v2, b1, b2, storageFlow_congr (f := thru d g y) (f' := routeNodeFlow d routes x)]
    rintro n (hn | hn)
    · exact hflow n (hik n hn).1 (by rw [(hik n hn).2]; simp)
    · exact hflow n (hok n hn).1 (by rw [(hok n hn).2]; simp)
  have virt : ∀ {v : VirtualData} {r e : LpRow}, v ∈ d.virtuals → virtualRowR d routes v = .ok r → virtualRowE d g v = .ok e →
      (r.bounds.Admits (rowVal x r.entries) ↔ e.bounds.Admits (rowVal y e.entries)) := by
    intro v r e hv h1 h2
    obtain ⟨hn, hm⟩ := hC.virtuals v hv
    obtain ⟨v1, b1⟩ := virtual_value hw x hn (fun n h => hpt (hm n h).2) h1
    obtain ⟨v2, b2⟩ := virtual_valueE hC.one y h2
    rw [v1, v2, b1, b2, uses_congr fun n h => hflow n (hm n h).1 (hm n h).2]
  have agg : ∀ {a : AggData} {r e : LpRow}, a ∈ d.aggs → aggRowR routes a = .ok r → aggRowE d g a = .ok e →
      (r.bounds.Admits (rowVal x r.entries) ↔ e.bounds.Admits (rowVal y e.entries)) := by
    intro a r e ha h1 h2
    obtain ⟨hm, ho1⟩ := hC.aggs a ha
    obtain ⟨v1, b1⟩ := agg_value hw x (fun n h => hpt (hm n h).2) ho1 h1
    obtain ⟨v2, b2⟩ := agg_valueE hC.one y (edge_once hC hR ha) h2
    have : r.bounds = e.bounds := Outcome.stored.inj (b1.symm.trans b2)
    rw [v1, v2, this, aggFlow_congr fun n h => hflow n (hm n h).1 (hm n h).2]
  have fac : ∀ {a : AggData} {fs : List Rat} {n0 : Nat} {rest : List Nat} {p : Nat × Rat} {r e : LpRow}, a ∈ d.aggs → a.nodes = n0 :: rest →
      p ∈ factorPairs a fs →
      zeroRow (const 1 (colsOf (fun r => r.contains n0) routes) ++ const (-p.2) (colsOf (fun r => r.contains p.1) routes)) = .ok r →
      zeroRow (const 1 (flowEdges d g n0) ++ const (-p.2) (flowEdges d g p.1)) = .ok e →
      (r.bounds.Admits (rowVal x r.entries) ↔ e.bounds.Admits (rowVal y e.entries)) := by
    intro a fs n0 rest p r e ha hN hp h1 h2
    obtain ⟨hm, -⟩ := hC.aggs a ha
    obtain ⟨m1, m2⟩ := hm n0 (by rw [hN]; simp)
    obtain ⟨m3, m4⟩ := hm p.1 (List.mem_of_mem_tail (List.of_mem_zip hp).1)
    obtain ⟨v1, b1⟩ := factor_value hw x (hpt m2) (hpt m4) h1
    obtain ⟨v2, b2⟩ := factor_valueE hC.one y h2
    rw [v1, v2, b1, b2, hflow n0 m1 m2, hflow p.1 m3 m4]
  constructor
  · intro H e hem
    rcases edgeRows_mem hE hem with ⟨n, hn, h⟩ | ⟨c, hc, h⟩ | ⟨n, hn, hk, h⟩ | ⟨s, hs, h⟩ | ⟨v, hv, h⟩ | ⟨a, ha, l, hl, hml⟩ | ⟨a, ha, h⟩
    · obtain ⟨r, hr, h'⟩ := pR1 n hn
      exact (node hn h' h).1 (H r hr)
    · obtain ⟨r, hr, h'⟩ := pR2 c hc
      exact (crss hc h' h).1 (H r hr)
    · obtain ⟨v, b⟩ := balance_valueE hC.one y h
      rw [v, b, hbal n hk, sub_self]; rfl
    · obtain ⟨r, hr, h'⟩ := pR3 s hs
      exact (stor hs h' h).1 (H r hr)
    · obtain ⟨r, hr, h'⟩ := pR4 v hv
      exact (virt hv h' h).1 (H r hr)
    · obtain ⟨lR, hlR, hsub⟩ := pR5 a ha
      obtain ⟨fs, n0, rest, p, hfs, hN, hp, h⟩ := (factorRows_ok hl).2 e hml
      obtain ⟨r, hr, h'⟩ := ((factorRows_ok hlR).1 fs hfs).2 n0 rest hN p hp
      exact (fac ha hN hp h' h).1 (H r (hsub r hr))
    · obtain ⟨r, hr, h'⟩ := pR6 a ha
      exact (agg ha h' h).1 (H r hr)
  · intro H r hrm
    rcases routeRows_mem hR hrm with ⟨n, hn, h⟩ | ⟨c, hc, h⟩ | ⟨s, hs, h⟩ | ⟨v, hv, h⟩ | ⟨a, ha, l, hl, hml⟩ | ⟨a, ha, h⟩
    · obtain ⟨e, he, h'⟩ := pE1 n hn
      exact (node hn h h').2 (H e he)
    · obtain ⟨e, he, h'⟩ := pE2 c hc
      exact (crss hc h h').2 (H e he)
    · obtain ⟨e, he, h'⟩ := pE4 s hs
      exact (stor hs h h').2 (H e he)
    · obtain ⟨e, he, h'⟩ := pE5 v hv
      exact (virt hv h h').2 (H e he)
    · obtain ⟨lE, hlE, hsub⟩ := pE6 a ha
      obtain ⟨fs, n0, rest, p, hfs, hN, hp, h⟩ := (factorRows_ok hl).2 r hml
      obtain ⟨e, he, h'⟩ := ((factorRows_ok hlE).1 fs hfs).2 n0 rest hN p hp
      exact (fac ha hN hp h h').2 (H e (hsub e he))
    · obtain ⟨e, he, h'⟩ := pE7 a ha
      exact (agg ha h h').2 (H e he)

end

end Verif.Lp

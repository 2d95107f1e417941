import Verif.Spec.BreakLink
import Verif.Proof.EdgeLp
/-! # Lemmas about the rows of a model with a break link -/

namespace Verif.BreakLink

open Verif Verif.Lp Verif.Bounds

section Columns

set_option linter.unusedSectionVars false

theorem colsOf_congr {α : Type} {p q : α → Bool} {l : List α} (h : ∀ a ∈ l, p a = q a) : colsOf p l = colsOf q l := by
  unfold colsOf
  apply List.filterMap_congr
  intro x hx
  have := List.mem_zipIdx' hx
  rw [h x.1 (by rw [this.2]; exact List.getElem_mem _)]

theorem colsOf_map_snoc {α β : Type} (p : β → Bool) (f : α → β) (l : List α) (e : β) :
    colsOf p (l.map f ++ [e]) = colsOf (fun a => p (f a)) l ++ if p e then [l.length] else [] := by
  unfold colsOf
  rw [List.zipIdx_append, List.filterMap_append, List.zipIdx_map, List.filterMap_map]
  congr 1
  by_cases h : p e <;> simp [h]

variable {d : Data} {g : Graph} {dom : Nat} {p : Parts} (h : Replaces d g dom p)
include h

theorem not_fresh {n : Nat} (hn : n ∈ d.nodes) : n ≠ p.output ∧ n ≠ p.input ∧ n ≠ p.storage ∧ n ≠ p.compound := by
  have := h.fresh
  simp only [Parts.fresh, List.mem_cons, List.not_mem_nil, or_false, forall_eq_or_imp, forall_eq] at this
  refine ⟨?_, ?_, ?_, ?_⟩ <;> rintro rfl
  · exact this.1 hn
  · exact this.2.1 hn
  · exact this.2.2.1 hn
  · exact this.2.2.2 hn

theorem out_ne_in : p.output ≠ p.input := by
  have := h.distinct
  simp only [Parts.fresh, List.nodup_cons, List.mem_cons, not_or] at this
  exact this.1.1

theorem domain_old {n : Nat} (hn : n ∈ d.nodes) : (graph g dom p).domain n = g.domain n := by
  obtain ⟨h1, h2, -, -⟩ := not_fresh h hn
  unfold graph
  by_cases c : n = p.link
  · subst c; simp [h.dom]
  · simp [h1, h2, c]

theorem domain_link : (graph g dom p).domain p.link = dom := by simp [graph]

theorem domain_output : (graph g dom p).domain p.output = dom := by simp [graph]

theorem domain_input : (graph g dom p).domain p.input = dom := by simp [graph]

theorem out_old {n : Nat} (hn : n ∈ d.nodes) : outEdges (graph g dom p) n = outEdges g n := by
  have hi := (not_fresh h hn).2.1
  unfold outEdges
  have e : (graph g dom p).edges = (g.edges.map fun e => (e.1, if e.2 = p.link then p.output else e.2)) ++ [(p.input, p.link)] := rfl
  rw [e, colsOf_map_snoc]
  rw [if_neg (by simp; intro c; exact absurd c.symm hi), List.append_nil]
  apply colsOf_congr
  intro x hx
  obtain ⟨m1, m2⟩ := h.ends x hx
  simp only
  rw [domain_old h m1]
  by_cases c : x.2 = p.link
  · rw [if_pos c, domain_output h, c, h.dom]
  · rw [if_neg c, domain_old h m2]

theorem in_old {n : Nat} (hn : n ∈ d.nodes) (hl : n ≠ p.link) : inEdges (graph g dom p) n = inEdges g n := by
  have ho := (not_fresh h hn).1
  unfold inEdges
  have e : (graph g dom p).edges = (g.edges.map fun e => (e.1, if e.2 = p.link then p.output else e.2)) ++ [(p.input, p.link)] := rfl
  rw [e, colsOf_map_snoc]
  rw [if_neg (by simp; intro c; exact absurd c.symm hl), List.append_nil]
  apply colsOf_congr
  intro x hx
  obtain ⟨m1, m2⟩ := h.ends x hx
  simp only
  rw [domain_old h m1]
  by_cases c : x.2 = p.link
  · rw [if_pos c, c]
    have a1 : (p.output == n) = false := by simp; exact fun q => ho q.symm
    have a2 : (p.link == n) = false := by simp; exact fun q => hl q.symm
    rw [a1, a2]; simp
  · rw [if_neg c, domain_old h m2]

theorem in_link : inEdges (graph g dom p) p.link = [g.edges.length] := by
  unfold inEdges
  have e : (graph g dom p).edges = (g.edges.map fun e => (e.1, if e.2 = p.link then p.output else e.2)) ++ [(p.input, p.link)] := rfl
  rw [e, colsOf_map_snoc, if_pos (by simp [domain_link h, domain_input h])]
  have : colsOf (fun a : Nat × Nat => (a.1, if a.2 = p.link then p.output else a.2).2 == p.link &&
      (graph g dom p).domain (a.1, if a.2 = p.link then p.output else a.2).1 == (graph g dom p).domain (a.1, if a.2 = p.link then p.output else a.2).2) g.edges = [] := by
    rw [colsOf_eq_nil]
    intro x _
    have ho := (not_fresh h h.link.1).1
    by_cases c : x.2 = p.link
    · simp [c, Ne.symm ho]
    · simp [c]
  rw [this, List.nil_append]

theorem in_output : inEdges (graph g dom p) p.output = inEdges g p.link := by
  have ho := (not_fresh h h.link.1).1
  unfold inEdges
  have e : (graph g dom p).edges = (g.edges.map fun e => (e.1, if e.2 = p.link then p.output else e.2)) ++ [(p.input, p.link)] := rfl
  rw [e, colsOf_map_snoc, if_neg (by simp [ho]), List.append_nil]
  apply colsOf_congr
  intro x hx
  obtain ⟨m1, m2⟩ := h.ends x hx
  simp only
  rw [domain_old h m1]
  by_cases c : x.2 = p.link
  · rw [if_pos c, c, domain_output h, h.dom]; simp
  · have a1 : (x.2 == p.output) = false := by simpa using (not_fresh h m2).1
    have a2 : (x.2 == p.link) = false := by simpa using c
    simp only [if_neg c, a1, a2, Bool.false_and]

theorem out_output : outEdges (graph g dom p) p.output = [] := by
  unfold outEdges
  rw [colsOf_eq_nil]
  intro x hx
  have e : (graph g dom p).edges = (g.edges.map fun e => (e.1, if e.2 = p.link then p.output else e.2)) ++ [(p.input, p.link)] := rfl
  rw [e, List.mem_append] at hx
  rcases hx with hx | hx
  · obtain ⟨y, hy, rfl⟩ := List.mem_map.1 hx
    have := (not_fresh h (h.ends y hy).1).1
    simp [this]
  · simp only [List.mem_singleton] at hx
    subst hx
    simp [Ne.symm (out_ne_in h)]

theorem in_input : inEdges (graph g dom p) p.input = [] := by
  unfold inEdges
  rw [colsOf_eq_nil]
  intro x hx
  have e : (graph g dom p).edges = (g.edges.map fun e => (e.1, if e.2 = p.link then p.output else e.2)) ++ [(p.input, p.link)] := rfl
  rw [e, List.mem_append] at hx
  rcases hx with hx | hx
  · obtain ⟨y, hy, rfl⟩ := List.mem_map.1 hx
    have := (not_fresh h (h.ends y hy).2).2.1
    by_cases c : y.2 = p.link
    · simp [c, out_ne_in h]
    · simp [c, this]
  · simp only [List.mem_singleton] at hx
    subst hx
    simp [(not_fresh h h.link.1).2.1]

theorem out_input : outEdges (graph g dom p) p.input = [g.edges.length] := by
  unfold outEdges
  have e : (graph g dom p).edges = (g.edges.map fun e => (e.1, if e.2 = p.link then p.output else e.2)) ++ [(p.input, p.link)] := rfl
  rw [e, colsOf_map_snoc, if_pos (by simp [domain_link h, domain_input h])]
  have : colsOf (fun a : Nat × Nat => (a.1, if a.2 = p.link then p.output else a.2).1 == p.input &&
      (graph g dom p).domain (a.1, if a.2 = p.link then p.output else a.2).1 == (graph g dom p).domain (a.1, if a.2 = p.link then p.output else a.2).2) g.edges = [] := by
    rw [colsOf_eq_nil]
    intro x hx
    have := (not_fresh h (h.ends x hx).1).2.1
    simp [this]
  rw [this, List.nil_append]

theorem kind_old {n : Nat} (hn : n ∈ d.nodes) : (data d p).kind n = d.kind n := by
  obtain ⟨h1, h2, h3, h4⟩ := not_fresh h hn
  simp [data, h1, h2, h3, h4]

theorem kind_output : (data d p).kind p.output = .output := by simp [data]

theorem kind_input : (data d p).kind p.input = .input := by
  simp [data, Ne.symm (out_ne_in h)]

theorem flow_old {n : Nat} (hn : n ∈ d.nodes) : flowEdges (data d p) (graph g dom p) n = flowEdges d g n := by
  unfold flowEdges
  rw [kind_old h hn, out_old h hn]
  by_cases c : d.kind n = .output
  · rw [if_pos c, if_pos c]
    refine in_old h hn ?_
    rintro rfl
    rw [h.link.2] at c; cases c
  · rw [if_neg c, if_neg c]

/-! ### Rows -/

theorem node_row {n : Nat} (hn : n ∈ d.nodes) : nodeRowE (data d p) (graph g dom p) n = nodeRowE d g n := by
  have hf : n ∉ p.fresh := fun c => h.fresh n c hn
  have e1 : (data d p).minFlow n = d.minFlow n := by simp [data, hf]
  have e2 : (data d p).maxFlow n = d.maxFlow n := by simp [data, hf]
  unfold nodeRowE
  rw [kind_old h hn, flow_old h hn, out_old h hn, e1, e2]
  by_cases c : n = p.link
  · have : d.kind n ≠ .input := by rw [c, h.link.2]; decide
    simp only [this, false_and, if_false]
  · rw [in_old h hn c]

theorem cross_row {c : Nat × List (Nat × Rat)} (hc : c ∈ d.cross) : crossRowE (data d p) (graph g dom p) c = crossRowE d g c := by
  obtain ⟨h1, h2⟩ := h.cross c hc
  unfold crossRowE
  rw [flow_old h h1]
  have : (c.2.flatMap fun i => const (1 / i.2) (outEdges (graph g dom p) i.1)) = c.2.flatMap fun i => const (1 / i.2) (outEdges g i.1) := by
    rw [List.flatMap_congr]
    intro i hi
    rw [out_old h (h2 i hi)]
  rw [this]

theorem balance_row {n : Nat} (hn : n ∈ d.nodes) (hl : n ≠ p.link) : balanceRow (graph g dom p) n = balanceRow g n := by
  unfold balanceRow
  rw [in_old h hn hl, out_old h hn]

theorem storage_row {s : StorageData} (hs : s ∈ d.storages) : storageRowE (data d p) (graph g dom p) s = storageRowE d g s := by
  have hm := h.storages s hs
  unfold storageRowE
  have e1 : s.outputs.flatMap (inEdges (graph g dom p)) = s.outputs.flatMap (inEdges g) := by
    apply List.flatMap_congr
    intro n hn
    obtain ⟨a, b⟩ := hm n (List.mem_append_right _ hn)
    exact in_old h a b
  have e2 : s.inputs.flatMap (outEdges (graph g dom p)) = s.inputs.flatMap (outEdges g) := by
    apply List.flatMap_congr
    intro n hn
    exact out_old h (hm n (List.mem_append_left _ hn)).1
  rw [e1, e2]
  rfl

theorem flow_lt {n c : Nat} (hc : c ∈ flowEdges d g n) : c < g.edges.length := by
  unfold flowEdges inEdges outEdges at hc
  split at hc <;> exact (mem_colsOf.1 hc).1

theorem len_graph : (graph g dom p).edges.length = g.edges.length + 1 := by simp [graph]

theorem virtual_row {v : VirtualData} (hv : v ∈ d.virtuals) : virtualRowE (data d p) (graph g dom p) v = virtualRowE d g v := by
  have hm := h.virtuals v hv
  have e : ∀ c, edgeFactors (data d p) (graph g dom p) v c = edgeFactors d g v c := by
    intro c
    unfold edgeFactors
    congr 1
    apply List.filter_congr
    intro q hq
    rw [flow_old h (hm q.1 (List.of_mem_zip hq).1)]
  have e2 : edgeFactors d g v g.edges.length = [] := by
    unfold edgeFactors
    rw [List.map_eq_nil_iff, List.filter_eq_nil_iff]
    intro q _ hc
    exact absurd (flow_lt h (List.contains_iff_mem.1 hc)) (lt_irrefl _)
  unfold virtualRowE
  rw [len_graph h, List.range_succ, List.filterMap_append]
  simp only [e, List.filterMap_cons, e2, if_true, List.filterMap_nil, List.append_nil]
  rfl

theorem agg_row {a : AggData} (ha : a ∈ d.aggs) : aggRowE (data d p) (graph g dom p) a = aggRowE d g a := by
  have hm := h.aggs a ha
  have e : ∀ c, (lastWeight a fun n => (flowEdges (data d p) (graph g dom p) n).contains c) = lastWeight a fun n => (flowEdges d g n).contains c := by
    intro c
    unfold lastWeight
    congr 2
    apply List.filter_congr
    intro q hq
    show (flowEdges (data d p) (graph g dom p) q.1).contains c = (flowEdges d g q.1).contains c
    rw [flow_old h (hm q.1 (List.of_mem_zip hq).1)]
  have e2 : (lastWeight a fun n => (flowEdges d g n).contains g.edges.length) = none := by
    unfold lastWeight
    rw [List.filter_eq_nil_iff.2]
    · rfl
    intro q _ hc
    exact absurd (flow_lt h (List.contains_iff_mem.1 hc)) (lt_irrefl _)
  unfold aggRowE
  rw [len_graph h, List.range_succ, List.filterMap_append]
  simp only [e, List.filterMap_cons, e2, Option.map_none, List.filterMap_nil, List.append_nil]

theorem factor_rows {a : AggData} (ha : a ∈ d.aggs) : factorRowsE (data d p) (graph g dom p) a = factorRowsE d g a := by
  have hm := h.aggs a ha
  unfold factorRowsE
  cases a.factors with
  | none => rfl
  | some fs =>
    simp only
    rcases hn : a.nodes with _ | ⟨n0, rest⟩
    · rfl
    · simp only
      by_cases hrest : rest = []
      · rw [if_pos hrest, if_pos hrest]
      rw [if_neg hrest, if_neg hrest]
      cases factorsNorm fs with
      | error e => rfl
      | ok norm =>
        simp only
        rw [hn] at hm
        have e : ∀ q ∈ rest.zip norm.tail, zeroRow (const 1 (flowEdges (data d p) (graph g dom p) n0) ++ const (-q.2) (flowEdges (data d p) (graph g dom p) q.1)) =
            zeroRow (const 1 (flowEdges d g n0) ++ const (-q.2) (flowEdges d g q.1)) := by
          intro q hq
          rw [flow_old h (hm n0 List.mem_cons_self), flow_old h (hm q.1 (List.mem_cons_of_mem _ (List.of_mem_zip hq).1))]
        revert e
        generalize rest.zip norm.tail = l
        intro e
        induction l with
        | nil => rfl
        | cons q l ih =>
          unfold collect
          rw [e q List.mem_cons_self, ih fun x hx => e x (List.mem_cons_of_mem _ hx)]

/-! ### Feasible solutions -/

end Columns

/-- The row can be built and admits the values of the columns. -/
def Holds (r : Except Err LpRow) (y : List Rat) : Prop := ∃ row, r = .ok row ∧ row.bounds.Admits (rowVal y row.entries)

theorem feasible_iff (d : Data) (g : Graph) (y : List Rat) : EdgeFeasible d g y ↔
    (d.nodes ≠ [] ∧ g.edges ≠ [] ∧ d.nonStorages ≠ []) ∧ y.length = g.edges.length ∧ (∀ v ∈ y, 0 ≤ v) ∧
    (∀ n ∈ d.nonStorages, Holds (nodeRowE d g n) y) ∧ (∀ c ∈ d.cross, Holds (crossRowE d g c) y) ∧
    (∀ n ∈ d.nodes, d.kind n = .link → Holds (balanceRow g n) y) ∧ (∀ s ∈ d.storages, Holds (storageRowE d g s) y) ∧
    (∀ v ∈ d.virtuals, Holds (virtualRowE d g v) y) ∧
    (∀ a ∈ d.aggs, ∃ l, factorRowsE d g a = .ok l ∧ ∀ row ∈ l, row.bounds.Admits (rowVal y row.entries)) ∧
    (∀ a ∈ d.aggs, Holds (aggRowE d g a) y) := by
  constructor
  · rintro ⟨rows, hrows, hlen, hpos, hsat⟩
    obtain ⟨h1, h2, h3, h4, h5, h6, h7⟩ := edgeRows_parts hrows
    have h0 : d.nodes ≠ [] ∧ g.edges ≠ [] ∧ d.nonStorages ≠ [] := by
      unfold edgeRows at hrows
      split at hrows
      · cases hrows
      · rename_i hc
        simpa only [not_or] using hc
    have key : ∀ {r : Except Err LpRow}, (∃ row ∈ rows, r = .ok row) → Holds r y := by
      rintro r ⟨row, hm, rfl⟩
      exact ⟨row, rfl, hsat row hm⟩
    refine ⟨h0, hlen, hpos, fun n hn => key (h1 n hn), fun c hc => key (h2 c hc), fun n hn hk => key (h3 n hn hk), fun s hs => key (h4 s hs),
      fun v hv => key (h5 v hv), fun a ha => ?_, fun a ha => key (h7 a ha)⟩
    obtain ⟨l, e, hl⟩ := h6 a ha
    exact ⟨l, e, fun row hr => hsat row (hl row hr)⟩
  · rintro ⟨h0, hlen, hpos, h1, h2, h3, h4, h5, h6, h7⟩
    have tot : ∀ {α : Type} (f : α → Except Err LpRow) (l : List α), (∀ a ∈ l, Holds (f a) y) → ∃ bs, collect f l = .ok bs := by
      intro α f l hl
      exact collect_total fun a ha => by obtain ⟨row, e, -⟩ := hl a ha; exact ⟨row, e⟩
    have adm : ∀ {α : Type} (f : α → Except Err LpRow) (l : List α) (bs : List LpRow), (∀ a ∈ l, Holds (f a) y) → collect f l = .ok bs →
        ∀ row ∈ bs, row.bounds.Admits (rowVal y row.entries) := by
      intro α f l bs hl hb row hr
      obtain ⟨a, ha, e⟩ := collect_mem hb row hr
      obtain ⟨row', e', hA⟩ := hl a ha
      rw [e] at e'
      cases e'
      exact hA
    have h3' : ∀ n ∈ d.nodes.filter fun n => d.kind n == .link, Holds (balanceRow g n) y := by
      intro n hn
      obtain ⟨a, b⟩ := List.mem_filter.1 hn
      exact h3 n a (by simpa using b)
    have hgood : ∀ r ∈ ([collect (nodeRowE d g) d.nonStorages, collect (crossRowE d g) d.cross,
        collect (balanceRow g) (d.nodes.filter fun n => d.kind n == .link), collect (storageRowE d g) d.storages,
        collect (virtualRowE d g) d.virtuals] ++ d.aggs.map (factorRowsE d g) ++ [collect (aggRowE d g) d.aggs]),
        ∃ l, r = .ok l ∧ ∀ row ∈ l, row.bounds.Admits (rowVal y row.entries) := by
      intro r hr
      simp only [List.mem_append, List.mem_cons, List.not_mem_nil, or_false, List.mem_map] at hr
      rcases hr with ((rfl | rfl | rfl | rfl | rfl) | ⟨a, ha, rfl⟩) | rfl
      · obtain ⟨l, e⟩ := tot _ _ h1; exact ⟨l, e, adm _ _ _ h1 e⟩
      · obtain ⟨l, e⟩ := tot _ _ h2; exact ⟨l, e, adm _ _ _ h2 e⟩
      · obtain ⟨l, e⟩ := tot _ _ h3'; exact ⟨l, e, adm _ _ _ h3' e⟩
      · obtain ⟨l, e⟩ := tot _ _ h4; exact ⟨l, e, adm _ _ _ h4 e⟩
      · obtain ⟨l, e⟩ := tot _ _ h5; exact ⟨l, e, adm _ _ _ h5 e⟩
      · exact h6 a ha
      · obtain ⟨l, e⟩ := tot _ _ h7; exact ⟨l, e, adm _ _ _ h7 e⟩
    obtain ⟨rows, hrows⟩ := concat_total fun r hr => by obtain ⟨l, e, -⟩ := hgood r hr; exact ⟨l, e⟩
    refine ⟨rows, ?_, hlen, hpos, ?_⟩
    · unfold edgeRows
      rw [if_neg (by simpa only [not_or] using h0)]
      exact hrows
    · intro row hr
      obtain ⟨l, hl, hm⟩ := concat_mem hrows row hr
      obtain ⟨l', e, hA⟩ := hgood _ hl
      cases e
      exact hA row hm

theorem rowVal_snoc {y : List Rat} {t : Rat} {e : Entries} (h : ∀ q ∈ e, q.1 < y.length) : rowVal (y ++ [t]) e = rowVal y e := by
  unfold rowVal
  congr 1
  apply List.map_congr_left
  intro q hq
  have := h q hq
  rw [List.getD_eq_getElem?_getD, List.getD_eq_getElem?_getD, List.getElem?_append_left this]

theorem cols_const {v : Rat} {l : List Nat} {n : Nat} (h : ∀ c ∈ l, c < n) : ∀ q ∈ const v l, q.1 < n := by
  intro q hq
  obtain ⟨c, hc, rfl⟩ := List.mem_map.1 hq
  exact h c hc

theorem in_lt {g : Graph} {n c : Nat} (hc : c ∈ inEdges g n) : c < g.edges.length := (mem_colsOf.1 hc).1

theorem out_lt {g : Graph} {n c : Nat} (hc : c ∈ outEdges g n) : c < g.edges.length := (mem_colsOf.1 hc).1

theorem flow_lt' {d : Data} {g : Graph} {n c : Nat} (hc : c ∈ flowEdges d g n) : c < g.edges.length := by
  unfold flowEdges at hc
  split at hc
  · exact in_lt hc
  · exact out_lt hc

/-- All entries of the rows are in columns of the graph. -/
def Inside (g : Graph) (r : Except Err LpRow) : Prop := ∀ row, r = .ok row → ∀ q ∈ row.entries, q.1 < g.edges.length

theorem inside_node (d : Data) (g : Graph) (n : Nat) : Inside g (nodeRowE d g n) := by
  intro row hr
  rw [(nodeRowE_ok hr).2.2.2.1]
  exact cols_const fun c hc => flow_lt' hc

theorem inside_cross (d : Data) (g : Graph) (c : Nat × List (Nat × Rat)) : Inside g (crossRowE d g c) := by
  intro row hr
  unfold crossRowE at hr
  split at hr
  · cases hr
  · rw [(zeroRow_ok hr).2.1]
    intro q hq
    rcases List.mem_append.1 hq with hq | hq
    · exact cols_const (fun c hc => flow_lt' hc) q hq
    · obtain ⟨i, -, hi⟩ := List.mem_flatMap.1 hq
      exact cols_const (fun c hc => out_lt hc) q hi

theorem inside_balance (g : Graph) (n : Nat) : Inside g (balanceRow g n) := by
  intro row hr
  rw [(zeroRow_ok hr).2.1]
  intro q hq
  rcases List.mem_append.1 hq with hq | hq
  · exact cols_const (fun c hc => in_lt hc) q hq
  · exact cols_const (fun c hc => out_lt hc) q hq

theorem inside_storage (d : Data) (g : Graph) (s : StorageData) : Inside g (storageRowE d g s) := by
  intro row hr
  rw [(boundRow_ok hr).2.1]
  intro q hq
  rcases List.mem_append.1 hq with hq | hq
  · refine cols_const (fun c hc => ?_) q hq
    obtain ⟨n, -, hn⟩ := List.mem_flatMap.1 hc
    exact in_lt hn
  · refine cols_const (fun c hc => ?_) q hq
    obtain ⟨n, -, hn⟩ := List.mem_flatMap.1 hc
    exact out_lt hn

theorem inside_virtual (d : Data) (g : Graph) (v : VirtualData) : Inside g (virtualRowE d g v) := by
  intro row hr
  rw [(boundRow_ok hr).2.1]
  intro q hq
  obtain ⟨c, hc, e⟩ := List.mem_filterMap.1 hq
  split at e
  · cases e
  · cases e; exact List.mem_range.1 hc

theorem inside_agg (d : Data) (g : Graph) (a : AggData) : Inside g (aggRowE d g a) := by
  intro row hr
  rw [(limitRow_ok hr).2.1]
  intro q hq
  obtain ⟨c, hc, e⟩ := List.mem_filterMap.1 hq
  obtain ⟨w, -, rfl⟩ := Option.map_eq_some_iff.1 e
  exact List.mem_range.1 hc

theorem inside_factor (d : Data) (g : Graph) (a : AggData) (l : List LpRow) (h : factorRowsE d g a = .ok l) :
    ∀ row ∈ l, ∀ q ∈ row.entries, q.1 < g.edges.length := by
  unfold factorRowsE at h
  cases hf : a.factors with
  | none => rw [hf] at h; cases h; simp
  | some fs =>
    rw [hf] at h
    simp only at h
    rcases ha : a.nodes with _ | ⟨n0, rest⟩
    · rw [ha] at h; cases h
    · rw [ha] at h
      simp only at h
      by_cases hrest : rest = []
      · rw [if_pos hrest] at h; cases h
      rw [if_neg hrest] at h
      cases hn : factorsNorm fs with
      | error e => rw [hn] at h; cases h
      | ok norm =>
        rw [hn] at h
        simp only at h
        intro row hr
        obtain ⟨x, -, e⟩ := collect_mem h row hr
        rw [(zeroRow_ok e).2.1]
        intro q hq
        rcases List.mem_append.1 hq with hq | hq
        · exact cols_const (fun c hc => flow_lt' hc) q hq
        · exact cols_const (fun c hc => flow_lt' hc) q hq

theorem holds_snoc {g : Graph} {r : Except Err LpRow} (hr : Inside g r) {y : List Rat} (hy : y.length = g.edges.length) (t : Rat) :
    Holds r (y ++ [t]) ↔ Holds r y := by
  constructor
  · rintro ⟨row, e, hA⟩
    refine ⟨row, e, ?_⟩
    rwa [rowVal_snoc (fun q hq => hy ▸ hr row e q hq)] at hA
  · rintro ⟨row, e, hA⟩
    refine ⟨row, e, ?_⟩
    rwa [rowVal_snoc (fun q hq => hy ▸ hr row e q hq)]

end Verif.BreakLink

import Verif.Proof.Lines
import Verif.Proof.BreakLink
import Verif.Props.SolverDomains
import Verif.Model.Storage
/-! # C79: break links -/

namespace Verif.BreakLink

open Verif Verif.Lp Verif.Bounds

variable {d : Data} {g : Graph} {dom : Nat} {p : Parts}

private theorem zero_inf : ∃ r : Row, flowRow true (.fin 0) .posInf = .stored r ∧ ∀ x : Rat, 0 ≤ x → r.Admits x := by
  have hD := dblMax_gt
  have he := e8_lt_one
  have hbig : ¬ |dblMax| < e8 := by rw [abs_of_pos (by linarith)]; linarith
  have h0 : |(0 : Rat)| < e8 := by rw [abs_zero]; unfold e8; norm_num
  refine ⟨⟨constraintType 0 dblMax, 0, dblMax⟩, ?_, ?_⟩
  · simp only [flowRow, infToDblMax, roundTiny, h0, hbig, if_true, if_false, setRowBnds]
  · intro x hx
    have : constraintType 0 dblMax = .lo := by
      unfold constraintType
      rw [if_neg (by rw [zero_sub, abs_neg]; exact hbig), if_pos rfl, if_neg (by intro c; linarith)]
    simp only [Row.Admits, this]
    exact hx

/-- The water the columns of a list carry. -/
private def total (y : List Rat) (l : List Nat) : Rat := rowVal y (const 1 l)

private theorem rowVal_minus (y : List Rat) (l : List Nat) : rowVal y (const (-1) l) = -total y l := by
  unfold total rowVal const
  induction l with
  | nil => simp
  | cons c l ih => simp only [List.map_cons, List.sum_cons, ih]; ring

private theorem total_nonneg {y : List Rat} (h : ∀ v ∈ y, 0 ≤ v) (l : List Nat) : 0 ≤ total y l := by
  unfold total rowVal const
  apply List.sum_nonneg
  intro x hx
  simp only [List.map_map, List.mem_map, Function.comp] at hx
  obtain ⟨c, -, rfl⟩ := hx
  rw [one_mul]
  exact getD_nonneg h c

private theorem total_last (y : List Rat) (t : Rat) {n : Nat} (hn : y.length = n) : total (y ++ [t]) [n] = t := by
  subst hn
  simp [total, rowVal, const, List.getD_eq_getElem?_getD]

private theorem total_snoc {y : List Rat} (t : Rat) {l : List Nat} (h : ∀ c ∈ l, c < y.length) : total (y ++ [t]) l = total y l :=
  rowVal_snoc (cols_const h)

private theorem zero_holds (e : Entries) (y : List Rat) : Holds (zeroRow e) y ↔ e ≠ [] ∧ (e.map (·.1)).Nodup ∧ rowVal y e = 0 := by
  constructor
  · rintro ⟨row, hr, hA⟩
    obtain ⟨h1, h2, h3⟩ := zeroRow_ok hr
    exact ⟨boundRow_ne hr, h1, by rw [← h2]; exact admits_zero h3 hA⟩
  · rintro ⟨h0, h1, h2⟩
    exact ⟨⟨e, ⟨.fx, 0, 0⟩⟩, boundRow_of _ h1 h0, h2⟩

private theorem const_cols (v : Rat) (l : List Nat) : (const v l).map (·.1) = l := by simp [const, Function.comp_def]

private theorem mem_nonStorages' (h : Replaces d g dom p) (n : Nat) :
    n ∈ (data d p).nonStorages ↔ n ∈ d.nonStorages ∨ n = p.output ∨ n = p.input := by
  have hd := h.distinct
  simp only [Parts.fresh, List.nodup_cons, List.mem_cons, List.not_mem_nil, or_false, not_or] at hd
  unfold Data.nonStorages
  rw [List.mem_filter, List.mem_filter]
  have e : (data d p).nodes = d.nodes ++ p.fresh := rfl
  rw [e, List.mem_append]
  constructor
  · rintro ⟨hn | hn, hk⟩
    · rw [kind_old h hn] at hk; exact .inl ⟨hn, hk⟩
    · simp only [Parts.fresh, List.mem_cons, List.not_mem_nil, or_false] at hn
      rcases hn with rfl | rfl | rfl | rfl
      · exact .inr (.inl rfl)
      · exact .inr (.inr rfl)
      · simp [data, Ne.symm hd.1.2.1, Ne.symm hd.2.1.1] at hk
      · simp [data, Ne.symm hd.1.2.2, Ne.symm hd.2.1.2] at hk
  · rintro (⟨hn, hk⟩ | rfl | rfl)
    · exact ⟨.inl hn, by rw [kind_old h hn]; exact hk⟩
    · exact ⟨.inr (by simp [Parts.fresh]), by rw [kind_output h]; rfl⟩
    · exact ⟨.inr (by simp [Parts.fresh]), by rw [kind_input h]; rfl⟩

private theorem link_old {n : Nat} (hn : n ∈ (data d p).nodes) (hk : (data d p).kind n = .link) : n ∈ d.nodes := by
  have e : (data d p).nodes = d.nodes ++ p.fresh := rfl
  rw [e, List.mem_append] at hn
  rcases hn with hn | hn
  · exact hn
  · exfalso
    simp only [Parts.fresh, List.mem_cons, List.not_mem_nil, or_false] at hn
    revert hk
    unfold data
    simp only
    rcases hn with rfl | rfl | rfl | rfl <;> (repeat' split) <;> simp_all

private theorem disjoint_cols (h : Replaces d g dom p) : (inEdges g p.link ++ outEdges g p.link).Nodup := by
  rw [List.nodup_append]
  refine ⟨colsOf_nodup _ _, colsOf_nodup _ _, ?_⟩
  rintro a ha _ hb rfl
  obtain ⟨hl, h1⟩ := mem_colsOf.1 ha
  obtain ⟨hl', h2⟩ := mem_colsOf.1 hb
  simp only [Bool.and_eq_true, beq_iff_eq] at h1 h2
  apply h.loop
  rw [← h1.1]
  nth_rewrite 1 [h1.1, ← h2.1]
  exact List.getElem_mem _

private theorem balance_link (h : Replaces d g dom p) (y : List Rat) :
    Holds (balanceRow g p.link) y ↔ total y (inEdges g p.link) = total y (outEdges g p.link) := by
  unfold balanceRow
  rw [zero_holds, rowVal_append, rowVal_minus, List.map_append, const_cols, const_cols]
  constructor
  · rintro ⟨-, -, e⟩
    unfold total at e ⊢
    linarith
  · intro e
    refine ⟨fun c => h.fed (by simp [const] at c; exact c.1), disjoint_cols h, ?_⟩
    unfold total at e ⊢
    linarith

private theorem balance_link' (h : Replaces d g dom p) {y : List Rat} (hy : y.length = g.edges.length) (t : Rat) :
    Holds (balanceRow (graph g dom p) p.link) (y ++ [t]) ↔ t = total y (outEdges g p.link) := by
  unfold balanceRow
  rw [in_link h, out_old h h.link.1, zero_holds, rowVal_append, rowVal_minus, List.map_append, const_cols, const_cols]
  have e1 : rowVal (y ++ [t]) (const 1 [g.edges.length]) = t := total_last y t hy
  rw [e1, total_snoc t fun c hc => hy ▸ out_lt hc]
  constructor
  · rintro ⟨-, -, e⟩; linarith
  · intro e
    refine ⟨by simp [const], ?_, by linarith⟩
    rw [List.singleton_append, List.nodup_cons]
    exact ⟨fun c => absurd (out_lt c) (lt_irrefl _), colsOf_nodup _ _⟩

private theorem storage_new (h : Replaces d g dom p) {y : List Rat} (hy : y.length = g.edges.length) (t : Rat) :
    Holds (storageRowE (data d p) (graph g dom p) ⟨[p.input], [p.output], 0, 0, 0⟩) (y ++ [t]) ↔ t = total y (inEdges g p.link) := by
  have e : storageRowE (data d p) (graph g dom p) ⟨[p.input], [p.output], 0, 0, 0⟩ =
      zeroRow (const 1 (inEdges g p.link) ++ const (-1) [g.edges.length]) := by
    unfold storageRowE
    simp only [List.flatMap_cons, List.flatMap_nil, List.append_nil, in_output h, out_input h]
    rfl
  rw [e, zero_holds, rowVal_append, rowVal_minus, List.map_append, const_cols, const_cols, total_last y t hy]
  have e1 : rowVal (y ++ [t]) (const 1 (inEdges g p.link)) = total y (inEdges g p.link) := total_snoc t fun c hc => hy ▸ in_lt hc
  rw [e1]
  constructor
  · rintro ⟨-, -, e⟩; linarith
  · intro e
    refine ⟨by simp [const], ?_, by linarith⟩
    rw [List.nodup_append]
    refine ⟨colsOf_nodup _ _, List.nodup_singleton _, ?_⟩
    rintro a ha b hb rfl
    rw [List.mem_singleton] at hb
    have := in_lt ha
    omega

private theorem free_row (e : Entries) (hne : e ≠ []) (he : (e.map (·.1)).Nodup) (y : List Rat) (hp : 0 ≤ rowVal y e) : Holds (limitRow e (.fin 0) .posInf) y := by
  obtain ⟨r, hr, hA⟩ := zero_inf
  refine ⟨⟨e, r⟩, ?_, hA _ hp⟩
  simp [limitRow, setMatRow, hne, he, hr]

private theorem output_row (h : Replaces d g dom p) {y : List Rat} (hy : y.length = g.edges.length) (hp : ∀ v ∈ y, 0 ≤ v) (t : Rat) :
    Holds (nodeRowE (data d p) (graph g dom p) p.output) (y ++ [t]) := by
  have e : flowEdges (data d p) (graph g dom p) p.output = inEdges g p.link := by
    unfold flowEdges
    rw [if_pos (kind_output h), in_output h]
  have m1 : (data d p).minFlow p.output = .fin 0 := by simp [data, Parts.fresh]
  have m2 : (data d p).maxFlow p.output = .posInf := by simp [data, Parts.fresh]
  unfold nodeRowE
  rw [if_neg (by rw [kind_output h]; simp), if_neg (by rw [out_output h]; simp), e, if_neg h.fed, m1, m2]
  apply free_row
  · exact fun c => h.fed (by simpa [const] using c)
  · rw [const_cols]; exact colsOf_nodup _ _
  · have e1 : rowVal (y ++ [t]) (const 1 (inEdges g p.link)) = total y (inEdges g p.link) := total_snoc t fun c hc => hy ▸ in_lt hc
    rw [e1]
    exact total_nonneg hp _

private theorem input_row (h : Replaces d g dom p) {y : List Rat} (hy : y.length = g.edges.length) {t : Rat} (ht : 0 ≤ t) :
    Holds (nodeRowE (data d p) (graph g dom p) p.input) (y ++ [t]) := by
  have e : flowEdges (data d p) (graph g dom p) p.input = [g.edges.length] := by
    unfold flowEdges
    rw [if_neg (by rw [kind_input h]; decide), out_input h]
  have m1 : (data d p).minFlow p.input = .fin 0 := by simp [data, Parts.fresh]
  have m2 : (data d p).maxFlow p.input = .posInf := by simp [data, Parts.fresh]
  unfold nodeRowE
  rw [if_neg (by rw [in_input h]; simp), if_neg (by rw [kind_input h]; simp), e, if_neg (by simp), m1, m2]
  apply free_row
  · simp [const]
  · rw [const_cols]; exact List.nodup_singleton _
  · have e1 : rowVal (y ++ [t]) (const 1 [g.edges.length]) = t := total_last y t hy
    rw [e1]
    exact ht

private theorem feasible_new (h : Replaces d g dom p) (y : List Rat) (t : Rat) (hy : y.length = g.edges.length) :
    EdgeFeasible (data d p) (graph g dom p) (y ++ [t]) ↔ EdgeFeasible d g y ∧ t = total y (outEdges g p.link) := by
  have hsN : ∀ n ∈ d.nonStorages, n ∈ d.nodes := fun n hn => (List.mem_filter.1 hn).1
  have hlinkN : p.link ∈ d.nonStorages := List.mem_filter.2 ⟨h.link.1, by rw [h.link.2]; rfl⟩
  rw [feasible_iff, feasible_iff]
  constructor
  · rintro ⟨-, hlen, hpos, h1, h2, h3, h4, h5, h6, h7⟩
    have hpos' : ∀ v ∈ y, 0 ≤ v := fun v hv => hpos v (List.mem_append_left _ hv)
    have ht := (balance_link' h hy t).1 (h3 p.link (List.mem_append_left _ h.link.1) (by rw [kind_old h h.link.1]; exact h.link.2))
    have hs := (storage_new h hy t).1 (h4 _ (List.mem_append_right _ (List.mem_singleton.2 rfl)))
    refine ⟨⟨⟨fun c => ?_, fun c => ?_, fun c => ?_⟩, hy, hpos', ?_, ?_, ?_, ?_, ?_, ?_, ?_⟩, ht⟩
    · have := h.link.1; rw [c] at this; cases this
    · apply h.fed; unfold inEdges; rw [c]; rfl
    · rw [c] at hlinkN; cases hlinkN
    · intro n hn
      have := h1 n ((mem_nonStorages' h n).2 (.inl hn))
      rwa [node_row h (hsN n hn), holds_snoc (inside_node d g n) hy] at this
    · intro c hc
      have := h2 c hc
      rwa [cross_row h hc, holds_snoc (inside_cross d g c) hy] at this
    · intro n hn hk
      by_cases c : n = p.link
      · subst c
        rw [balance_link h, ← hs, ht]
      · have := h3 n (List.mem_append_left _ hn) (by rw [kind_old h hn]; exact hk)
        rwa [balance_row h hn c, holds_snoc (inside_balance g n) hy] at this
    · intro s hs
      have := h4 s (List.mem_append_left _ hs)
      rwa [storage_row h hs, holds_snoc (inside_storage d g s) hy] at this
    · intro v hv
      have := h5 v hv
      rwa [virtual_row h hv, holds_snoc (inside_virtual d g v) hy] at this
    · intro a ha
      obtain ⟨l, e, hl⟩ := h6 a ha
      rw [factor_rows h ha] at e
      refine ⟨l, e, fun row hr => ?_⟩
      have := hl row hr
      rwa [rowVal_snoc (fun q hq => hy ▸ inside_factor d g a l e row hr q hq)] at this
    · intro a ha
      have := h7 a ha
      rwa [agg_row h ha, holds_snoc (inside_agg d g a) hy] at this
  · rintro ⟨⟨-, -, hpos, h1, h2, h3, h4, h5, h6, h7⟩, ht⟩
    have hb := (balance_link h y).1 (h3 p.link h.link.1 h.link.2)
    have ht0 : 0 ≤ t := ht ▸ total_nonneg hpos _
    refine ⟨⟨fun c => ?_, fun c => ?_, fun c => ?_⟩, ?_, ?_, ?_, ?_, ?_, ?_, ?_, ?_, ?_⟩
    · have : p.link ∈ (data d p).nodes := List.mem_append_left _ h.link.1
      rw [c] at this; cases this
    · have := len_graph (p := p) (dom := dom) h
      rw [c] at this; cases this
    · have := (mem_nonStorages' h p.link).2 (.inl hlinkN)
      rw [c] at this; cases this
    · rw [len_graph h, List.length_append, hy]; rfl
    · intro v hv
      rcases List.mem_append.1 hv with hv | hv
      · exact hpos v hv
      · rw [List.mem_singleton.1 hv]; exact ht0
    · intro n hn
      rcases (mem_nonStorages' h n).1 hn with hn | rfl | rfl
      · rw [node_row h (hsN n hn), holds_snoc (inside_node d g n) hy]; exact h1 n hn
      · exact output_row h hy hpos t
      · exact input_row h hy ht0
    · intro c hc
      have hc' : c ∈ d.cross := hc
      rw [cross_row h hc', holds_snoc (inside_cross d g c) hy]; exact h2 c hc'
    · intro n hn hk
      have hn' := link_old hn hk
      by_cases c : n = p.link
      · subst c
        exact (balance_link' h hy t).2 ht
      · rw [balance_row h hn' c, holds_snoc (inside_balance g n) hy]
        exact h3 n hn' (by rw [← kind_old h hn']; exact hk)
    · intro s hs
      have hs' : s ∈ d.storages ++ [⟨[p.input], [p.output], 0, 0, 0⟩] := hs
      rcases List.mem_append.1 hs' with hs | hs
      · rw [storage_row h hs, holds_snoc (inside_storage d g s) hy]; exact h4 s hs
      · rw [List.mem_singleton.1 hs]
        exact (storage_new h hy t).2 (by rw [ht, hb])
    · intro v hv
      have hv' : v ∈ d.virtuals := hv
      rw [virtual_row h hv', holds_snoc (inside_virtual d g v) hy]; exact h5 v hv'
    · intro a ha
      have ha' : a ∈ d.aggs := ha
      obtain ⟨l, e, hl⟩ := h6 a ha'
      refine ⟨l, by rw [factor_rows h ha']; exact e, fun row hr => ?_⟩
      rw [rowVal_snoc (fun q hq => hy ▸ inside_factor d g a l e row hr q hq)]
      exact hl row hr
    · intro a ha
      have ha' : a ∈ d.aggs := ha
      rw [agg_row h ha', holds_snoc (inside_agg d g a) hy]; exact h7 a ha'

private theorem S_snoc {α β : Type} (f : α → β) (l : List α) (e : β) {y : List Rat} (t : Rat) (hy : y.length = l.length) (φ : β → Rat) :
    S (l.map f ++ [e]) (y ++ [t]) φ = S l y (fun a => φ (f a)) + φ e * t := by
  unfold S
  rw [List.zipIdx_append, List.map_append, List.sum_append, List.zipIdx_map, List.map_map]
  congr 1
  · congr 1
    apply List.map_congr_left
    intro q hq
    obtain ⟨hl, -⟩ := List.mem_zipIdx' hq
    simp only [Function.comp, Prod.map]
    rw [List.getD_eq_getElem?_getD, List.getD_eq_getElem?_getD, List.getElem?_append_left (by rw [hy]; exact hl)]
    rfl
  · simp [List.getD_eq_getElem?_getD, ← hy]

private theorem graph_edges : (graph g dom p).edges = (g.edges.map fun e => (e.1, if e.2 = p.link then p.output else e.2)) ++ [(p.input, p.link)] := rfl

private theorem outFlow_new {y : List Rat} (hy : y.length = g.edges.length) (t : Rat) (n : Nat) :
    outFlow (graph g dom p) (y ++ [t]) n = outFlow g y n + (if p.input = n then 1 else 0) * t := by
  unfold outFlow
  rw [graph_edges, S_snoc _ _ _ _ hy]

private theorem inFlow_new {y : List Rat} (hy : y.length = g.edges.length) (t : Rat) (n : Nat) :
    inFlow (graph g dom p) (y ++ [t]) n =
      S g.edges y (fun e => if (if e.2 = p.link then p.output else e.2) = n then 1 else 0) + (if p.link = n then 1 else 0) * t := by
  unfold inFlow
  rw [graph_edges, S_snoc _ _ _ _ hy]

private theorem inFlow_new_old (h : Replaces d g dom p) {y : List Rat} (hy : y.length = g.edges.length) (t : Rat) {n : Nat} (hn : n ∈ d.nodes)
    (hl : n ≠ p.link) : inFlow (graph g dom p) (y ++ [t]) n = inFlow g y n := by
  rw [inFlow_new hy, if_neg (Ne.symm hl), zero_mul, add_zero]
  apply S_congr
  intro e _
  have ho := (not_fresh h hn).1
  by_cases c : e.2 = p.link
  · rw [if_pos c, if_neg (Ne.symm ho), c, if_neg (Ne.symm hl)]
  · rw [if_neg c]

private theorem inFlow_new_link (h : Replaces d g dom p) {y : List Rat} (hy : y.length = g.edges.length) (t : Rat) :
    inFlow (graph g dom p) (y ++ [t]) p.link = t := by
  rw [inFlow_new hy, if_pos rfl, one_mul, S_congr (g := fun _ => 0), S_zero, zero_add]
  intro e _
  have ho := (not_fresh h h.link.1).1
  by_cases c : e.2 = p.link
  · rw [if_pos c, if_neg (Ne.symm ho)]
  · rw [if_neg c, if_neg c]

private theorem inFlow_new_output (h : Replaces d g dom p) {y : List Rat} (hy : y.length = g.edges.length) (t : Rat) :
    inFlow (graph g dom p) (y ++ [t]) p.output = inFlow g y p.link := by
  rw [inFlow_new hy, if_neg (not_fresh h h.link.1).1, zero_mul, add_zero]
  apply S_congr
  intro e he
  by_cases c : e.2 = p.link
  · rw [if_pos c, if_pos rfl, if_pos c]
  · rw [if_neg c, if_neg c, if_neg (not_fresh h (h.ends e he).2).1]

private theorem total_out (h : Replaces d g dom p) (y : List Rat) : total y (outEdges g p.link) = outFlow g y p.link := by
  unfold total outEdges outFlow
  rw [rowVal_const]
  apply S_congr
  intro e he
  by_cases c : e.1 = p.link
  · have := h.inside e he (.inl c)
    simp [c, ← this]
  · simp [c]

private theorem total_in (h : Replaces d g dom p) (y : List Rat) : total y (inEdges g p.link) = inFlow g y p.link := by
  unfold total inEdges inFlow
  rw [rowVal_const]
  apply S_congr
  intro e he
  by_cases c : e.2 = p.link
  · have := h.inside e he (.inr c)
    simp [c, this]
  · simp [c]

private theorem link_flow (h : Replaces d g dom p) {y : List Rat} (hy : EdgeFeasible d g y) :
    edgeNodeFlow d g y p.link = total y (outEdges g p.link) ∧ inFlow g y p.link = outFlow g y p.link := by
  have hb := (balance_link h y).1 (((feasible_iff d g y).1 hy).2.2.2.2.2.1 p.link h.link.1 h.link.2)
  rw [total_in h, total_out h] at hb
  refine ⟨?_, hb⟩
  rw [edgeNodeFlow_eq, total_out h, hb]
  unfold share
  rw [if_pos h.link.2]
  ring

/-- **C79 (solutions, edge solver).** The feasible solutions with a break link are exactly those of the model with an ordinary link, completed by
the flow through the link on the one new connection. -/
theorem C79_edge (d : Data) (g : Graph) (dom : Nat) (p : Parts) (h : Replaces d g dom p) (z : List Rat) :
    EdgeFeasible (data d p) (graph g dom p) z ↔ ∃ y, EdgeFeasible d g y ∧ z = y ++ [edgeNodeFlow d g y p.link] := by
  constructor
  · intro hz
    have hlen := ((feasible_iff _ _ _).1 hz).2.1
    rw [len_graph h] at hlen
    rcases List.eq_nil_or_concat z with rfl | ⟨y, t, rfl⟩
    · simp at hlen
    · rw [List.concat_eq_append] at hz hlen ⊢
      have hy : y.length = g.edges.length := by simpa using hlen
      obtain ⟨hf, rfl⟩ := (feasible_new h y t hy).1 hz
      exact ⟨y, hf, by rw [(link_flow h hf).1]⟩
  · rintro ⟨y, hf, rfl⟩
    exact (feasible_new h y _ ((feasible_iff _ _ _).1 hf).2.1).2 ⟨hf, (link_flow h hf).1⟩

private theorem sum_single (n c : Nat) (hc : c < n) (F : Nat → Rat) : ((List.range n).map fun k => (if c = k then 1 else 0) * F k).sum = F c := by
  induction n with
  | zero => omega
  | succ n ih =>
    rw [List.range_succ, List.map_append, List.sum_append]
    by_cases e : c = n
    · subst e
      have : ((List.range c).map fun k => (if c = k then 1 else 0) * F k).sum = 0 := by
        rw [List.map_congr_left (g := fun _ => 0)]
        · simp
        · intro k hk
          have := List.mem_range.1 hk
          rw [if_neg (by omega), zero_mul]
      rw [this]; simp
    · rw [ih (by omega)]; simp [e]

private theorem sum_cols (n : Nat) (l : List Nat) (hl : ∀ c ∈ l, c < n) (v : Rat) (y : List Rat) :
    ((List.range n).map fun c => ((l.filter fun k => k == c).map fun _ => v).sum * y.getD c 0).sum = v * total y l := by
  induction l with
  | nil => simp [total, rowVal, const]
  | cons k l ih =>
    have e : ∀ c, (((k :: l).filter fun k => k == c).map fun _ => v).sum = v * (if k = c then 1 else 0) + ((l.filter fun k => k == c).map fun _ => v).sum := by
      intro c
      by_cases h : k = c <;> simp [h]
    have e2 : ((List.range n).map fun c => (((k :: l).filter fun k => k == c).map fun _ => v).sum * y.getD c 0).sum =
        v * ((List.range n).map fun c => (if k = c then 1 else 0) * y.getD c 0).sum +
        ((List.range n).map fun c => ((l.filter fun k => k == c).map fun _ => v).sum * y.getD c 0).sum := by
      rw [← List.sum_map_mul_left, ← List.sum_map_add]
      congr 1
      apply List.map_congr_left
      intro c _
      rw [e]; ring
    rw [e2, ih fun c hc => hl c (List.mem_cons_of_mem _ hc), sum_single n k (hl k List.mem_cons_self)]
    unfold total rowVal const
    simp only [List.map_cons, List.sum_cons, one_mul]
    ring

private theorem objective_eq (d : Data) (g : Graph) (y : List Rat) :
    edgeObjective d g y = (d.nodes.map fun n => share d n * d.cost n * (total y (inEdges g n) + total y (outEdges g n))).sum := by
  unfold edgeObjective edgeCost
  induction d.nodes with
  | nil => simp
  | cons n ns ih =>
    simp only [List.map_cons, List.sum_cons]
    rw [← ih]
    have e : (if d.kind n = .link then d.cost n / 2 else d.cost n) = share d n * d.cost n := by
      unfold share; split <;> ring
    have e2 : share d n * d.cost n * (total y (inEdges g n) + total y (outEdges g n)) =
        ((List.range g.edges.length).map fun c => (((inEdges g n).filter fun k => k == c).map fun _ => share d n * d.cost n).sum * y.getD c 0).sum +
        ((List.range g.edges.length).map fun c => (((outEdges g n).filter fun k => k == c).map fun _ => share d n * d.cost n).sum * y.getD c 0).sum := by
      rw [sum_cols _ _ (fun c hc => in_lt hc), sum_cols _ _ (fun c hc => out_lt hc)]; ring
    rw [e2, ← List.sum_map_add, ← List.sum_map_add]
    congr 1
    apply List.map_congr_left
    intro c _
    simp only [e]
    ring

/-- **C79 (results, edge solver).** In corresponding solutions all nodes have the same flows and the costs are the same; as much water enters
the storage of the break link as leaves it, namely the flow through the link. -/
theorem C79_edge_results (d : Data) (g : Graph) (dom : Nat) (p : Parts) (h : Replaces d g dom p) (y : List Rat) (hy : EdgeFeasible d g y) :
    (∀ n ∈ d.nodes, edgeNodeFlow (data d p) (graph g dom p) (y ++ [edgeNodeFlow d g y p.link]) n = edgeNodeFlow d g y n) ∧
    edgeObjective (data d p) (graph g dom p) (y ++ [edgeNodeFlow d g y p.link]) = edgeObjective d g y ∧
    edgeNodeFlow (data d p) (graph g dom p) (y ++ [edgeNodeFlow d g y p.link]) p.output = edgeNodeFlow d g y p.link ∧
    edgeNodeFlow (data d p) (graph g dom p) (y ++ [edgeNodeFlow d g y p.link]) p.input = edgeNodeFlow d g y p.link := by
  have hl := ((feasible_iff _ _ _).1 hy).2.1
  obtain ⟨ht, hb⟩ := link_flow h hy
  rw [total_out h] at ht
  have hshare : ∀ n ∈ d.nodes, share (data d p) n = share d n := fun n hn => by unfold share; rw [kind_old h hn]
  rw [ht]
  refine ⟨?_, ?_, ?_, ?_⟩
  · intro n hn
    rw [edgeNodeFlow_eq, edgeNodeFlow_eq, hshare n hn, outFlow_new hl, if_neg (Ne.symm (not_fresh h hn).2.1), zero_mul, add_zero]
    by_cases c : n = p.link
    · subst c
      rw [inFlow_new_link h hl, hb]
    · rw [inFlow_new_old h hl _ hn c]
  · rw [objective_eq, objective_eq]
    have e : (data d p).nodes = d.nodes ++ p.fresh := rfl
    rw [e, List.map_append, List.sum_append]
    have z : (p.fresh.map fun n => share (data d p) n * (data d p).cost n * (total (y ++ [outFlow g y p.link]) (inEdges (graph g dom p) n) +
        total (y ++ [outFlow g y p.link]) (outEdges (graph g dom p) n))).sum = 0 := by
      rw [List.map_congr_left (g := fun _ => 0)]
      · simp
      · intro n hn
        have : (data d p).cost n = 0 := by simp [data, hn]
        rw [this]; ring
    rw [z, add_zero]
    congr 1
    apply List.map_congr_left
    intro n hn
    have hc : (data d p).cost n = d.cost n := by
      have : n ∉ p.fresh := fun c => h.fresh n c hn
      simp [data, this]
    rw [hshare n hn, hc, out_old h hn, total_snoc (l := outEdges g n) _ fun c hc => hl ▸ out_lt hc]
    by_cases c : n = p.link
    · subst c
      rw [in_link h, total_last _ _ hl, total_in h, hb]
    · rw [in_old h hn c, total_snoc (l := inEdges g n) _ fun c hc => hl ▸ in_lt hc]
  · have hk : share (data d p) p.output = 1 := by unfold share; rw [if_neg (by rw [kind_output h]; decide)]
    rw [edgeNodeFlow_eq, hk, inFlow_new_output h hl, outFlow_new hl, if_neg (Ne.symm (out_ne_in h)), hb]
    have : outFlow g y p.output = 0 := by
      unfold outFlow
      rw [S_congr (g := fun _ => 0), S_zero]
      intro e he
      rw [if_neg (not_fresh h (h.ends e he).1).1]
    rw [this]; ring
  · have hk : share (data d p) p.input = 1 := by unfold share; rw [if_neg (by rw [kind_input h]; decide)]
    rw [edgeNodeFlow_eq, hk, outFlow_new hl, if_pos rfl, inFlow_new hl, if_neg (not_fresh h h.link.1).2.1]
    have e1 : outFlow g y p.input = 0 := by
      unfold outFlow
      rw [S_congr (g := fun _ => 0), S_zero]
      intro e he
      rw [if_neg (not_fresh h (h.ends e he).1).2.1]
    have e2 : S g.edges y (fun e => if (if e.2 = p.link then p.output else e.2) = p.input then 1 else 0) = 0 := by
      rw [S_congr (g := fun _ => 0), S_zero]
      intro e he
      by_cases c : e.2 = p.link
      · rw [if_pos c, if_neg (out_ne_in h)]
      · rw [if_neg c, if_neg (not_fresh h (h.ends e he).2).2.1]
    rw [e1, e2]; ring

/-- **C79 (optimum, edge solver).** The least cost is the same. -/
theorem C79_edge_optimum (d : Data) (g : Graph) (dom : Nat) (p : Parts) (h : Replaces d g dom p) (v : Rat) :
    ((∃ z, EdgeFeasible (data d p) (graph g dom p) z ∧ edgeObjective (data d p) (graph g dom p) z = v) ∧
      ∀ z, EdgeFeasible (data d p) (graph g dom p) z → v ≤ edgeObjective (data d p) (graph g dom p) z) ↔
    ((∃ y, EdgeFeasible d g y ∧ edgeObjective d g y = v) ∧ ∀ y, EdgeFeasible d g y → v ≤ edgeObjective d g y) := by
  constructor
  · rintro ⟨⟨z, hz, hv⟩, hm⟩
    obtain ⟨y, hy, rfl⟩ := (C79_edge d g dom p h z).1 hz
    refine ⟨⟨y, hy, by rw [← hv, (C79_edge_results d g dom p h y hy).2.1]⟩, fun y' hy' => ?_⟩
    rw [← (C79_edge_results d g dom p h y' hy').2.1]
    exact hm _ ((C79_edge d g dom p h _).2 ⟨y', hy', rfl⟩)
  · rintro ⟨⟨y, hy, hv⟩, hm⟩
    refine ⟨⟨_, (C79_edge d g dom p h _).2 ⟨y, hy, rfl⟩, by rw [(C79_edge_results d g dom p h y hy).2.1, hv]⟩, fun z hz => ?_⟩
    obtain ⟨y', hy', rfl⟩ := (C79_edge d g dom p h z).1 hz
    rw [(C79_edge_results d g dom p h y' hy').2.1]
    exact hm y' hy'

/-- The completed solution leaves the same connections between domains idle. -/
private theorem idle_new {d : Data} {g : Graph} {dom : Nat} {p : Parts} (h : Replaces d g dom p) {y : List Rat} (hl : y.length = g.edges.length) (t : Rat) :
    Idle (graph g dom p) (y ++ [t]) ↔ Idle g y := by
  have old : ∀ n ∈ d.nodes, (graph g dom p).domain n = g.domain n := by
    intro n hn
    have h1 : n ≠ p.output := fun e => h.fresh p.output (by simp [Parts.fresh]) (e ▸ hn)
    have h2 : n ≠ p.input := fun e => h.fresh p.input (by simp [Parts.fresh]) (e ▸ hn)
    by_cases hk : n = p.link
    · simp [graph, hk, h.dom]
    · simp [graph, h1, h2, hk]
  have hd : ∀ c, (hc : c < g.edges.length) → ∀ hc', (graph g dom p).domain ((graph g dom p).edges[c]'hc').1 = g.domain g.edges[c].1 ∧
      (graph g dom p).domain ((graph g dom p).edges[c]'hc').2 = g.domain g.edges[c].2 := by
    intro c hc hc'
    have he := h.ends _ (List.getElem_mem hc)
    have e : (graph g dom p).edges[c]'hc' = (g.edges[c].1, if g.edges[c].2 = p.link then p.output else g.edges[c].2) := by
      simp only [graph]
      rw [List.getElem_append_left (by simpa using hc)]
      simp
    rw [e]
    refine ⟨old _ he.1, ?_⟩
    dsimp only
    by_cases hk : g.edges[c].2 = p.link
    · rw [if_pos hk, hk, h.dom]
      simp [graph]
    · rw [if_neg hk]
      exact old _ he.2
  have hlen : (graph g dom p).edges.length = g.edges.length + 1 := by simp [graph]
  constructor
  · intro hi c hc hne
    have := hi c (by omega) (by rw [(hd c hc _).1, (hd c hc _).2]; exact hne)
    rwa [List.getD_append _ _ _ _ (by omega)] at this
  · intro hi c hc hne
    by_cases hc' : c < g.edges.length
    · rw [(hd c hc' _).1, (hd c hc' _).2] at hne
      rw [List.getD_append _ _ _ _ (by omega)]
      exact hi c hc' hne
    · exfalso
      have e : (graph g dom p).edges[c] = (p.input, p.link) := by
        simp only [graph]
        rw [List.getElem_append_right (by simp; omega)]
        simp
      rw [e] at hne
      simp [graph] at hne

/-- **C79 (route solver, partial).** Where the two solvers are comparable, replacing a link by a break link makes no difference to the route
solver either: every solution of the one model has a solution of the other with the same flows of all nodes of the original model.  Missing:
routes passing two members of an aggregated node, and loops, with which it is wrong (`C79_members_fails`, `C79_loop_fails`). -/
theorem C79_route_partial (d : Data) (g : Graph) (dom : Nat) (p : Parts) (h : Replaces d g dom p) (routes routes' : List (List Nat))
    (hC : ComparableDomains d g routes) (hC' : ComparableDomains (data d p) (graph g dom p) routes')
    (hE : ∃ rows, edgeRows d g = .ok rows) (hE' : ∃ rows, edgeRows (data d p) (graph g dom p) = .ok rows)
    (hR : ∃ rows, routeRows d routes = .ok rows) (hR' : ∃ rows, routeRows (data d p) routes' = .ok rows) :
    (∀ x, RouteFeasible d routes x → ∃ x', RouteFeasible (data d p) routes' x' ∧
      ∀ n ∈ d.nodes, d.kind n ≠ .other → routeNodeFlow (data d p) routes' x' n = routeNodeFlow d routes x n) ∧
    (∀ x', RouteFeasible (data d p) routes' x' → ∃ x, RouteFeasible d routes x ∧
      ∀ n ∈ d.nodes, d.kind n ≠ .other → routeNodeFlow d routes x n = routeNodeFlow (data d p) routes' x' n) := by
  have old : ∀ n ∈ d.nodes, n ∈ (data d p).nodes := fun n hn => List.mem_append_left _ hn
  constructor
  · intro x hx
    obtain ⟨y, hy, h0, hf⟩ := C24_domains_route_to_edge_partial d g routes hC hE x hx
    obtain ⟨x', hx', hf'⟩ := C24_domains_edge_to_route_partial _ _ _ hC' hR' _ ((C79_edge d g dom p h _).2 ⟨y, hy, rfl⟩)
      ((idle_new h ((feasible_iff _ _ _).1 hy).2.1 _).2 h0)
    refine ⟨x', hx', fun n hn hk => ?_⟩
    rw [hf' n (old n hn) (by rw [kind_old h hn]; exact hk), (C79_edge_results d g dom p h y hy).1 n hn, hf n hn hk]
  · intro x' hx'
    obtain ⟨z, hz, h0, hf'⟩ := C24_domains_route_to_edge_partial _ _ _ hC' hE' x' hx'
    obtain ⟨y, hy, rfl⟩ := (C79_edge d g dom p h z).1 hz
    obtain ⟨x, hx, hf⟩ := C24_domains_edge_to_route_partial d g routes hC hR y hy ((idle_new h ((feasible_iff _ _ _).1 hy).2.1 _).1 h0)
    refine ⟨x, hx, fun n hn hk => ?_⟩
    rw [hf n hn hk, ← (C79_edge_results d g dom p h y hy).1 n hn, hf' n (old n hn) (by rw [kind_old h hn]; exact hk)]

/-- **C79 (optimum, route solver, partial).** Under the same conditions, and with no route cost below the rounding threshold, the least cost is the
same. -/
theorem C79_route_optimum_partial (d : Data) (g : Graph) (dom : Nat) (p : Parts) (h : Replaces d g dom p) (routes routes' : List (List Nat))
    (hC : ComparableDomains d g routes) (hC' : ComparableDomains (data d p) (graph g dom p) routes')
    (hE : ∃ rows, edgeRows d g = .ok rows) (hE' : ∃ rows, edgeRows (data d p) (graph g dom p) = .ok rows)
    (hR : ∃ rows, routeRows d routes = .ok rows) (hR' : ∃ rows, routeRows (data d p) routes' = .ok rows)
    (hcost : ∀ r ∈ routes, |routeCost d r| < e8 → routeCost d r = 0)
    (hcost' : ∀ r ∈ routes', |routeCost (data d p) r| < e8 → routeCost (data d p) r = 0) (v : Rat) :
    ((∃ x, RouteFeasible (data d p) routes' x ∧ routeObjective (data d p) routes' x = v) ∧
      ∀ x, RouteFeasible (data d p) routes' x → v ≤ routeObjective (data d p) routes' x) ↔
    ((∃ x, RouteFeasible d routes x ∧ routeObjective d routes x = v) ∧ ∀ x, RouteFeasible d routes x → v ≤ routeObjective d routes x) := by
  rw [C24_domains_same_optimum_partial _ _ _ hC' hE' hR' hcost', C24_domains_same_optimum_partial _ _ _ hC hE hR hcost]
  exact C79_edge_optimum d g dom p h v

/-- **C79 (storage, route solver).** In every solution of the route solver as much water enters the storage of a break link as leaves it. -/
theorem C79_through (d : Data) (p : Parts) (hd : p.output ≠ p.input) (hdays : 0 < d.days) (routes : List (List Nat))
    (hw : WellRouted (data d p) routes) (x : List Rat) (hx : RouteFeasible (data d p) routes x) :
    routeNodeFlow (data d p) routes x p.output = routeNodeFlow (data d p) routes x p.input := by
  have hs : (⟨[p.input], [p.output], 0, 0, 0⟩ : StorageData) ∈ (data d p).storages := List.mem_append_right _ (List.mem_singleton.2 rfl)
  have hD := dblMax_gt
  obtain ⟨h1, h2⟩ := C53_storage (data d p) routes hw x hx _ hs (by simp) (by simp)
    (by intro n hn; rw [List.mem_singleton.1 hn]; simp [data, Ne.symm hd]) (by intro n hn; rw [List.mem_singleton.1 hn]; simp [data])
    le_rfl le_rfl hdays (by simp; linarith)
  have hd' : 0 < (data d p).days := hdays
  simp only [storageFlow, List.map_cons, List.map_nil, List.sum_cons, List.sum_nil, add_zero, zero_add] at h1 h2
  have : (routeNodeFlow (data d p) routes x p.output - routeNodeFlow (data d p) routes x p.input) = 0 := by
    rcases mul_eq_zero.1 (le_antisymm h2 h1) with e | e
    · exact e
    · linarith
  linarith

/-- **C79 (volume).** The storage of a break link, made with volumes zero, is reset to the volume zero and stays there in every run in which as
much enters as leaves. -/
theorem C79_volume (s : Storage.State) : ∃ s0, Storage.reset ⟨some 0, none, .number 0⟩ s = .ok s0 ∧
    ∀ ts : List Storage.Step, (∀ t ∈ ts, t.mx = 0 ∧ t.mn = 0 ∧ (t.commits.map Storage.Commit.net).sum = 0) → (s0.run ts).volume = 0 := by
  refine ⟨_, rfl, ?_⟩
  intro ts
  generalize h0 : ({ s with flow := 0, prevFlow := 0, volume := 0, pc := Storage.fraction 0 0 } : Storage.State) = s0
  have hv : s0.volume = 0 := by rw [← h0]
  clear h0
  induction ts generalizing s0 with
  | nil => intro _; exact hv
  | cons t ts ih =>
    intro ht
    obtain ⟨h1, h2, h3⟩ := ht t List.mem_cons_self
    simp only [Storage.State.run, List.foldl_cons]
    refine ih (s0.step t) ?_ fun t' h' => ht t' (List.mem_cons_of_mem _ h')
    have hf : ∀ (l : List Storage.Commit) (s : Storage.State), (l.foldl Storage.State.commit s).flow = s.flow + (l.map Storage.Commit.net).sum ∧
        (l.foldl Storage.State.commit s).volume = s.volume := by
      intro l
      induction l with
      | nil => intro s; simp
      | cons c l ihl =>
        intro s
        rw [List.foldl_cons]
        obtain ⟨a, b⟩ := ihl (s.commit c)
        rw [a, b]
        cases c <;> simp [Storage.State.commit, Storage.Commit.net, add_assoc]
    obtain ⟨a, b⟩ := hf t.commits s0.before
    unfold Storage.State.step Storage.State.after
    simp only
    rw [a, b, h3, h1, h2]
    simp only [Storage.State.before, hv]
    simp [Storage.snap, Storage.e6]

/-! ## A model with a break link -/

private def sample : Data where
  kind := fun n => match n with | 0 => .input | 3 => .input | 1 => .link | 2 => .output | 4 => .output | _ => .other
  nodes := [0, 1, 2, 3, 4]
  minFlow := fun _ => .fin 0
  maxFlow := fun n => match n with | 0 => .fin 10 | 3 => .fin 5 | 1 => .fin 8 | _ => .posInf
  cost := fun n => match n with | 0 => 1 | 1 => 3 | 2 => -10 | 4 => -20 | _ => 0
  storages := []
  virtuals := []
  aggs := [⟨[2, 4], none, none, .fin 0, .fin 7⟩]
  cross := []
  days := 1

private def sampleGraph : Graph := ⟨[(0, 1), (3, 1), (1, 2), (1, 4)], fun _ => 0⟩

private def sampleParts : Parts := ⟨1, 5, 6, 7, 8⟩

private def info : Routes.NodeInfo := ⟨fun n => toString n, fun n => toString n, fun _ => 0⟩

private theorem sample_replaces : Replaces sample sampleGraph 0 sampleParts :=
  ⟨by decide +kernel, by decide +kernel, by decide +kernel, by decide +kernel, by decide +kernel, by decide +kernel, by decide +kernel, rfl, by decide +kernel,
    by decide +kernel, by decide +kernel, by decide +kernel⟩

private def rank (n : Nat) : Nat := match n with | 0 => 0 | 3 => 0 | 5 => 9 | 6 => 0 | 1 => 1 | _ => 5

private theorem acyclic_of {nodes : List Nat} {edges : List (Nat × Nat)} (key : ∀ e ∈ edges, rank e.1 < rank e.2) : ¬ Digraph.Cyclic ⟨nodes, edges⟩ := by
  rintro ⟨u, hu⟩
  have : ∀ a b, Relation.TransGen (Digraph.Edge ⟨nodes, edges⟩) a b → rank a < rank b := by
    intro a b h
    induction h with
    | single h => exact key _ h
    | tail _ h ih => exact lt_trans ih (key _ h)
  exact lt_irrefl _ (this u u hu)

private theorem sample_comparable : ComparableDomains sample sampleGraph [[0, 1, 2], [0, 1, 4], [3, 1, 2], [3, 1, 4]] := by
  refine ⟨by unfold Connects; decide +kernel, by decide, by decide, by decide +kernel, ⟨info, rfl, ?_⟩, by decide +kernel, acyclic_of (by decide +kernel), by decide +kernel, by decide +kernel⟩
  have h1 : sample.nodes.mergeSort (fun a b => decide (info.name a ≤ info.name b)) = sample.nodes :=
    List.mergeSort_of_pairwise (by decide +kernel)
  have h2 : [[0, 1, 2], [0, 1, 4], [3, 1, 2], [3, 1, 4]].mergeSort (fun a b => decide (a.map info.fqn ≤ b.map info.fqn)) =
      [[0, 1, 2], [0, 1, 4], [3, 1, 2], [3, 1, 4]] := List.mergeSort_of_pairwise (by decide +kernel)
  have h3 : Routes.filterM (Routes.routeOk info (some fun n => sample.kind n != .other) none .strict)
      ((sample.nodes.filter fun n => sample.kind n == .input).flatMap fun s =>
        (sample.nodes.filter fun n => sample.kind n == .output).flatMap fun t =>
          Digraph.allSimplePaths ⟨sample.nodes, sampleGraph.edges⟩ s t none) = .ok [[0, 1, 2], [0, 1, 4], [3, 1, 2], [3, 1, 4]] := by decide +kernel
  unfold Routes.findAllRoutes Routes.candidatePaths Routes.selectNodes
  simp only [h1, h3, h2]

private theorem sample_comparable' : ComparableDomains (data sample sampleParts) (graph sampleGraph 0 sampleParts) [[0, 5], [3, 5], [6, 1, 2], [6, 1, 4]] := by
  refine ⟨by unfold Connects; decide +kernel, by decide, by decide, by decide +kernel, ⟨info, ?_, ?_⟩, by decide +kernel, acyclic_of (by decide +kernel), by decide +kernel, by decide +kernel⟩
  · funext n
    simp [graph, info, sampleGraph]
  have h1 : (data sample sampleParts).nodes.mergeSort (fun a b => decide (info.name a ≤ info.name b)) = (data sample sampleParts).nodes :=
    List.mergeSort_of_pairwise (by decide +kernel)
  have h2 : [[0, 5], [3, 5], [6, 1, 2], [6, 1, 4]].mergeSort (fun a b => decide (a.map info.fqn ≤ b.map info.fqn)) =
      [[0, 5], [3, 5], [6, 1, 2], [6, 1, 4]] := List.mergeSort_of_pairwise (by decide +kernel)
  have h3 : Routes.filterM (Routes.routeOk info (some fun n => (data sample sampleParts).kind n != .other) none .strict)
      (((data sample sampleParts).nodes.filter fun n => (data sample sampleParts).kind n == .input).flatMap fun s =>
        ((data sample sampleParts).nodes.filter fun n => (data sample sampleParts).kind n == .output).flatMap fun t =>
          Digraph.allSimplePaths ⟨(data sample sampleParts).nodes, (graph sampleGraph 0 sampleParts).edges⟩ s t none) =
      .ok [[0, 5], [3, 5], [6, 1, 2], [6, 1, 4]] := by decide +kernel
  unfold Routes.findAllRoutes Routes.candidatePaths Routes.selectNodes
  simp only [h1, h3, h2]

/-- The hypotheses of the theorems on both solvers can be met: two inputs and two outputs on either side of a link. -/
example : Replaces sample sampleGraph 0 sampleParts ∧ EdgeFeasible sample sampleGraph [2, 5, 0, 7] ∧
    EdgeFeasible (data sample sampleParts) (graph sampleGraph 0 sampleParts) [2, 5, 0, 7, 7] ∧
    ComparableDomains sample sampleGraph [[0, 1, 2], [0, 1, 4], [3, 1, 2], [3, 1, 4]] ∧
    ComparableDomains (data sample sampleParts) (graph sampleGraph 0 sampleParts) [[0, 5], [3, 5], [6, 1, 2], [6, 1, 4]] ∧
    RouteFeasible sample [[0, 1, 2], [0, 1, 4], [3, 1, 2], [3, 1, 4]] [0, 2, 0, 5] ∧
    RouteFeasible (data sample sampleParts) [[0, 5], [3, 5], [6, 1, 2], [6, 1, 4]] [2, 5, 0, 7] :=
  ⟨sample_replaces, by decide +kernel, by decide +kernel, sample_comparable, sample_comparable', by decide +kernel, by decide +kernel⟩

/-- **C79 fails in another domain than the default one.** A break link accepts a `domain`, but does not pass it to its nodes: with everything in
domain 1, the link can be used and the break link gives a model that the solver refuses. -/
theorem C79_domain_fails : EdgeFeasible sample { sampleGraph with domain := fun _ => 1 } [2, 5, 0, 7] ∧
    (edgeRows (data sample sampleParts) (graph { sampleGraph with domain := fun _ => 1 } 0 sampleParts)).toOption.isNone := by
  decide +kernel

/-- A chain with a limit on the sum of the flows through the links before and after the link in the middle. -/
private def chain : Data where
  kind := fun n => match n with | 0 => .input | 1 => .link | 2 => .link | 3 => .link | 4 => .output | _ => .other
  nodes := [0, 1, 2, 3, 4]
  minFlow := fun _ => .fin 0
  maxFlow := fun _ => .fin 20
  cost := fun n => match n with | 4 => -10 | _ => 0
  storages := []
  virtuals := []
  aggs := [⟨[1, 3], none, none, .fin 0, .fin 10⟩]
  cross := []
  days := 1

private def chainGraph : Graph := ⟨[(0, 1), (1, 2), (2, 3), (3, 4)], fun _ => 0⟩

private def chainParts : Parts := ⟨2, 5, 6, 7, 8⟩

/-- The routes from inputs to outputs that the route solver finds. -/
private def found (d : Data) (g : Graph) : List (List Nat) :=
  (d.nodes.filter fun n => d.kind n == .input).flatMap fun s => (d.nodes.filter fun n => d.kind n == .output).flatMap fun t => Digraph.allSimplePaths ⟨d.nodes, g.edges⟩ s t none

/-- **C79 fails for the route solver if an aggregated node has members on both sides.** The route solver counts a route once for an aggregated node, however many members it passes; a break link cuts the route in two, and both
halves count. Under a limit of 10 the link lets 10 through and the break link 5. -/
theorem C79_members_fails : Replaces chain chainGraph 0 chainParts ∧
    found chain chainGraph = [[0, 1, 2, 3, 4]] ∧ found (data chain chainParts) (graph chainGraph 0 chainParts) = [[0, 1, 5], [6, 2, 3, 4]] ∧
    RouteFeasible chain [[0, 1, 2, 3, 4]] [10] ∧ RouteFeasible (data chain chainParts) [[0, 1, 5], [6, 2, 3, 4]] [5, 5] ∧
    ∀ x, RouteFeasible (data chain chainParts) [[0, 1, 5], [6, 2, 3, 4]] x → routeNodeFlow (data chain chainParts) [[0, 1, 5], [6, 2, 3, 4]] x 4 ≤ 5 := by
  refine ⟨⟨by decide +kernel, by decide +kernel, by decide +kernel, by decide +kernel, by decide +kernel, by decide +kernel, by decide +kernel, rfl, by decide +kernel,
    by decide +kernel, by decide +kernel, by decide +kernel⟩, by decide +kernel, by decide +kernel, by decide +kernel, by decide +kernel, fun x hx => ?_⟩
  have hth := C79_through chain chainParts (by decide) (by decide +kernel) [[0, 1, 5], [6, 2, 3, 4]] (by decide +kernel) x hx
  rw [routeFeasible_iff] at hx
  obtain ⟨-, hlen, -, h⟩ := hx
  obtain ⟨L, hL, -, hh⟩ := h (aggLine ⟨[1, 3], none, none, .fin 0, .fin 10⟩) (by simp [routeLines, data, chain])
  have hrow : flowRow true (.fin 0) (.fin 10) = .stored ⟨.db, 0, 10⟩ := by decide +kernel
  unfold aggLine limitLine at hL
  dsimp only at hL
  rw [hrow] at hL
  cases hL
  match x, hlen with
  | [a, b], _ =>
    have e1 : routeNodeFlow (data chain chainParts) [[0, 1, 5], [6, 2, 3, 4]] [a, b] 4 = b := by
      simp [routeNodeFlow, data, chain, chainParts, Parts.fresh, eq_comm]
    have e2 : routeNodeFlow (data chain chainParts) [[0, 1, 5], [6, 2, 3, 4]] [a, b] chainParts.output = a := by
      simp [routeNodeFlow, data, chain, chainParts, Parts.fresh, eq_comm]
    have e3 : routeNodeFlow (data chain chainParts) [[0, 1, 5], [6, 2, 3, 4]] [a, b] chainParts.input = b := by
      simp [routeNodeFlow, data, chain, chainParts, Parts.fresh, eq_comm]
    rw [e2, e3] at hth
    rw [e1]
    have := hh
    simp [Line.Holds, Row.Admits, S, lastWeight, AggData.weightList] at this
    linarith [this.2]

/-- A link that leads back to the node it comes from. -/
private def back : Data := { chain with kind := fun n => match n with | 0 => .input | 1 => .link | 2 => .link | 4 => .output | _ => .other, nodes := [0, 1, 2, 4], aggs := [] }

private def backGraph : Graph := ⟨[(0, 1), (1, 2), (2, 1), (1, 4)], fun _ => 0⟩

/-- **C79 fails for the route solver in loops.** A route passes no node twice, so that no route takes a link that leads back, and the route solver refuses the model; the routes of a break link end there and begin anew, and it
lets water go round. -/
theorem C79_loop_fails : Replaces back backGraph 0 chainParts ∧
    found back backGraph = [[0, 1, 4]] ∧ (routeRows back [[0, 1, 4]]).toOption = none ∧
    found (data back chainParts) (graph backGraph 0 chainParts) = [[0, 1, 4], [0, 1, 5], [6, 2, 1, 4], [6, 2, 1, 5]] ∧
    RouteFeasible (data back chainParts) [[0, 1, 4], [0, 1, 5], [6, 2, 1, 4], [6, 2, 1, 5]] [0, 3, 3, 5] ∧
    routeNodeFlow (data back chainParts) [[0, 1, 4], [0, 1, 5], [6, 2, 1, 4], [6, 2, 1, 5]] [0, 3, 3, 5] 2 = 8 := by
  refine ⟨⟨by decide +kernel, by decide +kernel, by decide +kernel, by decide +kernel, by decide +kernel, by decide +kernel, by decide +kernel, rfl, by decide +kernel,
    by decide +kernel, by decide +kernel, by decide +kernel⟩, by decide +kernel, by decide +kernel, by decide +kernel, by decide +kernel, by decide +kernel⟩

end Verif.BreakLink

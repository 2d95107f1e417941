import Verif.Proof.Lp
/-! # Lemmas on the edge problem -/

namespace Verif.Lp

open Verif Verif.Bounds

theorem mem_colsOf {α : Type} {p : α → Bool} {l : List α} {c : Nat} : c ∈ colsOf p l ↔ ∃ h : c < l.length, p l[c] = true := by
  unfold colsOf
  rw [List.mem_filterMap]
  constructor
  · rintro ⟨q, hq, h⟩
    have := List.mem_zipIdx' hq
    by_cases hp : p q.1
    · rw [if_pos hp] at h
      injection h with h
      subst h
      exact ⟨this.1, by rw [← this.2]; exact hp⟩
    · rw [if_neg hp] at h; cases h
  · rintro ⟨h, hp⟩
    refine ⟨(l[c], c), ?_, by simp [hp]⟩
    rw [List.mem_iff_getElem]
    exact ⟨c, by simpa using h, by simp⟩

theorem colsOf_nodup {α : Type} (p : α → Bool) (l : List α) : (colsOf p l).Nodup := by
  have : colsOf p l = ((l.zipIdx.filter fun q => p q.1).map (·.2)) := by
    unfold colsOf
    induction l.zipIdx with
    | nil => rfl
    | cons q qs ih =>
      rw [List.filterMap_cons, List.filter_cons]
      by_cases h : p q.1 <;> simp [h, ih]
  rw [this]
  have h : (l.zipIdx.map (·.2)).Nodup := by simpa [List.zipIdx_map_snd] using List.nodup_range'
  exact h.sublist (List.filter_sublist.map _)

theorem colsOf_eq_nil {α : Type} {p : α → Bool} {l : List α} : colsOf p l = [] ↔ ∀ a ∈ l, p a = false := by
  rw [List.eq_nil_iff_forall_not_mem]
  constructor
  · intro h a ha
    obtain ⟨i, hi, rfl⟩ := List.getElem_of_mem ha
    by_contra hp
    exact h i (mem_colsOf.2 ⟨hi, by simpa using hp⟩)
  · intro h c hc
    obtain ⟨hi, hp⟩ := mem_colsOf.1 hc
    rw [h _ (List.getElem_mem _)] at hp
    cases hp

theorem rowVal_range {α : Type} (x : List Rat) (l : List α) (G : Nat → Option Rat) (G' : α → Option Rat)
    (h : ∀ c (hc : c < l.length), G c = G' l[c]) :
    rowVal x ((List.range l.length).filterMap fun c => (G c).map fun w => (c, w)) = S l x (fun a => (G' a).getD 0) := by
  rw [← rowVal_zipIdx]
  congr 1
  have e : List.range l.length = l.zipIdx.map (·.2) := by simp [List.zipIdx_map_snd, List.range_eq_range']
  rw [e, List.filterMap_map]
  apply List.filterMap_congr
  intro q hq
  have := List.mem_zipIdx' hq
  simp only [Function.comp]
  rw [h q.2 this.1, ← this.2]

theorem sum_range_S {α : Type} (x : List Rat) (l : List α) (G : Nat → Rat) (G' : α → Rat)
    (h : ∀ c (hc : c < l.length), G c = G' l[c]) :
    ((List.range l.length).map fun c => G c * x.getD c 0).sum = S l x G' := by
  have e : List.range l.length = l.zipIdx.map (·.2) := by simp [List.zipIdx_map_snd, List.range_eq_range']
  unfold S
  rw [e, List.map_map]
  congr 1
  apply List.map_congr_left
  intro q hq
  have := List.mem_zipIdx' hq
  simp only [Function.comp]
  rw [h q.2 this.1, ← this.2]

/-- Flow on the edges into / out of a node. -/
def inFlow (g : Graph) (y : List Rat) (n : Nat) : Rat := S g.edges y (fun e => if e.2 = n then 1 else 0)

/-- See `inFlow`. -/
def outFlow (g : Graph) (y : List Rat) (n : Nat) : Rat := S g.edges y (fun e => if e.1 = n then 1 else 0)

theorem mem_inEdges {d : Data} {g : Graph} (h1 : OneDomain d g) {n c : Nat} :
    c ∈ inEdges g n ↔ ∃ h : c < g.edges.length, g.edges[c].2 = n := by
  unfold inEdges
  rw [mem_colsOf]
  constructor
  · rintro ⟨h, hp⟩; simp at hp; exact ⟨h, hp.1⟩
  · rintro ⟨h, hp⟩; exact ⟨h, by simp [hp, (h1 _ (List.getElem_mem h)).1]⟩

theorem mem_outEdges {d : Data} {g : Graph} (h1 : OneDomain d g) {n c : Nat} :
    c ∈ outEdges g n ↔ ∃ h : c < g.edges.length, g.edges[c].1 = n := by
  unfold outEdges
  rw [mem_colsOf]
  constructor
  · rintro ⟨h, hp⟩; simp at hp; exact ⟨h, hp.1⟩
  · rintro ⟨h, hp⟩; exact ⟨h, by simp [hp, ← (h1 _ (List.getElem_mem h)).1]⟩

theorem rowVal_in {d : Data} {g : Graph} (h1 : OneDomain d g) (y : List Rat) (n : Nat) (v : Rat) :
    rowVal y (const v (inEdges g n)) = v * inFlow g y n := by
  unfold inEdges inFlow
  rw [rowVal_const, ← S_mul]
  apply S_congr
  intro e he
  have := (h1 e he).1
  by_cases h : e.2 = n <;> simp [h, this]

theorem rowVal_out {d : Data} {g : Graph} (h1 : OneDomain d g) (y : List Rat) (n : Nat) (v : Rat) :
    rowVal y (const v (outEdges g n)) = v * outFlow g y n := by
  unfold outEdges outFlow
  rw [rowVal_const, ← S_mul]
  apply S_congr
  intro e he
  have := (h1 e he).1
  by_cases h : e.1 = n <;> simp [h, ← this]

/-- An edge counts for the flow of a node. -/
def counts (d : Data) (n : Nat) (e : Nat × Nat) : Bool := if d.kind n = .output then e.2 == n else e.1 == n

/-- Flow through a node: what enters an output, what leaves any other node. -/
def thru (d : Data) (g : Graph) (y : List Rat) (n : Nat) : Rat := S g.edges y (fun e => if counts d n e then 1 else 0)

theorem thru_output {d : Data} {g : Graph} {y : List Rat} {n : Nat} (h : d.kind n = .output) : thru d g y n = inFlow g y n := by
  unfold thru inFlow counts; simp [h]

theorem thru_other {d : Data} {g : Graph} {y : List Rat} {n : Nat} (h : d.kind n ≠ .output) : thru d g y n = outFlow g y n := by
  unfold thru outFlow counts; simp [h]

theorem rowVal_flowEdges {d : Data} {g : Graph} (h1 : OneDomain d g) (y : List Rat) (n : Nat) (v : Rat) :
    rowVal y (const v (flowEdges d g n)) = v * thru d g y n := by
  unfold flowEdges
  by_cases h : d.kind n = .output
  · rw [if_pos h, rowVal_in h1, thru_output h]
  · rw [if_neg h, rowVal_out h1, thru_other h]

theorem mem_flowEdges {d : Data} {g : Graph} (h1 : OneDomain d g) {n c : Nat} (hc : c < g.edges.length) :
    (flowEdges d g n).contains c = counts d n g.edges[c] := by
  rw [Bool.eq_iff_iff, List.contains_iff_mem]
  unfold flowEdges counts
  by_cases h : d.kind n = .output
  · rw [if_pos h, if_pos h, mem_inEdges h1]; simp [hc]
  · rw [if_neg h, if_neg h, mem_outEdges h1]; simp [hc]

/-- Share of the adjacent edges' flow reported for a node. -/
def share (d : Data) (n : Nat) : Rat := if d.kind n = .link then 1 / 2 else 1

theorem edgeNodeFlow_eq (d : Data) (g : Graph) (y : List Rat) (n : Nat) :
    edgeNodeFlow d g y n = share d n * (outFlow g y n + inFlow g y n) := by
  unfold edgeNodeFlow outFlow inFlow
  rw [← S_add, ← S_mul]
  unfold S
  congr 1
  apply List.map_congr_left
  intro q _
  simp only
  by_cases h0 : y.getD q.2 0 = 0
  · rw [if_pos h0, h0]; ring
  · rw [if_neg h0]
    unfold share
    by_cases h1 : q.1.1 = n <;> by_cases h2 : q.1.2 = n <;> by_cases h3 : d.kind n = .link <;>
      simp only [h1, h2, h3, if_true, if_false] <;> ring

theorem edgeRows_parts {d : Data} {g : Graph} {rows : List LpRow} (h : edgeRows d g = .ok rows) :
    (∀ n ∈ d.nonStorages, ∃ row ∈ rows, nodeRowE d g n = .ok row) ∧
    (∀ c ∈ d.cross, ∃ row ∈ rows, crossRowE d g c = .ok row) ∧
    (∀ n ∈ d.nodes, d.kind n = .link → ∃ row ∈ rows, balanceRow g n = .ok row) ∧
    (∀ s ∈ d.storages, ∃ row ∈ rows, storageRowE d g s = .ok row) ∧
    (∀ v ∈ d.virtuals, ∃ row ∈ rows, virtualRowE d g v = .ok row) ∧
    (∀ a ∈ d.aggs, ∃ l, factorRowsE d g a = .ok l ∧ ∀ row ∈ l, row ∈ rows) ∧
    (∀ a ∈ d.aggs, ∃ row ∈ rows, aggRowE d g a = .ok row) := by
  unfold edgeRows at h
  split at h
  · cases h
  · have hc := concat_ok h
    have key : ∀ {α : Type} (f : α → Except Err LpRow) (l : List α), (∃ bs, collect f l = .ok bs ∧ ∀ row ∈ bs, row ∈ rows) →
        ∀ a ∈ l, ∃ row ∈ rows, f a = .ok row := by
      rintro α f l ⟨bs, h1, h2⟩ a ha
      obtain ⟨b, hb, hf⟩ := collect_ok h1 a ha
      exact ⟨b, h2 b hb, hf⟩
    refine ⟨key _ _ (hc _ (by simp)), key _ _ (hc _ (by simp)), ?_, key _ _ (hc _ (by simp)), key _ _ (hc _ (by simp)), ?_,
      key _ _ (hc _ (by simp))⟩
    · intro n hn hk
      exact key _ _ (hc (collect (balanceRow g) (d.nodes.filter fun n => d.kind n == .link)) (by simp)) n
        (by simp [hn, hk])
    intro a ha
    exact hc _ (by simp only [List.mem_append, List.mem_map]; exact .inl (.inr ⟨a, ha, rfl⟩))

theorem nodeRowE_ok {d : Data} {g : Graph} {n : Nat} {row : LpRow} (h : nodeRowE d g n = .ok row) :
    (d.kind n = .input → inEdges g n = []) ∧ (d.kind n = .output → outEdges g n = []) ∧ flowEdges d g n ≠ [] ∧
    row.entries = const 1 (flowEdges d g n) ∧ flowRow true (d.minFlow n) (d.maxFlow n) = .stored row.bounds := by
  unfold nodeRowE at h
  split at h
  · cases h
  · rename_i h1
    split at h
    · cases h
    · rename_i h2
      split at h
      · cases h
      · rename_i h3
        obtain ⟨_, h4, h5⟩ := limitRow_ok h
        refine ⟨fun hk => ?_, fun hk => ?_, h3, h4, h5⟩
        · by_contra hne; exact h1 ⟨hk, hne⟩
        · by_contra hne; exact h2 ⟨hk, hne⟩

theorem inFlow_zero {d : Data} {g : Graph} (h1 : OneDomain d g) {n : Nat} (h : inEdges g n = []) (y : List Rat) : inFlow g y n = 0 := by
  have := rowVal_in h1 y n 1
  rw [h] at this
  simpa [const, rowVal] using this.symm

theorem outFlow_zero {d : Data} {g : Graph} (h1 : OneDomain d g) {n : Nat} (h : outEdges g n = []) (y : List Rat) : outFlow g y n = 0 := by
  have := rowVal_out h1 y n 1
  rw [h] at this
  simpa [const, rowVal] using this.symm

/-- What the rows of an edge problem say about the network. -/
theorem edge_structure {d : Data} {g : Graph} (h1 : OneDomain d g) {y : List Rat} (hy : EdgeFeasible d g y) :
    (∀ n ∈ d.nodes, d.kind n = .input → inFlow g y n = 0) ∧
    (∀ n ∈ d.nodes, d.kind n = .output → outFlow g y n = 0) ∧
    (∀ n ∈ d.nodes, d.kind n = .link → inFlow g y n = outFlow g y n) := by
  obtain ⟨rows, hrows, -, -, hsat⟩ := hy
  obtain ⟨p1, -, p3, -⟩ := edgeRows_parts hrows
  refine ⟨fun n hn hk => ?_, fun n hn hk => ?_, fun n hn hk => ?_⟩
  · obtain ⟨row, -, hr⟩ := p1 n (mem_nonStorages.2 ⟨hn, by rw [hk]; simp⟩)
    exact inFlow_zero h1 ((nodeRowE_ok hr).1 hk) y
  · obtain ⟨row, -, hr⟩ := p1 n (mem_nonStorages.2 ⟨hn, by rw [hk]; simp⟩)
    exact outFlow_zero h1 ((nodeRowE_ok hr).2.1 hk) y
  · obtain ⟨row, hrow, hr⟩ := p3 n hn hk
    obtain ⟨-, he, hb⟩ := zeroRow_ok hr
    have := admits_zero hb (hsat row hrow)
    rw [he, rowVal_append, rowVal_in h1, rowVal_out h1] at this
    linarith

/-- The reported flow is the flow through the node. -/
theorem edgeNodeFlow_thru {d : Data} {g : Graph} (h1 : OneDomain d g) {y : List Rat} (hy : EdgeFeasible d g y) {n : Nat}
    (hn : n ∈ d.nodes) (hk : d.kind n ≠ .other) : edgeNodeFlow d g y n = thru d g y n := by
  obtain ⟨s1, s2, s3⟩ := edge_structure h1 hy
  rw [edgeNodeFlow_eq]
  unfold share
  cases hkn : d.kind n with
  | input => rw [thru_other (by rw [hkn]; simp), s1 n hn hkn]; simp
  | output => rw [thru_output hkn, s2 n hn hkn]; simp
  | link => rw [thru_other (by rw [hkn]; simp), s3 n hn hkn]; simp; ring
  | other => exact absurd hkn hk

theorem edgeFactors_eq {d : Data} {g : Graph} (h1 : OneDomain d g) (v : VirtualData) {c : Nat} (hc : c < g.edges.length) :
    edgeFactors d g v c = ((v.nodes.zip v.factors).filter fun p => counts d p.1 g.edges[c]).map (·.2) := by
  unfold edgeFactors
  congr 1
  apply List.filter_congr
  intro p _
  exact mem_flowEdges h1 hc

theorem rowVal_virtualE {d : Data} {g : Graph} (h1 : OneDomain d g) (v : VirtualData) (y : List Rat) :
    rowVal y ((List.range g.edges.length).filterMap fun c =>
      if edgeFactors d g v c = [] then none else some (c, -(edgeFactors d g v c).sum)) =
    -((v.nodes.zip v.factors).map fun p => p.2 * thru d g y p.1).sum := by
  have h := rowVal_range y g.edges (fun c => if edgeFactors d g v c = [] then none else some (-(edgeFactors d g v c).sum))
    (fun e => let l := ((v.nodes.zip v.factors).filter fun p => counts d p.1 e).map (·.2); if l = [] then none else some (-l.sum))
    (by intro c hc; rw [edgeFactors_eq h1 v hc])
  have e : ∀ c, ((if edgeFactors d g v c = [] then none else some (-(edgeFactors d g v c).sum)).map fun w => (c, w)) =
      if edgeFactors d g v c = [] then none else some (c, -(edgeFactors d g v c).sum) := by
    intro c; split_ifs <;> rfl
  simp only [e] at h
  rw [h]
  have e2 : S g.edges y (fun a => (if ((v.nodes.zip v.factors).filter fun p => counts d p.1 a).map (·.2) = [] then none
      else some (-(((v.nodes.zip v.factors).filter fun p => counts d p.1 a).map (·.2)).sum)).getD 0) =
      S g.edges y (fun a => -((v.nodes.zip v.factors).map fun p => if counts d p.1 a then p.2 else 0).sum) := by
    apply S_congr
    intro a _
    rw [← sum_map_filter (v.nodes.zip v.factors) (fun p : Nat × Rat => counts d p.1 a) (fun p => p.2)]
    split_ifs with h
    · rw [h]; simp
    · rfl
  rw [e2, S_neg, S_sum]
  congr 2
  apply List.map_congr_left
  intro p _
  unfold thru
  rw [← S_mul]
  apply S_congr
  intro e _
  split_ifs <;> simp

theorem rowVal_aggE {d : Data} {g : Graph} (h1 : OneDomain d g) (a : AggData) (y : List Rat)
    (hone : ∀ e ∈ g.edges, ((a.nodes.zip a.weightList).filter fun p => counts d p.1 e).length ≤ 1) :
    rowVal y ((List.range g.edges.length).filterMap fun c =>
      (lastWeight a fun n => (flowEdges d g n).contains c).map fun w => (c, w)) =
    ((a.nodes.zip a.weightList).map fun p => thru d g y p.1 * p.2).sum := by
  rw [rowVal_range y g.edges (fun c => lastWeight a fun n => (flowEdges d g n).contains c)
    (fun e => lastWeight a fun n => counts d n e) (by
      intro c hc; congr 1; funext n; exact mem_flowEdges h1 hc)]
  rw [S_congr (fun e he => lastWeight_sum a (fun n => counts d n e) (hone e he)), S_sum]
  congr 1
  apply List.map_congr_left
  intro p _
  unfold thru
  rw [mul_comm, ← S_mul]
  apply S_congr
  intro e _
  split_ifs <;> simp

theorem edgeCost_eq {d : Data} {g : Graph} (h1 : OneDomain d g) {c : Nat} (hc : c < g.edges.length) :
    edgeCost d g c = (d.nodes.map fun n => share d n * d.cost n *
      ((if g.edges[c].2 = n then 1 else 0) + (if g.edges[c].1 = n then 1 else 0))).sum := by
  unfold edgeCost
  congr 1
  apply List.map_congr_left
  intro n _
  simp only
  have key : ∀ (l : List Nat) (v : Rat), l.Nodup → ((l.filter fun k => k == c).map fun _ => v).sum = if c ∈ l then v else 0 := by
    intro l v hl
    rw [sum_map_filter, ← sum_eq_ite hl]
    congr 1
    apply List.map_congr_left
    intro k _
    by_cases h : k = c
    · simp [h]
    · simp [h, Ne.symm h]
  have hi : (inEdges g n).Nodup := colsOf_nodup _ _
  have ho : (outEdges g n).Nodup := colsOf_nodup _ _
  rw [key _ _ hi, key _ _ ho]
  have e1 : c ∈ inEdges g n ↔ g.edges[c].2 = n := by rw [mem_inEdges h1]; simp [hc]
  have e2 : c ∈ outEdges g n ↔ g.edges[c].1 = n := by rw [mem_outEdges h1]; simp [hc]
  simp only [e1, e2]
  unfold share
  split_ifs <;> ring

end Verif.Lp

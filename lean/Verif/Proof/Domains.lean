import Verif.Spec.Domains
import Verif.Proof.BreakLink
import Mathlib.Data.List.Induction
import Mathlib.Data.List.GetD
/-! # The edge problem of a model with several domains is the edge problem without the edges between domains -/

namespace Verif.Lp

open Verif Verif.Bounds Verif.BreakLink

theorem colsOf_snoc {α : Type} (p : α → Bool) (l : List α) (e : α) : colsOf p (l ++ [e]) = colsOf p l ++ if p e then [l.length] else [] := by
  have := colsOf_map_snoc p id l e
  simpa using this

theorem colsOf_length {α : Type} (p : α → Bool) (l : List α) : (colsOf p l).length = (l.filter p).length := by
  induction l using List.reverseRecOn with
  | nil => rfl
  | append_singleton l e ih =>
    rw [colsOf_snoc, List.filter_append, List.length_append, List.length_append, ih]
    by_cases h : p e <;> simp [h]

theorem colsOf_and {α : Type} (p q : α → Bool) (l : List α) :
    colsOf (fun a => p a && q a) l = (colsOf p (l.filter q)).map fun k => (colsOf q l).getD k 0 := by
  induction l using List.reverseRecOn with
  | nil => rfl
  | append_singleton l e ih =>
    rw [colsOf_snoc, List.filter_append, colsOf_snoc q, ih]
    by_cases hq : q e
    · have hf : List.filter q [e] = [e] := by simp [hq]
      rw [hf, colsOf_snoc, List.map_append]
      congr 1
      · apply List.map_congr_left
        intro k hk
        have hlt : k < (colsOf q l).length := by rw [colsOf_length]; exact (mem_colsOf.1 hk).1
        rw [List.getD_eq_getElem?_getD, List.getD_eq_getElem?_getD, List.getElem?_append_left hlt]
      · by_cases hp : p e
        · simp [hp, hq, ← colsOf_length]
        · simp [hp]
    · have hf : List.filter q [e] = [] := by simp [hq]
      rw [hf, List.append_nil]
      simp [hq]

/-- The edge lies inside a domain. -/
def inside (g : Graph) (e : Nat × Nat) : Bool := g.domain e.1 == g.domain e.2

/-- The edges inside the domains. -/
def inner (g : Graph) : Graph := ⟨g.edges.filter (inside g), g.domain⟩

/-- Their columns. -/
def innerCols (g : Graph) : List Nat := colsOf (inside g) g.edges

/-- The column of the `k`-th of them. -/
def ren (g : Graph) (k : Nat) : Nat := (innerCols g).getD k 0

/-- Their values. -/
def innerVals (g : Graph) (y : List Rat) : List Rat := (innerCols g).map fun c => y.getD c 0

/-- Rename the columns of a row. -/
def renE (g : Graph) (e : Entries) : Entries := e.map fun q => (ren g q.1, q.2)

theorem innerCols_length (g : Graph) : (innerCols g).length = (inner g).edges.length := colsOf_length _ _

theorem inEdges_inner (g : Graph) (n : Nat) : inEdges g n = (inEdges (inner g) n).map (ren g) := by
  have : inEdges (inner g) n = colsOf (fun e => e.2 == n) (g.edges.filter (inside g)) := by
    unfold inEdges
    apply colsOf_congr
    intro e he
    have := (List.mem_filter.1 he).2
    unfold inside at this
    show ((e.2 == n) && (g.domain e.1 == g.domain e.2)) = _
    rw [this, Bool.and_true]
  rw [this]
  exact colsOf_and (fun e => e.2 == n) (inside g) g.edges

theorem outEdges_inner (g : Graph) (n : Nat) : outEdges g n = (outEdges (inner g) n).map (ren g) := by
  have : outEdges (inner g) n = colsOf (fun e => e.1 == n) (g.edges.filter (inside g)) := by
    unfold outEdges
    apply colsOf_congr
    intro e he
    have := (List.mem_filter.1 he).2
    unfold inside at this
    show ((e.1 == n) && (g.domain e.1 == g.domain e.2)) = _
    rw [this, Bool.and_true]
  rw [this]
  exact colsOf_and (fun e => e.1 == n) (inside g) g.edges

theorem flowEdges_inner (d : Data) (g : Graph) (n : Nat) : flowEdges d g n = (flowEdges d (inner g) n).map (ren g) := by
  unfold flowEdges
  rw [inEdges_inner, outEdges_inner]
  split_ifs <;> rfl

theorem const_map (g : Graph) (v : Rat) (l : List Nat) : const v (l.map (ren g)) = renE g (const v l) := by
  simp [const, renE]

theorem renE_append (g : Graph) (a b : Entries) : renE g (a ++ b) = renE g a ++ renE g b := by simp [renE]

/-- All columns of a row are columns of the problem. -/
def Fits (m : Nat) (e : Entries) : Prop := ∀ q ∈ e, q.1 < m

theorem ren_inj {g : Graph} {k k' : Nat} (h : k < (inner g).edges.length) (h' : k' < (inner g).edges.length) (e : ren g k = ren g k') : k = k' := by
  rw [← innerCols_length] at h h'
  unfold ren at e
  rw [List.getD_eq_getElem _ _ h, List.getD_eq_getElem _ _ h'] at e
  exact (List.Nodup.getElem_inj_iff (colsOf_nodup _ _)).1 e

theorem nodup_renE {g : Graph} {e : Entries} (h : Fits (inner g).edges.length e) : ((renE g e).map (·.1)).Nodup ↔ (e.map (·.1)).Nodup := by
  have : (renE g e).map (·.1) = (e.map (·.1)).map (ren g) := by simp [renE]
  rw [this]
  constructor
  · exact List.Nodup.of_map _
  · intro hn
    refine List.Nodup.map_on ?_ hn
    intro a ha b hb hab
    obtain ⟨q, hq, rfl⟩ := List.mem_map.1 ha
    obtain ⟨q', hq', rfl⟩ := List.mem_map.1 hb
    exact ren_inj (h q hq) (h q' hq') hab

theorem rowVal_renE {g : Graph} {e : Entries} (h : Fits (inner g).edges.length e) (y : List Rat) :
    rowVal y (renE g e) = rowVal (innerVals g y) e := by
  unfold rowVal renE
  rw [List.map_map]
  congr 1
  apply List.map_congr_left
  intro q hq
  have hlt := h q hq
  rw [← innerCols_length] at hlt
  simp only [Function.comp, ren, innerVals]
  rw [List.getD_eq_getElem _ _ hlt]
  rw [List.getD_eq_getElem (l := (innerCols g).map _) (hn := by simpa using hlt)]
  simp

theorem set_renE {g : Graph} {e : Entries} (h : Fits (inner g).edges.length e) :
    setMatRow (renE g e) = match setMatRow e with | .ok e => .ok (renE g e) | .error x => .error x := by
  unfold setMatRow
  by_cases c0 : e = []
  · rw [if_pos c0, if_pos (by rw [c0]; rfl)]
  rw [if_neg c0, if_neg (fun c' => c0 (by simpa [renE] using c'))]
  by_cases c : (e.map (·.1)).Nodup
  · rw [if_pos c, if_pos ((nodup_renE h).2 c)]
  · rw [if_neg c, if_neg (fun c' => c ((nodup_renE h).1 c'))]

/-- The row is set up and, if `P`, satisfied. -/
def HoldsP (P : Prop) (r : Except Err LpRow) (y : List Rat) : Prop := ∃ row, r = .ok row ∧ (P → row.bounds.Admits (rowVal y row.entries))

theorem holdsP_true {r : Except Err LpRow} {y : List Rat} : Holds r y ↔ HoldsP True r y := by simp [Holds, HoldsP]

theorem limit_renE {P : Prop} {g : Graph} {e : Entries} (h : Fits (inner g).edges.length e) (a b : F) (y : List Rat) :
    HoldsP P (limitRow (renE g e) a b) y ↔ HoldsP P (limitRow e a b) (innerVals g y) := by
  unfold HoldsP limitRow
  rw [set_renE h]
  unfold setMatRow
  by_cases c0 : e = []
  · simp [c0]
  by_cases c : (e.map (·.1)).Nodup
  · simp only [c0, c, if_true, if_false]
    cases flowRow true a b with
    | stored r => simp [rowVal_renE h]
    | _ => simp
  · simp [c0, c]

theorem bound_renE {P : Prop} {g : Graph} {e : Entries} (h : Fits (inner g).edges.length e) (r : Row) (y : List Rat) :
    HoldsP P (boundRow (renE g e) r) y ↔ HoldsP P (boundRow e r) (innerVals g y) := by
  unfold HoldsP boundRow
  rw [set_renE h]
  unfold setMatRow
  by_cases c0 : e = []
  · simp [c0]
  by_cases c : (e.map (·.1)).Nodup
  · simp [c0, c, rowVal_renE h]
  · simp [c0, c]

theorem zero_renE {P : Prop} {g : Graph} {e : Entries} (h : Fits (inner g).edges.length e) (y : List Rat) :
    HoldsP P (zeroRow (renE g e)) y ↔ HoldsP P (zeroRow e) (innerVals g y) := bound_renE h _ y

theorem fits_const {m : Nat} {v : Rat} {l : List Nat} (h : ∀ c ∈ l, c < m) : Fits m (const v l) := cols_const h

theorem fits_append {m : Nat} {a b : Entries} (ha : Fits m a) (hb : Fits m b) : Fits m (a ++ b) := by
  intro q hq
  rcases List.mem_append.1 hq with h | h
  · exact ha q h
  · exact hb q h

theorem in_fits (g : Graph) (n : Nat) : ∀ c ∈ inEdges g n, c < g.edges.length := fun _ hc => (mem_colsOf.1 hc).1

theorem out_fits (g : Graph) (n : Nat) : ∀ c ∈ outEdges g n, c < g.edges.length := fun _ hc => (mem_colsOf.1 hc).1

theorem flow_fits (d : Data) (g : Graph) (n : Nat) : ∀ c ∈ flowEdges d g n, c < g.edges.length := by
  unfold flowEdges
  split_ifs
  · exact in_fits g n
  · exact out_fits g n

/-! ### Rows -/

theorem node_inner (P : Prop) (d : Data) (g : Graph) (n : Nat) (y : List Rat) : HoldsP P (nodeRowE d g n) y ↔ HoldsP P (nodeRowE d (inner g) n) (innerVals g y) := by
  unfold nodeRowE
  have e1 : (inEdges g n ≠ []) ↔ inEdges (inner g) n ≠ [] := by rw [inEdges_inner]; simp
  have e2 : (outEdges g n ≠ []) ↔ outEdges (inner g) n ≠ [] := by rw [outEdges_inner]; simp
  have e3 : (flowEdges d g n = []) ↔ flowEdges d (inner g) n = [] := by rw [flowEdges_inner]; simp
  simp only [e1, e2, e3]
  split_ifs
  · simp [HoldsP]
  · simp [HoldsP]
  · simp [HoldsP]
  · rw [flowEdges_inner, const_map]
    exact limit_renE (fits_const (flow_fits d _ n)) _ _ y

theorem cross_inner (P : Prop) (d : Data) (g : Graph) (c : Nat × List (Nat × Rat)) (y : List Rat) :
    HoldsP P (crossRowE d g c) y ↔ HoldsP P (crossRowE d (inner g) c) (innerVals g y) := by
  unfold crossRowE
  split_ifs
  · simp [HoldsP]
  · have e : (const (-1) (flowEdges d g c.1) ++ c.2.flatMap fun i => const (1 / i.2) (outEdges g i.1)) =
        renE g (const (-1) (flowEdges d (inner g) c.1) ++ c.2.flatMap fun i => const (1 / i.2) (outEdges (inner g) i.1)) := by
      rw [renE_append, flowEdges_inner, const_map]
      congr 1
      unfold renE
      rw [List.map_flatMap]
      apply List.flatMap_congr
      intro i _
      rw [outEdges_inner, const_map]
      rfl
    rw [e]
    refine zero_renE (fits_append (fits_const (flow_fits d _ _)) ?_) y
    intro q hq
    obtain ⟨i, -, hi⟩ := List.mem_flatMap.1 hq
    exact fits_const (out_fits _ _) q hi

theorem balance_inner (P : Prop) (g : Graph) (n : Nat) (y : List Rat) : HoldsP P (balanceRow g n) y ↔ HoldsP P (balanceRow (inner g) n) (innerVals g y) := by
  unfold balanceRow
  rw [inEdges_inner, outEdges_inner, const_map, const_map, ← renE_append]
  exact zero_renE (fits_append (fits_const (in_fits _ _)) (fits_const (out_fits _ _))) y

theorem storage_inner (P : Prop) (d : Data) (g : Graph) (s : StorageData) (y : List Rat) :
    HoldsP P (storageRowE d g s) y ↔ HoldsP P (storageRowE d (inner g) s) (innerVals g y) := by
  unfold storageRowE
  have e1 : s.outputs.flatMap (inEdges g) = (s.outputs.flatMap (inEdges (inner g))).map (ren g) := by
    rw [List.map_flatMap]
    exact List.flatMap_congr fun n _ => inEdges_inner g n
  have e2 : s.inputs.flatMap (outEdges g) = (s.inputs.flatMap (outEdges (inner g))).map (ren g) := by
    rw [List.map_flatMap]
    exact List.flatMap_congr fun n _ => outEdges_inner g n
  rw [e1, e2, const_map, const_map, ← renE_append]
  refine bound_renE (fits_append (fits_const ?_) (fits_const ?_)) _ y
  · intro c hc
    obtain ⟨n, -, hn⟩ := List.mem_flatMap.1 hc
    exact in_fits _ _ c hn
  · intro c hc
    obtain ⟨n, -, hn⟩ := List.mem_flatMap.1 hc
    exact out_fits _ _ c hn

theorem innerCols_filter (g : Graph) : innerCols g = (List.range g.edges.length).filter fun c => (innerCols g).contains c := by
  have key : ∀ (l : List (Nat × Nat)), colsOf (inside g) l = (List.range l.length).filter fun c => (colsOf (inside g) l).contains c := by
    intro l
    induction l using List.reverseRecOn with
    | nil => rfl
    | append_singleton l e ih =>
      rw [List.length_append, List.length_singleton, List.range_succ, List.filter_append, colsOf_snoc]
      have h1 : ∀ (t : List Nat), (∀ x ∈ t, x = l.length) →
          ((List.range l.length).filter fun c => (colsOf (inside g) l ++ t).contains c) = colsOf (inside g) l := by
        intro t ht
        conv => rhs; rw [ih]
        apply List.filter_congr
        intro c hc
        rw [Bool.eq_iff_iff, List.contains_iff_mem, List.contains_iff_mem, List.mem_append]
        refine ⟨fun h => h.elim id fun h => ?_, Or.inl⟩
        have := ht c h
        have := List.mem_range.1 hc
        omega
      have h2 : l.length ∉ colsOf (inside g) l := fun h => absurd (mem_colsOf.1 h).1 (lt_irrefl _)
      by_cases he : inside g e
      · rw [if_pos he, h1 _ (by simp)]
        simp
      · rw [if_neg he, h1 _ (by simp)]
        simp [h2]
  exact key g.edges

theorem innerCols_range (g : Graph) : innerCols g = (List.range (inner g).edges.length).map (ren g) := by
  rw [← innerCols_length]
  apply List.ext_getElem
  · simp
  · intro i h1 h2
    simp [ren, List.getElem?_eq_getElem h1]

/-- Entries given by a function of the column that is defined on columns inside domains only. -/
theorem entries_inner (g : Graph) (G G' : Nat → Option Rat) (hnone : ∀ c, c < g.edges.length → c ∉ innerCols g → G c = none)
    (heq : ∀ k < (inner g).edges.length, G (ren g k) = G' k) :
    ((List.range g.edges.length).filterMap fun c => (G c).map fun w => (c, w)) =
      renE g ((List.range (inner g).edges.length).filterMap fun k => (G' k).map fun w => (k, w)) := by
  have h1 : ((List.range g.edges.length).filterMap fun c => (G c).map fun w => (c, w)) =
      ((List.range g.edges.length).filter fun c => (innerCols g).contains c).filterMap fun c => (G c).map fun w => (c, w) := by
    rw [List.filterMap_filter]
    apply List.filterMap_congr
    intro c hc
    by_cases h : c ∈ innerCols g
    · simp [h]
    · rw [hnone c (List.mem_range.1 hc) h]; simp
  rw [h1, ← innerCols_filter, innerCols_range, List.filterMap_map]
  unfold renE
  rw [List.map_filterMap]
  apply List.filterMap_congr
  intro k hk
  simp only [Function.comp]
  rw [heq k (List.mem_range.1 hk)]
  cases G' k <;> rfl

theorem mem_flow_ren {d : Data} {g : Graph} {n k : Nat} (hk : k < (inner g).edges.length) :
    (flowEdges d g n).contains (ren g k) = (flowEdges d (inner g) n).contains k := by
  rw [Bool.eq_iff_iff, List.contains_iff_mem, List.contains_iff_mem, flowEdges_inner, List.mem_map]
  constructor
  · rintro ⟨k', h', e⟩
    rwa [← ren_inj (flow_fits d _ n _ h') hk e]
  · intro h; exact ⟨k, h, rfl⟩

theorem flow_sub {d : Data} {g : Graph} {n c : Nat} (h : c ∈ flowEdges d g n) : c ∈ innerCols g := by
  rw [flowEdges_inner] at h
  obtain ⟨k, hk, rfl⟩ := List.mem_map.1 h
  rw [innerCols_range]
  exact List.mem_map.2 ⟨k, List.mem_range.2 (flow_fits d _ n _ hk), rfl⟩

theorem fits_range (m : Nat) (G : Nat → Option Rat) : Fits m ((List.range m).filterMap fun k => (G k).map fun w => (k, w)) := by
  intro q hq
  obtain ⟨k, hk, h⟩ := List.mem_filterMap.1 hq
  obtain ⟨w, -, rfl⟩ := Option.map_eq_some_iff.1 h
  exact List.mem_range.1 hk

theorem virtual_inner (P : Prop) (d : Data) (g : Graph) (v : VirtualData) (y : List Rat) :
    HoldsP P (virtualRowE d g v) y ↔ HoldsP P (virtualRowE d (inner g) v) (innerVals g y) := by
  have e : ∀ (g : Graph) c, (if edgeFactors d g v c = [] then none else some (c, -(edgeFactors d g v c).sum)) =
      ((if edgeFactors d g v c = [] then none else some (-(edgeFactors d g v c).sum)).map fun w => (c, w)) := by
    intro g c; split_ifs <;> rfl
  unfold virtualRowE
  simp only [e]
  rw [entries_inner g _ (fun k => if edgeFactors d (inner g) v k = [] then none else some (-(edgeFactors d (inner g) v k).sum))]
  · exact bound_renE (fits_range _ _) _ y
  · intro c _ hc
    rw [if_pos]
    unfold edgeFactors
    rw [List.map_eq_nil_iff, List.filter_eq_nil_iff]
    intro q _ h
    exact hc (flow_sub (List.contains_iff_mem.1 h))
  · intro k hk
    have : edgeFactors d g v (ren g k) = edgeFactors d (inner g) v k := by
      unfold edgeFactors
      congr 1
      apply List.filter_congr
      intro q _
      exact mem_flow_ren hk
    rw [this]

theorem agg_inner (P : Prop) (d : Data) (g : Graph) (a : AggData) (y : List Rat) :
    HoldsP P (aggRowE d g a) y ↔ HoldsP P (aggRowE d (inner g) a) (innerVals g y) := by
  unfold aggRowE
  rw [entries_inner g _ (fun k => lastWeight a fun n => (flowEdges d (inner g) n).contains k)]
  · exact limit_renE (fits_range _ _) _ _ y
  · intro c _ hc
    unfold lastWeight
    rw [List.filter_eq_nil_iff.2]
    · rfl
    intro q _ h
    exact hc (flow_sub (List.contains_iff_mem.1 h))
  · intro k hk
    congr 1
    funext n
    exact mem_flow_ren hk

theorem collect_holds (P : Prop) {α : Type} (f : α → Except Err LpRow) (l : List α) (y : List Rat) :
    (∃ rows, collect f l = .ok rows ∧ ∀ row ∈ rows, P → row.bounds.Admits (rowVal y row.entries)) ↔ ∀ a ∈ l, HoldsP P (f a) y := by
  constructor
  · rintro ⟨rows, h, hA⟩ a ha
    obtain ⟨b, hb, hf⟩ := collect_ok h a ha
    exact ⟨b, hf, hA b hb⟩
  · intro h
    obtain ⟨rows, hr⟩ := collect_total (f := f) (l := l) fun a ha => by obtain ⟨row, e, -⟩ := h a ha; exact ⟨row, e⟩
    refine ⟨rows, hr, fun row hm => ?_⟩
    obtain ⟨a, ha, e⟩ := collect_mem hr row hm
    obtain ⟨row', e', hA⟩ := h a ha
    rw [e] at e'
    cases e'
    exact hA

theorem factor_inner (P : Prop) (d : Data) (g : Graph) (a : AggData) (y : List Rat) :
    (∃ l, factorRowsE d g a = .ok l ∧ ∀ row ∈ l, P → row.bounds.Admits (rowVal y row.entries)) ↔
    ∃ l, factorRowsE d (inner g) a = .ok l ∧ ∀ row ∈ l, P → row.bounds.Admits (rowVal (innerVals g y) row.entries) := by
  unfold factorRowsE
  cases a.factors with
  | none => simp
  | some fs =>
    simp only
    cases a.nodes with
    | nil => simp
    | cons n0 rest =>
      simp only
      by_cases hrest : rest = []
      · simp [hrest]
      simp only [if_neg hrest]
      cases factorsNorm fs with
      | error e => simp
      | ok norm =>
        simp only
        rw [collect_holds, collect_holds]
        apply forall_congr'; intro q
        apply forall_congr'; intro _
        rw [flowEdges_inner d g, flowEdges_inner d g, const_map, const_map, ← renE_append]
        exact zero_renE (fits_append (fits_const (flow_fits d _ _)) (fits_const (flow_fits d _ _))) y

/-- The problem of the whole graph is the problem of the edges inside domains. -/
theorem feasible_inner (d : Data) (g : Graph) (y : List Rat) :
    EdgeFeasible d g y ↔ EdgeFeasible d (inner g) (innerVals g y) ∧ y.length = g.edges.length ∧ ∀ v ∈ y, 0 ≤ v := by
  have fac := fun a => factor_inner True d g a y
  simp only [true_implies] at fac
  rw [feasible_iff, feasible_iff]
  simp only [holdsP_true, node_inner True d g, cross_inner True d g, balance_inner True g, storage_inner True d g, virtual_inner True d g, fac, agg_inner True d g]
  constructor
  · rintro ⟨⟨a1, a2, a3⟩, hl, hp, h1, h2, h3, h4, h5, h6, h7⟩
    refine ⟨⟨⟨a1, ?_, a3⟩, by simp [innerVals, innerCols_length], ?_, h1, h2, h3, h4, h5, h6, h7⟩, hl, hp⟩
    · obtain ⟨n, hn⟩ := List.exists_mem_of_ne_nil _ a3
      obtain ⟨row, hr, -⟩ := h1 n hn
      have := (nodeRowE_ok hr).2.2.1
      obtain ⟨c, hc⟩ := List.exists_mem_of_ne_nil _ this
      have := flow_fits d _ n c hc
      intro e
      rw [e] at this
      simp at this
    · intro v hv
      obtain ⟨c, -, rfl⟩ := List.mem_map.1 hv
      exact getD_nonneg hp c
  · rintro ⟨⟨⟨a1, a2, a3⟩, -, -, h1, h2, h3, h4, h5, h6, h7⟩, hl, hp⟩
    refine ⟨⟨a1, ?_, a3⟩, hl, hp, h1, h2, h3, h4, h5, h6, h7⟩
    intro e
    apply a2
    simp [inner, e]

/-- Whether an edge problem can be set up, row by row. -/
theorem setup_iff (d : Data) (g : Graph) : (∃ rows, edgeRows d g = .ok rows) ↔
    (d.nodes ≠ [] ∧ g.edges ≠ [] ∧ d.nonStorages ≠ []) ∧
    (∀ n ∈ d.nonStorages, HoldsP False (nodeRowE d g n) []) ∧ (∀ c ∈ d.cross, HoldsP False (crossRowE d g c) []) ∧
    (∀ n ∈ d.nodes, d.kind n = .link → HoldsP False (balanceRow g n) []) ∧ (∀ s ∈ d.storages, HoldsP False (storageRowE d g s) []) ∧
    (∀ v ∈ d.virtuals, HoldsP False (virtualRowE d g v) []) ∧
    (∀ a ∈ d.aggs, ∃ l, factorRowsE d g a = .ok l ∧ ∀ row ∈ l, False → row.bounds.Admits (rowVal [] row.entries)) ∧
    (∀ a ∈ d.aggs, HoldsP False (aggRowE d g a) []) := by
  constructor
  · rintro ⟨rows, hrows⟩
    obtain ⟨h1, h2, h3, h4, h5, h6, h7⟩ := edgeRows_parts hrows
    have h0 : d.nodes ≠ [] ∧ g.edges ≠ [] ∧ d.nonStorages ≠ [] := by
      unfold edgeRows at hrows
      split at hrows
      · cases hrows
      · rename_i hc
        simpa only [not_or] using hc
    have key : ∀ {r : Except Err LpRow}, (∃ row ∈ rows, r = .ok row) → HoldsP False r [] := by
      rintro r ⟨row, hm, rfl⟩
      exact ⟨row, rfl, nofun⟩
    refine ⟨h0, fun n hn => key (h1 n hn), fun c hc => key (h2 c hc), fun n hn hk => key (h3 n hn hk), fun s hs => key (h4 s hs),
      fun v hv => key (h5 v hv), fun a ha => ?_, fun a ha => key (h7 a ha)⟩
    obtain ⟨l, e, -⟩ := h6 a ha
    exact ⟨l, e, fun _ _ => nofun⟩
  · rintro ⟨h0, h1, h2, h3, h4, h5, h6, h7⟩
    have tot : ∀ {α : Type} (f : α → Except Err LpRow) (l : List α), (∀ a ∈ l, HoldsP False (f a) []) → ∃ bs, collect f l = .ok bs := by
      intro α f l hl
      exact collect_total fun a ha => by obtain ⟨row, e, -⟩ := hl a ha; exact ⟨row, e⟩
    have h3' : ∀ n ∈ d.nodes.filter fun n => d.kind n == .link, HoldsP False (balanceRow g n) [] := by
      intro n hn
      obtain ⟨a, b⟩ := List.mem_filter.1 hn
      exact h3 n a (by simpa using b)
    have hgood : ∀ r ∈ ([collect (nodeRowE d g) d.nonStorages, collect (crossRowE d g) d.cross,
        collect (balanceRow g) (d.nodes.filter fun n => d.kind n == .link), collect (storageRowE d g) d.storages,
        collect (virtualRowE d g) d.virtuals] ++ d.aggs.map (factorRowsE d g) ++ [collect (aggRowE d g) d.aggs]),
        ∃ l, r = .ok l := by
      intro r hr
      simp only [List.mem_append, List.mem_cons, List.not_mem_nil, or_false, List.mem_map] at hr
      rcases hr with ((rfl | rfl | rfl | rfl | rfl) | ⟨a, ha, rfl⟩) | rfl
      · exact tot _ _ h1
      · exact tot _ _ h2
      · exact tot _ _ h3'
      · exact tot _ _ h4
      · exact tot _ _ h5
      · obtain ⟨l, e, -⟩ := h6 a ha; exact ⟨l, e⟩
      · exact tot _ _ h7
    obtain ⟨rows, hrows⟩ := concat_total hgood
    refine ⟨rows, ?_⟩
    unfold edgeRows
    rw [if_neg (by simpa only [not_or] using h0)]
    exact hrows

/-- The problem of the whole graph can be set up exactly if that of the edges inside domains can. -/
theorem setup_inner (d : Data) (g : Graph) : (∃ rows, edgeRows d g = .ok rows) ↔ ∃ rows, edgeRows d (inner g) = .ok rows := by
  have nil : ∀ {r : Except Err LpRow} {y z : List Rat}, HoldsP False r y ↔ HoldsP False r z := by intro r y z; simp [HoldsP]
  have fac : ∀ a, (∃ l, factorRowsE d g a = .ok l ∧ ∀ row ∈ l, False → row.bounds.Admits (rowVal [] row.entries)) ↔
      ∃ l, factorRowsE d (inner g) a = .ok l ∧ ∀ row ∈ l, False → row.bounds.Admits (rowVal [] row.entries) := by
    intro a
    rw [factor_inner False d g a []]
    simp
  rw [setup_iff, setup_iff]
  simp only [node_inner False d g, cross_inner False d g, balance_inner False g, storage_inner False d g, virtual_inner False d g, fac, agg_inner False d g]
  simp only [nil (y := innerVals g []) (z := [])]
  constructor
  · rintro ⟨⟨a1, a2, a3⟩, h1, h⟩
    refine ⟨⟨a1, ?_, a3⟩, h1, h⟩
    obtain ⟨n, hn⟩ := List.exists_mem_of_ne_nil _ a3
    obtain ⟨row, hr, -⟩ := h1 n hn
    have := (nodeRowE_ok hr).2.2.1
    obtain ⟨c, hc⟩ := List.exists_mem_of_ne_nil _ this
    have := flow_fits d _ n c hc
    intro e
    rw [e] at this
    simp at this
  · rintro ⟨⟨a1, a2, a3⟩, h⟩
    refine ⟨⟨a1, ?_, a3⟩, h⟩
    intro e
    apply a2
    simp [inner, e]

/-! ### Sums over columns -/

theorem S_inner {g : Graph} (y : List Rat) (f : Nat × Nat → Rat)
    (h : ∀ c, (hc : c < g.edges.length) → inside g g.edges[c] = false → f g.edges[c] * y.getD c 0 = 0) :
    S g.edges y f = S (inner g).edges (innerVals g y) f := by
  have key : ∀ (l : List (Nat × Nat)), (∀ c, (hc : c < l.length) → inside g l[c] = false → f l[c] * y.getD c 0 = 0) →
      S l y f = S (l.filter (inside g)) ((colsOf (inside g) l).map fun c => y.getD c 0) f := by
    intro l
    have snoc : ∀ (l : List (Nat × Nat)) (e : Nat × Nat) (z : List Rat), S (l ++ [e]) z f = S l z f + f e * z.getD l.length 0 := by
      intro l e z
      unfold S
      rw [List.zipIdx_append, List.map_append, List.sum_append]
      simp
    induction l using List.reverseRecOn with
    | nil => intro _; rfl
    | append_singleton l e ih =>
      intro hl
      have hl' : ∀ c, (hc : c < l.length) → inside g l[c] = false → f l[c] * y.getD c 0 = 0 := by
        intro c hc hin
        have := hl c (by simp; omega)
        simp only [List.getElem_append_left hc] at this
        exact this hin
      rw [snoc, ih hl', List.filter_append, colsOf_snoc]
      by_cases he : inside g e
      · have hf : List.filter (inside g) [e] = [e] := by simp [he]
        rw [hf, snoc, if_pos he, List.map_append]
        have hlen : ((colsOf (inside g) l).map fun c => y.getD c 0).length = (l.filter (inside g)).length := by
          rw [List.length_map, colsOf_length]
        congr 1
        · unfold S
          congr 1
          apply List.map_congr_left
          intro q hq
          have := List.mem_zipIdx' hq
          rw [List.getD_eq_getElem?_getD (i := q.2) (l := _ ++ _), List.getElem?_append_left (by rw [hlen]; exact this.1), ← List.getD_eq_getElem?_getD]
        · congr 1
          rw [List.getD_eq_getElem?_getD (l := _ ++ _), List.getElem?_append_right (by rw [hlen])]
          rw [hlen]; simp
      · have hf : List.filter (inside g) [e] = [] := by simp [he]
        rw [hf, if_neg he, List.append_nil, List.append_nil]
        have := hl l.length (by simp)
        simp only [List.getElem_concat_length] at this
        rw [this (by simpa using he), add_zero]
  exact key g.edges h

theorem flow_inner (d : Data) {g : Graph} {y : List Rat} (h : Idle g y) (n : Nat) :
    edgeNodeFlow d g y n = edgeNodeFlow d (inner g) (innerVals g y) n := by
  have hz : ∀ (f : Nat × Nat → Rat) c, (hc : c < g.edges.length) → inside g g.edges[c] = false → f g.edges[c] * y.getD c 0 = 0 := by
    intro f c hc hin
    rw [h c hc (by simpa [inside] using hin), mul_zero]
  rw [edgeNodeFlow_eq, edgeNodeFlow_eq]
  unfold outFlow inFlow
  rw [S_inner y _ (hz _), S_inner y _ (hz _)]

theorem inner_one {d : Data} {g : Graph} (h : Connects d g) : OneDomain d (inner g) := by
  intro e he
  obtain ⟨h1, h2⟩ := List.mem_filter.1 he
  exact ⟨by simpa [inside, inner] using h2, h e h1⟩

theorem cost_inner (d : Data) (g : Graph) (k : Nat) (hk : k < (inner g).edges.length) : edgeCost d g (ren g k) = edgeCost d (inner g) k := by
  unfold edgeCost
  congr 1
  apply List.map_congr_left
  intro n _
  have key : ∀ (l : List Nat) (v : Rat), (∀ c ∈ l, c < (inner g).edges.length) →
      (((l.map (ren g)).filter fun j => j == ren g k).map fun _ => v).sum = ((l.filter fun j => j == k).map fun _ => v).sum := by
    intro l v hl
    rw [List.filter_map, List.map_map]
    have : (l.filter ((fun j => j == ren g k) ∘ ren g)) = l.filter fun j => j == k := by
      apply List.filter_congr
      intro c hc
      simp only [Function.comp]
      rw [Bool.eq_iff_iff, beq_iff_eq, beq_iff_eq]
      exact ⟨fun e => ren_inj (hl c hc) hk e, fun e => by rw [e]⟩
    rw [this]
    rfl
  simp only
  rw [inEdges_inner g, outEdges_inner g, key _ _ (in_fits _ n), key _ _ (out_fits _ n)]

theorem cost_outside (d : Data) (g : Graph) (c : Nat) (hc : c ∉ innerCols g) : edgeCost d g c = 0 := by
  unfold edgeCost
  apply List.sum_eq_zero
  intro v hv
  obtain ⟨n, -, rfl⟩ := List.mem_map.1 hv
  have key : ∀ (l : List Nat) (v : Rat), (∀ k ∈ l, k ∈ innerCols g) → ((l.filter fun j => j == c).map fun _ => v).sum = 0 := by
    intro l v hl
    rw [List.filter_eq_nil_iff.2]
    · rfl
    intro k hk e
    exact hc (by rw [← (beq_iff_eq.1 e)]; exact hl k hk)
  have hin : ∀ k ∈ inEdges g n, k ∈ innerCols g := by
    intro k hk
    rw [inEdges_inner] at hk
    obtain ⟨j, hj, rfl⟩ := List.mem_map.1 hk
    rw [innerCols_range]
    exact List.mem_map.2 ⟨j, List.mem_range.2 (in_fits _ n _ hj), rfl⟩
  have hout : ∀ k ∈ outEdges g n, k ∈ innerCols g := by
    intro k hk
    rw [outEdges_inner] at hk
    obtain ⟨j, hj, rfl⟩ := List.mem_map.1 hk
    rw [innerCols_range]
    exact List.mem_map.2 ⟨j, List.mem_range.2 (out_fits _ n _ hj), rfl⟩
  simp only
  rw [key _ _ hin, key _ _ hout, add_zero]

theorem objective_inner (d : Data) (g : Graph) (y : List Rat) : edgeObjective d g y = edgeObjective d (inner g) (innerVals g y) := by
  unfold edgeObjective
  have h1 : ((List.range g.edges.length).map fun c => edgeCost d g c * y.getD c 0).sum =
      ((innerCols g).map fun c => edgeCost d g c * y.getD c 0).sum := by
    conv => rhs; rw [innerCols_filter]
    rw [sum_map_filter]
    congr 1
    apply List.map_congr_left
    intro c _
    by_cases h : c ∈ innerCols g
    · simp [h]
    · rw [cost_outside d g c h]; simp
  rw [h1, innerCols_range, List.map_map]
  congr 1
  apply List.map_congr_left
  intro k hk
  have hk := List.mem_range.1 hk
  have hlt : k < (innerCols g).length := by rw [innerCols_length]; exact hk
  simp only [Function.comp]
  rw [cost_inner d g k hk]
  congr 1
  unfold innerVals ren
  rw [List.getD_eq_getElem _ _ hlt, List.getD_eq_getElem (l := (innerCols g).map _) (hn := by simpa using hlt)]
  simp

/-! ### Basic solutions -/

theorem set_getD (y : List Rat) (c k : Nat) (v : Rat) : (y.set c v).getD k 0 = if k = c ∧ c < y.length then v else y.getD k 0 := by
  rw [List.getD_eq_getElem?_getD, List.getD_eq_getElem?_getD, List.getElem?_set]
  by_cases h : c = k
  · subst h
    by_cases hl : c < y.length
    · simp [hl]
    · simp [hl]
  · simp [h, Ne.symm h]

theorem idle_of_basic {d : Data} {g : Graph} {y : List Rat} (h : BasicSolution d g y) : Idle g y := by
  intro c hc hdom
  obtain ⟨hf, hmid⟩ := h
  have hni : c ∉ innerCols g := by
    intro hm
    obtain ⟨_, hp⟩ := mem_colsOf.1 hm
    exact hdom (by simpa [inside] using hp)
  obtain ⟨hin, hlen, hpos⟩ := (feasible_inner d g y).1 hf
  have hcy : c < y.length := by rw [hlen]; exact hc
  have hv : ∀ v : Rat, 0 ≤ v → EdgeFeasible d g (y.set c v) := by
    intro v hv0
    refine (feasible_inner d g _).2 ⟨?_, by simp [hlen], ?_⟩
    · have : innerVals g (y.set c v) = innerVals g y := by
        unfold innerVals
        apply List.map_congr_left
        intro k hk
        rw [set_getD, if_neg]
        rintro ⟨rfl, -⟩
        exact hni hk
      rw [this]; exact hin
    · intro w hw
      rcases List.mem_or_eq_of_mem_set hw with h | h
      · exact hpos w h
      · rw [h]; exact hv0
  have h0 := getD_nonneg hpos c
  have := hmid _ _ (hv 0 le_rfl) (hv (2 * y.getD c 0) (by linarith)) (by
    intro k
    rw [set_getD, set_getD]
    by_cases hk : k = c
    · subst hk; simp [hcy]
    · simp [hk]; ring)
  have := congrArg (fun l => l.getD c 0) this
  simp only [set_getD, hcy, and_self, if_true] at this
  linarith

/-- Put values back on the columns of the whole graph. -/
theorem exists_lift (g : Graph) (z : List Rat) (hz : z.length = (inner g).edges.length) (hpos : ∀ v ∈ z, 0 ≤ v) :
    ∃ y : List Rat, y.length = g.edges.length ∧ (∀ v ∈ y, 0 ≤ v) ∧ innerVals g y = z ∧ Idle g y := by
  refine ⟨(List.range g.edges.length).map fun c => z.getD ((innerCols g).idxOf c) 0, by simp, ?_, ?_, ?_⟩
  · intro v hv
    obtain ⟨c, -, rfl⟩ := List.mem_map.1 hv
    exact getD_nonneg hpos _
  · apply List.ext_getElem
    · simp [innerVals, innerCols_length, hz]
    · intro i h1 h2
      simp only [innerVals, List.length_map] at h1
      have hlt : (innerCols g)[i] < g.edges.length := (mem_colsOf.1 (List.getElem_mem h1)).1
      simp only [innerVals, List.getElem_map]
      rw [List.getD_eq_getElem (hn := by simpa using hlt)]
      simp only [List.getElem_map, List.getElem_range]
      have hn : (innerCols g).Nodup := colsOf_nodup _ _
      rw [hn.idxOf_getElem, List.getD_eq_getElem _ _ h2]
  · intro c hc hd
    have hn : c ∉ innerCols g := by
      intro h
      obtain ⟨_, hp⟩ := mem_colsOf.1 h
      exact hd (by simpa [inside] using hp)
    rw [List.getD_eq_getElem (hn := by simpa using hc)]
    simp only [List.getElem_map, List.getElem_range]
    rw [List.idxOf_eq_length hn, innerCols_length, ← hz, List.getD_eq_default _ _ (le_refl _)]

theorem optimal_inner {d : Data} {g : Graph} {y : List Rat} (h : EdgeOptimal d g y) : EdgeOptimal d (inner g) (innerVals g y) := by
  obtain ⟨hf, hopt⟩ := h
  refine ⟨((feasible_inner d g y).1 hf).1, fun z hz => ?_⟩
  obtain ⟨_, _, hlen, hpos, _⟩ := id hz
  obtain ⟨y', h1, h2, h3, -⟩ := exists_lift g z hlen hpos
  have := hopt y' ((feasible_inner d g y').2 ⟨by rw [h3]; exact hz, h1, h2⟩)
  rwa [objective_inner, objective_inner d g y', h3] at this

end Verif.Lp

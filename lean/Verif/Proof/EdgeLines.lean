import Verif.Proof.Lines
/-! # The edge problem without the numbers of its columns -/

namespace Verif.Lp

open Verif Verif.Bounds

/-- The edge leads to the node inside the domain. -/
def enters (g : Graph) (n : Nat) (e : Nat × Nat) : Bool := e.2 == n && g.domain e.1 == g.domain e.2

/-- The edge leaves the node inside the domain. -/
def leaves (g : Graph) (n : Nat) (e : Nat × Nat) : Bool := e.1 == n && g.domain e.1 == g.domain e.2

/-- The edge counts in the flow row of the node. -/
def meets (d : Data) (g : Graph) (n : Nat) (e : Nat × Nat) : Bool := if d.kind n = .output then enters g n e else leaves g n e

theorem flowEdges_eq (d : Data) (g : Graph) (n : Nat) : flowEdges d g n = colsOf (meets d g n) g.edges := by
  unfold flowEdges
  split
  · rename_i h; unfold meets; simp only [h, if_true]; rfl
  · rename_i h; unfold meets; simp only [h, if_false]; rfl

theorem colsOf_contains {α : Type} (p : α → Bool) (l : List α) (c : Nat) : (colsOf p l).contains c = (l[c]?.map p).getD false := by
  rw [Bool.eq_iff_iff, List.contains_iff_mem, ← List.count_pos_iff, count_colsOf]
  cases l[c]? with
  | none => simp
  | some a => cases h : p a <;> simp [h]

theorem colsOf_ne_nil {α : Type} (p : α → Bool) (l : List α) : colsOf p l ≠ [] ↔ ∃ a ∈ l, p a = true := by
  constructor
  · intro h
    obtain ⟨c, hc⟩ := List.exists_mem_of_ne_nil _ h
    have := (List.contains_iff_mem (a := c) (as := colsOf p l)).2 hc
    rw [colsOf_contains] at this
    cases hl : l[c]? with
    | none => rw [hl] at this; simp at this
    | some a => rw [hl] at this; exact ⟨a, List.mem_of_getElem? hl, by simpa using this⟩
  · rintro ⟨a, ha, hp⟩ hn
    obtain ⟨c, hc, rfl⟩ := List.mem_iff_getElem.1 ha
    have := colsOf_contains p l c
    rw [hn, List.getElem?_eq_getElem hc] at this
    simp [hp] at this

/-- Columns by number, as `range` with a lookup. -/
theorem range_filterMap {α β : Type} (l : List α) (F : Nat → Option β) (G : α × Nat → Option β) (h : ∀ c a, l[c]? = some a → F c = G (a, c)) :
    (List.range l.length).filterMap F = l.zipIdx.filterMap G := by
  have e : List.range l.length = l.zipIdx.map (·.2) := by
    rw [List.zipIdx_eq_zip_range', List.map_snd_zip (by simp), List.range_eq_range']
  rw [e, List.filterMap_map]
  apply List.filterMap_congr
  rintro ⟨a, c⟩ hq
  have := List.mem_zipIdx' hq
  exact h c a (by rw [List.getElem?_eq_getElem this.1]; simp [this.2])

/-- The factors an edge collects. -/
def edgeWeights (d : Data) (g : Graph) (v : VirtualData) (e : Nat × Nat) : List Rat := ((v.nodes.zip v.factors).filter fun p => meets d g p.1 e).map (·.2)

theorem edgeFactors_weights (d : Data) (g : Graph) (v : VirtualData) (c : Nat) (e : Nat × Nat) (h : g.edges[c]? = some e) : edgeFactors d g v c = edgeWeights d g v e := by
  unfold edgeFactors edgeWeights
  congr 1
  apply List.filter_congr
  intro p _
  rw [flowEdges_eq, colsOf_contains, h]; rfl

def nodeLineE (d : Data) (g : Graph) (n : Nat) : Option (Line (Nat × Nat)) :=
  limitLine (fun e => (d.kind n == .input && enters g n e) || (d.kind n == .output && leaves g n e)) (fun e => one (meets d g n e)) (fun e => term (meets d g n e) 1)
    (d.minFlow n) (d.maxFlow n)

def crossLineE (d : Data) (g : Graph) (c : Nat × List (Nat × Rat)) : Option (Line (Nat × Nat)) :=
  if c.2.any (fun i => i.2 == 0) then none
  else some ⟨fun _ => false, fun e => one (meets d g c.1 e) + (c.2.map fun i => one (leaves g i.1 e)).sum,
    fun e => term (meets d g c.1 e) (-1) + (c.2.map fun i => term (leaves g i.1 e) (1 / i.2)).sum, ⟨.fx, 0, 0⟩⟩

def balanceLine (g : Graph) (n : Nat) : Line (Nat × Nat) :=
  ⟨fun _ => false, fun e => one (enters g n e) + one (leaves g n e), fun e => term (enters g n e) 1 + term (leaves g n e) (-1), ⟨.fx, 0, 0⟩⟩

def storageLineE (d : Data) (g : Graph) (s : StorageData) : Line (Nat × Nat) :=
  ⟨fun _ => false, fun e => (s.outputs.map fun n => one (enters g n e)).sum + (s.inputs.map fun n => one (leaves g n e)).sum,
    fun e => (s.outputs.map fun n => term (enters g n e) 1).sum + (s.inputs.map fun n => term (leaves g n e) (-1)).sum,
    Storage.storageRow s.volume s.mx s.mn d.days⟩

def virtualLineE (d : Data) (g : Graph) (v : VirtualData) : Line (Nat × Nat) :=
  ⟨fun _ => false, fun e => one (!decide (edgeWeights d g v e = [])), fun e => -(edgeWeights d g v e).sum, VirtualStorage.vRow v.active v.volume v.mx v.mn d.days⟩

def factorLinesE (d : Data) (g : Graph) (a : AggData) : List (Option (Line (Nat × Nat))) :=
  match a.factors with
  | none => []
  | some fs => match a.nodes with
    | [] => [none]
    | n0 :: rest =>
      if rest = [] then [none]
      else if fs.any (fun f => f == 0) then [none]
      else (rest.zip (fs.map fun f => fs.headD 0 / f).tail).map fun p =>
        some ⟨fun _ => false, fun e => one (meets d g n0 e) + one (meets d g p.1 e), fun e => term (meets d g n0 e) 1 + term (meets d g p.1 e) (-p.2), ⟨.fx, 0, 0⟩⟩

def aggLineE (d : Data) (g : Graph) (a : AggData) : Option (Line (Nat × Nat)) :=
  limitLine (fun _ => false) (fun e => one (lastWeight a fun n => meets d g n e).isSome) (fun e => (lastWeight a fun n => meets d g n e).getD 0) a.minFlow a.maxFlow

/-- All rows of the edge problem. -/
def edgeLines (d : Data) (g : Graph) : List (Option (Line (Nat × Nat))) :=
  d.nonStorages.map (nodeLineE d g) ++ d.cross.map (crossLineE d g) ++ (d.nodes.filter fun n => d.kind n == .link).map (fun n => some (balanceLine g n)) ++
    d.storages.map (fun s => some (storageLineE d g s)) ++ d.virtuals.map (fun v => some (virtualLineE d g v)) ++ d.aggs.flatMap (factorLinesE d g) ++ d.aggs.map (aggLineE d g)

theorem nodeRowE_line (P : Row → Rat → Prop) (d : Data) (g : Graph) (n : Nat) (x : List Rat) :
    (∃ row, nodeRowE d g n = .ok row ∧ P row.bounds (rowVal x row.entries)) ↔ ∃ L, nodeLineE d g n = some L ∧ L.Built g.edges ∧ L.Fits P g.edges x := by
  have hd := draws_const 1 (meets d g n) g.edges
  have key := limitRow_line P hd (d.minFlow n) (d.maxFlow n) x
  have hin : inEdges g n ≠ [] ↔ ∃ e ∈ g.edges, enters g n e = true := colsOf_ne_nil _ _
  have hout : outEdges g n ≠ [] ↔ ∃ e ∈ g.edges, leaves g n e = true := colsOf_ne_nil _ _
  unfold nodeRowE nodeLineE
  rw [flowEdges_eq]
  have hb : (∃ L, limitLine (fun e => (d.kind n == .input && enters g n e) || (d.kind n == .output && leaves g n e)) (fun e => one (meets d g n e)) (fun e => term (meets d g n e) 1)
      (d.minFlow n) (d.maxFlow n) = some L ∧ L.Built g.edges ∧ L.Fits P g.edges x) ↔
      (∀ e ∈ g.edges, ((d.kind n == .input && enters g n e) || (d.kind n == .output && leaves g n e)) = false) ∧
      ∃ row, limitRow (const 1 (colsOf (meets d g n) g.edges)) (d.minFlow n) (d.maxFlow n) = .ok row ∧ P row.bounds (rowVal x row.entries) := by
    rw [key]
    unfold limitLine
    cases flowRow true (d.minFlow n) (d.maxFlow n) with
    | stored r =>
      simp only [Option.some.injEq, exists_eq_left']
      unfold Line.Built Line.Fits
      simp only [one, term]
      tauto
    | glpkError => simp
    | storedNan => simp
  rw [hb]
  by_cases h1 : d.kind n = .input ∧ inEdges g n ≠ []
  · rw [if_pos h1]
    obtain ⟨e, he, hp⟩ := hin.1 h1.2
    constructor
    · rintro ⟨row, hr, -⟩; cases hr
    · rintro ⟨hx, -⟩
      have := hx e he
      rw [h1.1, hp] at this
      simp at this
  · rw [if_neg h1]
    by_cases h2 : d.kind n = .output ∧ outEdges g n ≠ []
    · rw [if_pos h2]
      obtain ⟨e, he, hp⟩ := hout.1 h2.2
      constructor
      · rintro ⟨row, hr, -⟩; cases hr
      · rintro ⟨hx, -⟩
        have := hx e he
        rw [h2.1, hp] at this
        simp at this
    · rw [if_neg h2]
      have hbad : ∀ e ∈ g.edges, ((d.kind n == .input && enters g n e) || (d.kind n == .output && leaves g n e)) = false := by
        intro e he
        rw [Bool.or_eq_false_iff, Bool.and_eq_false_iff, Bool.and_eq_false_iff]
        constructor
        · by_contra hc
          push Not at hc
          refine h1 ⟨by simpa using hc.1, hin.2 ⟨e, he, by simpa using hc.2⟩⟩
        · by_contra hc
          push Not at hc
          refine h2 ⟨by simpa using hc.1, hout.2 ⟨e, he, by simpa using hc.2⟩⟩
      by_cases hc : colsOf (meets d g n) g.edges = []
      · rw [if_pos hc]
        constructor
        · rintro ⟨row, hr, -⟩; cases hr
        · rintro ⟨-, row, hr, -⟩
          exact absurd (by rw [hc]; rfl) (limitRow_ne hr)
      · rw [if_neg hc]
        exact ⟨fun h => ⟨hbad, h⟩, fun h => h.2⟩

theorem crossRowE_line (P : Row → Rat → Prop) (d : Data) (g : Graph) (c : Nat × List (Nat × Rat)) (x : List Rat) :
    (∃ row, crossRowE d g c = .ok row ∧ P row.bounds (rowVal x row.entries)) ↔ ∃ L, crossLineE d g c = some L ∧ L.Built g.edges ∧ L.Fits P g.edges x := by
  unfold crossRowE crossLineE
  split
  · simp
  · have h1 := draws_const (-1) (meets d g c.1) g.edges
    have h2 := draws_flatMap (l := g.edges) c.2 (fun i => const (1 / i.2) (outEdges g i.1)) (fun i e => one (leaves g i.1 e))
      (fun i e => term (leaves g i.1 e) (1 / i.2)) fun i _ => draws_const _ _ _
    rw [flowEdges_eq]
    simp only [Option.some.injEq, exists_eq_left']
    exact boundRow_line P (draws_append h1 h2) ⟨.fx, 0, 0⟩ x

theorem balanceRow_line (P : Row → Rat → Prop) (g : Graph) (n : Nat) (x : List Rat) :
    (∃ row, balanceRow g n = .ok row ∧ P row.bounds (rowVal x row.entries)) ↔ (balanceLine g n).Built g.edges ∧ (balanceLine g n).Fits P g.edges x :=
   boundRow_line P (draws_append (draws_const _ _ _) (draws_const _ _ _)) _ x

theorem const_flatMap (v : Rat) (l : List Nat) (f : Nat → List Nat) : const v (l.flatMap f) = l.flatMap fun n => const v (f n) := by
  simp [const, List.map_flatMap]

theorem storageRowE_line (P : Row → Rat → Prop) (d : Data) (g : Graph) (s : StorageData) (x : List Rat) :
    (∃ row, storageRowE d g s = .ok row ∧ P row.bounds (rowVal x row.entries)) ↔ (storageLineE d g s).Built g.edges ∧ (storageLineE d g s).Fits P g.edges x := by
  unfold storageRowE
  rw [const_flatMap, const_flatMap]
  exact boundRow_line P (draws_append
    (draws_flatMap (l := g.edges) s.outputs _ (fun n e => one (enters g n e)) (fun n e => term (enters g n e) 1) fun n _ => draws_const _ _ _)
    (draws_flatMap (l := g.edges) s.inputs _ (fun n e => one (leaves g n e)) (fun n e => term (leaves g n e) (-1)) fun n _ => draws_const _ _ _)) _ x

theorem virtualRowE_line (P : Row → Rat → Prop) (d : Data) (g : Graph) (v : VirtualData) (x : List Rat) :
    (∃ row, virtualRowE d g v = .ok row ∧ P row.bounds (rowVal x row.entries)) ↔ (virtualLineE d g v).Built g.edges ∧ (virtualLineE d g v).Fits P g.edges x := by
  unfold virtualRowE
  rw [range_filterMap g.edges _ (fun q => (if edgeWeights d g v q.1 = [] then none else some (-(edgeWeights d g v q.1).sum)).map fun w => (q.2, w)) (by
    intro c e h
    rw [edgeFactors_weights d g v c e h]
    split <;> rfl)]
  have h := draws_filterMap g.edges fun e => if edgeWeights d g v e = [] then none else some (-(edgeWeights d g v e).sum)
  refine boundRow_line P (draws_congr h (fun r => ?_) fun r => ?_) _ x
  · by_cases hr : edgeWeights d g v r = [] <;> simp [hr, one]
  · by_cases hr : edgeWeights d g v r = [] <;> simp [hr]

theorem aggRowE_line (P : Row → Rat → Prop) (d : Data) (g : Graph) (a : AggData) (x : List Rat) :
    (∃ row, aggRowE d g a = .ok row ∧ P row.bounds (rowVal x row.entries)) ↔ ∃ L, aggLineE d g a = some L ∧ L.Built g.edges ∧ L.Fits P g.edges x := by
  unfold aggRowE
  rw [range_filterMap g.edges _ (fun q => (lastWeight a fun n => meets d g n q.1).map fun w => (q.2, w)) (by
    intro c e h
    have : (fun n => (flowEdges d g n).contains c) = fun n => meets d g n e := by
      funext n
      rw [flowEdges_eq, colsOf_contains, h]; rfl
    rw [this])]
  exact limitRow_line P (draws_filterMap g.edges fun e => lastWeight a fun n => meets d g n e) a.minFlow a.maxFlow x

theorem factorRowsE_line (P : Row → Rat → Prop) (d : Data) (g : Graph) (a : AggData) (x : List Rat) :
    (∃ l, factorRowsE d g a = .ok l ∧ ∀ row ∈ l, P row.bounds (rowVal x row.entries)) ↔ ∀ o ∈ factorLinesE d g a, ∃ L, o = some L ∧ L.Built g.edges ∧ L.Fits P g.edges x := by
  unfold factorRowsE factorLinesE
  cases hf : a.factors with
  | none => simp
  | some fs =>
    cases hn : a.nodes with
    | nil => simp
    | cons n0 rest =>
      by_cases hr : rest = []
      · simp [hr]
      · simp only [hr, if_false]
        unfold factorsNorm
        by_cases hz : fs.any (fun f => f == 0) = true
        · simp [hz]
        · simp only [hz]
          simp only [Bool.false_eq_true, if_false]
          rw [collect_iff]
          simp only [List.mem_map, forall_exists_index, and_imp, forall_apply_eq_imp_iff₂, Option.some.injEq, exists_eq_left', flowEdges_eq]
          refine forall₂_congr fun p _ => ?_
          exact boundRow_line P (draws_append (draws_const _ _ _) (draws_const _ _ _)) _ x

/-- **The edge problem without the numbers of its columns.** -/
theorem edgeRows_fit (P : Row → Rat → Prop) (d : Data) (g : Graph) (x : List Rat) :
    (∃ rows, edgeRows d g = .ok rows ∧ ∀ row ∈ rows, P row.bounds (rowVal x row.entries)) ↔ (d.nodes ≠ [] ∧ g.edges ≠ [] ∧ d.nonStorages ≠ []) ∧ AllFit P (edgeLines d g) g.edges x := by
  unfold edgeRows
  by_cases h0 : d.nodes = [] ∨ g.edges = [] ∨ d.nonStorages = []
  · rw [if_pos h0]
    constructor
    · rintro ⟨rows, hr, -⟩; cases hr
    · rintro ⟨⟨h1, h2, h3⟩, -⟩; tauto
  · rw [if_neg h0]
    have h0' : d.nodes ≠ [] ∧ g.edges ≠ [] ∧ d.nonStorages ≠ [] := by tauto
    have key := concat_iff (fun row => P row.bounds (rowVal x row.entries))
      ([collect (nodeRowE d g) d.nonStorages, collect (crossRowE d g) d.cross, collect (balanceRow g) (d.nodes.filter fun n => d.kind n == .link),
        collect (storageRowE d g) d.storages, collect (virtualRowE d g) d.virtuals] ++
        d.aggs.map (factorRowsE d g) ++ [collect (aggRowE d g) d.aggs])
    have key2 : (∀ r ∈ [collect (nodeRowE d g) d.nonStorages, collect (crossRowE d g) d.cross, collect (balanceRow g) (d.nodes.filter fun n => d.kind n == .link),
        collect (storageRowE d g) d.storages, collect (virtualRowE d g) d.virtuals] ++
        d.aggs.map (factorRowsE d g) ++ [collect (aggRowE d g) d.aggs], ∃ l, r = .ok l ∧ ∀ row ∈ l, P row.bounds (rowVal x row.entries)) ↔ AllFit P (edgeLines d g) g.edges x := by
      unfold AllFit edgeLines
      simp only [List.mem_append, List.mem_cons, List.not_mem_nil, or_false, List.mem_map, List.mem_flatMap, or_imp, forall_and, forall_eq, forall_exists_index, and_imp,
        forall_apply_eq_imp_iff₂, collect_iff, nodeRowE_line P, crossRowE_line P, balanceRow_line P, storageRowE_line P, virtualRowE_line P, factorRowsE_line P, aggRowE_line P, Option.some.injEq,
        exists_eq_left']
      constructor
      · rintro ⟨⟨⟨h1, h2, h3, h4, h4'⟩, h5⟩, h6⟩
        exact ⟨⟨⟨⟨⟨⟨h1, h2⟩, h3⟩, h4⟩, h4'⟩, fun o a ha ho => h5 a ha o ho⟩, h6⟩
      · rintro ⟨⟨⟨⟨⟨⟨h1, h2⟩, h3⟩, h4⟩, h4'⟩, h5⟩, h6⟩
        exact ⟨⟨⟨h1, h2, h3, h4, h4'⟩, fun a ha o ho => h5 o a ha ho⟩, h6⟩
    rw [← key2, ← key]
    exact ⟨fun h => ⟨h0', h⟩, fun h => h.2⟩

theorem edgeFeasible_iff (d : Data) (g : Graph) (x : List Rat) :
    EdgeFeasible d g x ↔ (d.nodes ≠ [] ∧ g.edges ≠ [] ∧ d.nonStorages ≠ []) ∧ x.length = g.edges.length ∧ (∀ v ∈ x, 0 ≤ v) ∧ AllHold (edgeLines d g) g.edges x := by
  have key := edgeRows_fit Row.Admits d g x
  unfold EdgeFeasible Satisfies
  constructor
  · rintro ⟨rows, hr, hl, hx, hrow⟩
    have := key.1 ⟨rows, hr, hrow⟩
    exact ⟨this.1, hl, hx, this.2⟩
  · rintro ⟨h0, hl, hx, h⟩
    obtain ⟨rows, hr, hrow⟩ := key.2 ⟨h0, h⟩
    exact ⟨rows, hr, hl, hx, hrow⟩

theorem edgeRows_ok (d : Data) (g : Graph) :
    (∃ rows, edgeRows d g = .ok rows) ↔ (d.nodes ≠ [] ∧ g.edges ≠ [] ∧ d.nonStorages ≠ []) ∧ AllBuilt (edgeLines d g) g.edges := by
  have key := edgeRows_fit (fun _ _ => True) d g []
  have e : AllFit (fun _ _ => True) (edgeLines d g) g.edges [] ↔ AllBuilt (edgeLines d g) g.edges := by
    unfold AllFit AllBuilt Line.Fits
    simp
  rw [← e, ← key]
  simp

end Verif.Lp

import Mathlib.Data.List.Nodup
import Mathlib.Data.Finset.Card
import Mathlib.Data.List.Dedup
import Mathlib.Data.Finset.Dedup
import Mathlib.Tactic.Ring
import Verif.Spec.Digraph

namespace Verif.Digraph

theorem mem_adj {g : Digraph} {u v : Nat} : v ∈ g.adj u ↔ g.Edge u v := by
  simp only [adj, Edge, List.mem_map, List.mem_filter, beq_iff_eq]
  constructor
  · rintro ⟨⟨a, b⟩, ⟨h1, h2⟩, h3⟩; simp at h2 h3; subst h2; subst h3; exact h1
  · intro h; exact ⟨(u, v), ⟨h, rfl⟩, rfl⟩

theorem mem_pred {g : Digraph} {u v : Nat} : v ∈ g.pred u ↔ g.Edge v u := by
  simp only [pred, Edge, List.mem_map, List.mem_filter, beq_iff_eq]
  constructor
  · rintro ⟨⟨a, b⟩, ⟨h1, h2⟩, h3⟩; simp at h2 h3; subst h2; subst h3; exact h1
  · intro h; exact ⟨(v, u), ⟨h, rfl⟩, rfl⟩

theorem adj_nodup {g : Digraph} (h : g.edges.Nodup) (u : Nat) : (g.adj u).Nodup := by
  unfold adj
  refine List.Nodup.map_on ?_ (h.filter _)
  rintro ⟨a, b⟩ ha ⟨c, d⟩ hc hbd
  simp only [List.mem_filter, beq_iff_eq] at ha hc
  simp_all

theorem pred_nodup {g : Digraph} (h : g.edges.Nodup) (u : Nat) : (g.pred u).Nodup := by
  unfold pred
  refine List.Nodup.map_on ?_ (h.filter _)
  rintro ⟨a, b⟩ ha ⟨c, d⟩ hc hbd
  simp only [List.mem_filter, beq_iff_eq] at ha hc
  simp_all

/-! ## Well-formedness is maintained -/

theorem wf_empty : empty.WF := by simp [WF, empty, Edge]

theorem wf_addNode {g : Digraph} (h : g.WF) (u : Nat) : (g.addNode u).WF := by
  unfold addNode
  split
  · exact h
  · rename_i hu
    refine ⟨?_, h.2.1, ?_⟩
    · simp only [List.nodup_append, List.nodup_cons, List.not_mem_nil, not_false_eq_true, List.nodup_nil,
        and_self, List.mem_singleton, forall_eq, true_and]
      exact ⟨h.1, fun a ha hau => hu (hau ▸ ha)⟩
    · intro a b hab
      have := h.2.2 a b hab
      simp [this.1, this.2]

theorem mem_nodes_addNode {g : Digraph} {u v : Nat} : v ∈ (g.addNode u).nodes ↔ v ∈ g.nodes ∨ v = u := by
  unfold addNode
  split
  · constructor
    · exact Or.inl
    · rintro (h | rfl) <;> assumption
  · simp

theorem edges_addNode {g : Digraph} {u : Nat} : (g.addNode u).edges = g.edges := by
  unfold addNode; split <;> rfl

theorem edge_addEdge {g : Digraph} {u v a b : Nat} :
    (g.addEdge u v).Edge a b ↔ g.Edge a b ∨ (a = u ∧ b = v) := by
  unfold addEdge Edge
  simp only [edges_addNode]
  split
  · rename_i h
    rw [edges_addNode, edges_addNode]
    constructor
    · exact Or.inl
    · rintro (h' | ⟨rfl, rfl⟩) <;> assumption
  · simp

theorem mem_nodes_addEdge {g : Digraph} {u v a : Nat} :
    a ∈ (g.addEdge u v).nodes ↔ a ∈ g.nodes ∨ a = u ∨ a = v := by
  unfold addEdge
  simp only [edges_addNode]
  split <;> simp [mem_nodes_addNode, or_assoc]

theorem wf_addEdge {g : Digraph} (h : g.WF) (u v : Nat) : (g.addEdge u v).WF := by
  have h1 := wf_addNode (wf_addNode h u) v
  unfold addEdge
  simp only
  split
  · exact h1
  · rename_i hn
    refine ⟨h1.1, ?_, ?_⟩
    · simp only [List.nodup_append, List.nodup_cons, List.not_mem_nil, not_false_eq_true, List.nodup_nil,
        and_self, List.mem_singleton, forall_eq, true_and]
      exact ⟨h1.2.1, fun a ha hau => hn (hau ▸ ha)⟩
    · intro a b hab
      simp only [Edge, List.mem_append, List.mem_singleton, Prod.mk.injEq] at hab
      rcases hab with hab | ⟨rfl, rfl⟩
      · exact h1.2.2 a b hab
      · simp [mem_nodes_addNode]

/-! ## Simple paths -/

/-- The tails produced by the enumeration are exactly the simple continuations to the target. -/
theorem mem_simplePathsFrom {g : Digraph} {t : Nat} (k : Nat) (vis : List Nat) (u : Nat) (p : List Nat) :
    p ∈ g.simplePathsFrom t k vis u ↔
      p ≠ [] ∧ p.getLast? = some t ∧ (u :: p).IsChain g.Edge ∧ p.Nodup ∧ (∀ x ∈ p, x ∉ vis) ∧
      p.length ≤ k := by
  induction k generalizing vis u p with
  | zero =>
    simp only [simplePathsFrom, List.not_mem_nil, false_iff]
    rintro ⟨h, -, -, -, -, h'⟩
    exact h (List.eq_nil_of_length_eq_zero (by omega))
  | succ k ih =>
    simp only [simplePathsFrom, List.mem_flatMap, mem_adj]
    constructor
    · rintro ⟨c, hc, hp⟩
      split at hp
      · simp at hp
      · rename_i hv
        split at hp
        · rename_i hct
          simp only [List.mem_singleton] at hp
          subst hp; subst hct
          simp [hc, hv]
        · rename_i hct
          simp only [List.mem_map] at hp
          obtain ⟨q, hq, rfl⟩ := hp
          obtain ⟨h1, h2, h3, h4, h5, h6⟩ := (ih _ _ _).1 hq
          refine ⟨by simp, ?_, ?_, ?_, ?_, ?_⟩
          · rw [List.getLast?_cons_of_ne_nil h1]; exact h2
          · exact List.isChain_cons_cons.2 ⟨hc, h3⟩
          · rw [List.nodup_cons]
            refine ⟨fun hcq => ?_, h4⟩
            exact h5 c hcq (by simp)
          · intro x hx
            rcases List.mem_cons.1 hx with rfl | hx
            · exact hv
            · exact fun hxv => h5 x hx (by simp [hxv])
          · simp; omega
    · rintro ⟨h1, h2, h3, h4, h5, h6⟩
      match p, h1 with
      | c :: q, _ =>
        obtain ⟨hc, hch⟩ := List.isChain_cons_cons.1 h3
        refine ⟨c, hc, ?_⟩
        have hcv : c ∉ vis := h5 c (by simp)
        rw [if_neg hcv]
        obtain ⟨hcq, hq⟩ := List.nodup_cons.1 h4
        by_cases hct : c = t
        · rw [if_pos hct]
          simp only [List.mem_singleton, List.cons.injEq, true_and]
          by_contra hne
          rw [List.getLast?_cons_of_ne_nil hne] at h2
          exact hcq (hct ▸ List.mem_of_getLast? h2)
        · rw [if_neg hct]
          simp only [List.mem_map, List.cons.injEq, true_and, exists_eq_right]
          have hqne : q ≠ [] := by
            rintro rfl; simp at h2; exact hct h2
          refine (ih _ _ _).2 ⟨hqne, ?_, hch, hq, ?_, ?_⟩
          · rw [List.getLast?_cons_of_ne_nil hqne] at h2; exact h2
          · intro x hx hxv
            rcases List.mem_cons.1 hxv with rfl | hxv
            · exact hcq hx
            · exact h5 x (by simp [hx]) hxv
          · simp at h6; omega

theorem nodup_simplePathsFrom {g : Digraph} (hg : g.edges.Nodup) {t : Nat} (k : Nat) (vis : List Nat) (u : Nat) :
    (g.simplePathsFrom t k vis u).Nodup := by
  induction k generalizing vis u with
  | zero => simp [simplePathsFrom]
  | succ k ih =>
    simp only [simplePathsFrom]
    rw [List.nodup_flatMap]
    refine ⟨?_, ?_⟩
    · intro c _
      split
      · simp
      · split
        · simp
        · exact (ih _ _).map (fun a b h => by simpa using h)
    · refine (adj_nodup hg u).imp ?_
      intro a b hab
      simp only [Function.onFun]
      rw [List.disjoint_left]
      intro p hpa hpb
      have e1 : p.head? = some a := by
        split at hpa
        · simp at hpa
        · split at hpa
          · simp at hpa; subst hpa; simp
          · simp at hpa; obtain ⟨q, _, rfl⟩ := hpa; simp
      have e2 : p.head? = some b := by
        split at hpb
        · simp at hpb
        · split at hpb
          · simp at hpb; subst hpb; simp
          · simp at hpb; obtain ⟨q, _, rfl⟩ := hpb; simp
      rw [e1] at e2
      exact hab (by simpa using e2)

theorem chain_mem_nodes {g : Digraph} (hg : g.WF) {u : Nat} {p : List Nat} (h : (u :: p).IsChain g.Edge) :
    ∀ x ∈ p, x ∈ g.nodes := by
  induction p generalizing u with
  | nil => simp
  | cons c q ih =>
    obtain ⟨h1, h2⟩ := List.isChain_cons_cons.1 h
    intro x hx
    rcases List.mem_cons.1 hx with rfl | hx
    · exact (hg.2.2 _ _ h1).2
    · exact ih h2 x hx

theorem length_le_nodes {g : Digraph} (hg : g.WF) {s t : Nat} {p : List Nat} (hst : s ≠ t)
    (h : g.IsSimplePath s t p) : p.length ≤ g.nodes.length := by
  obtain ⟨h1, h2, h3, h4⟩ := h
  match p, h1 with
  | a :: q, h1 =>
    simp at h1; subst h1
    match q with
    | [] => simp at h2; exact absurd h2 hst
    | b :: r =>
      have hmem : ∀ x ∈ a :: b :: r, x ∈ g.nodes := by
        intro x hx
        rcases List.mem_cons.1 hx with rfl | hx
        · exact (hg.2.2 _ _ (List.isChain_cons_cons.1 h3).1).1
        · exact chain_mem_nodes hg h3 x hx
      exact (List.subperm_of_subset h4 hmem).length_le

theorem mem_allSimplePaths {g : Digraph} {s t : Nat} {cutoff : Option Nat} {p : List Nat} :
    p ∈ g.allSimplePaths s t cutoff ↔
      s ≠ t ∧ g.IsSimplePath s t p ∧ p.length ≤ cutoff.getD (g.nodes.length - 1) + 1 := by
  unfold allSimplePaths
  split
  · rename_i h; simp [h]
  · rename_i hst
    simp only [List.mem_map, mem_simplePathsFrom, ne_eq, hst, not_false_eq_true, true_and]
    constructor
    · rintro ⟨q, ⟨h1, h2, h3, h4, h5, h6⟩, rfl⟩
      refine ⟨⟨by simp, ?_, h3, ?_⟩, by simp; omega⟩
      · rw [List.getLast?_cons_of_ne_nil h1]; exact h2
      · rw [List.nodup_cons]; exact ⟨fun hs => h5 s hs (by simp), h4⟩
    · rintro ⟨⟨h1, h2, h3, h4⟩, h5⟩
      match p, h1 with
      | a :: q, h1 =>
        simp at h1; subst h1
        have hq : q ≠ [] := by rintro rfl; simp at h2; exact hst h2
        obtain ⟨ha, hq'⟩ := List.nodup_cons.1 h4
        refine ⟨q, ⟨hq, ?_, h3, hq', ?_, ?_⟩, rfl⟩
        · rw [List.getLast?_cons_of_ne_nil hq] at h2; exact h2
        · intro x hx hxa; simp at hxa; subst hxa; exact ha hx
        · simp at h5; omega

theorem nodup_allSimplePaths {g : Digraph} (hg : g.edges.Nodup) (s t : Nat) (cutoff : Option Nat) :
    (g.allSimplePaths s t cutoff).Nodup := by
  unfold allSimplePaths
  split
  · simp
  · exact (nodup_simplePathsFrom hg _ _ _).map (fun a b h => by simpa using h)

/-! ## Cycles -/

/-- Any walk can be shortened to a simple path. -/
theorem exists_simplePath_of_reach {g : Digraph} {s t : Nat} (h : Relation.ReflTransGen g.Edge s t) :
    ∃ p, g.IsSimplePath s t p := by
  induction h using Relation.ReflTransGen.head_induction_on with
  | refl => exact ⟨[t], by simp [IsSimplePath]⟩
  | @head a b hab _ ih =>
    obtain ⟨p, h1, h2, h3, h4⟩ := ih
    by_cases ha : a ∈ p
    · -- cut the loop
      obtain ⟨l, r, rfl⟩ := List.append_of_mem ha
      refine ⟨a :: r, by simp, ?_, ?_, ?_⟩
      · simpa using h2
      · exact (List.isChain_append.1 h3).2.1
      · exact (List.nodup_append.1 h4).2.1
    · match p, h1 with
      | c :: q, h1 =>
        simp at h1; subst h1
        refine ⟨a :: c :: q, by simp, ?_, ?_, ?_⟩
        · rw [List.getLast?_cons_cons]; exact h2
        · exact List.isChain_cons_cons.2 ⟨hab, h3⟩
        · exact List.nodup_cons.2 ⟨ha, h4⟩

theorem reach_of_chain {g : Digraph} {s t : Nat} {p : List Nat} (h1 : p.head? = some s)
    (h2 : p.getLast? = some t) (h3 : p.IsChain g.Edge) : Relation.ReflTransGen g.Edge s t := by
  induction p generalizing s with
  | nil => simp at h1
  | cons a q ih =>
    simp at h1; subst h1
    match q with
    | [] => simp at h2; subst h2; exact .refl
    | b :: r =>
      obtain ⟨hab, hr⟩ := List.isChain_cons_cons.1 h3
      rw [List.getLast?_cons_cons] at h2
      exact .head hab (ih rfl h2 hr)

/-- The cycle test used by `flatten_component_tree` is exact. -/
theorem hasCycle_iff {g : Digraph} (hg : g.WF) : g.hasCycle = true ↔ g.Cyclic := by
  unfold hasCycle Cyclic
  simp only [List.any_eq_true, Bool.or_eq_true, beq_iff_eq, Bool.not_eq_true', List.isEmpty_eq_false_iff,
    ne_eq]
  constructor
  · rintro ⟨⟨u, v⟩, he, h | h⟩
    · simp at h; subst h; exact ⟨u, .single he⟩
    · obtain ⟨p, hp⟩ := List.exists_mem_of_ne_nil _ h
      obtain ⟨-, ⟨h1, h2, h3, -⟩, -⟩ := mem_allSimplePaths.1 hp
      exact ⟨u, Relation.TransGen.head' he (reach_of_chain h1 h2 h3)⟩
  · rintro ⟨u, hu⟩
    obtain ⟨v, huv, hvu⟩ := Relation.TransGen.head'_iff.1 hu
    refine ⟨(u, v), huv, ?_⟩
    by_cases h : u = v
    · exact .inl h
    · right
      obtain ⟨p, hp⟩ := exists_simplePath_of_reach hvu
      intro hnil
      have hne : v ≠ u := fun h' => h h'.symm
      have hlen := length_le_nodes hg hne hp
      have : p ∈ g.allSimplePaths v u none := mem_allSimplePaths.2 ⟨hne, hp, by simp; omega⟩
      simp [hnil] at this

end Verif.Digraph

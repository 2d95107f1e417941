import Verif.Spec.Network
import Mathlib.Data.List.Nodup
/-!
# Lemmas about the graph of nodes
-/

namespace Verif.Network

theorem mem_keys {s : St} {n : String} : n ∈ s.keys ↔ ∃ i ∈ s.nodes, s.parent i = none ∧ s.name i = n := by
  simp only [St.keys, St.top, List.mem_map, List.mem_filter, Option.isNone_iff_eq_none]
  constructor
  · rintro ⟨i, ⟨h1, h2⟩, h3⟩; exact ⟨i, h1, h2, h3⟩
  · rintro ⟨i, h1, h2, h3⟩; exact ⟨i, ⟨h1, h2⟩, h3⟩

/-! ### Adding nodes and edges -/

@[simp] theorem addNode_heap (s : St) (i : Nat) : (s.addNode i).heap = s.heap := by unfold St.addNode; split <;> rfl
@[simp] theorem addNode_edges (s : St) (i : Nat) : (s.addNode i).edges = s.edges := by unfold St.addNode; split <;> rfl
@[simp] theorem addNode_name (s : St) (i : Nat) : (s.addNode i).name = s.name := by funext j; unfold St.name; rw [addNode_heap]
@[simp] theorem addNode_parent (s : St) (i : Nat) : (s.addNode i).parent = s.parent := by funext j; unfold St.parent; rw [addNode_heap]

theorem mem_addNode (s : St) (i j : Nat) : j ∈ (s.addNode i).nodes ↔ j ∈ s.nodes ∨ j = i := by
  unfold St.addNode
  split
  · constructor
    · exact Or.inl
    · rintro (h | rfl) <;> assumption
  · simp

theorem addNode_of_mem {s : St} {i : Nat} (h : i ∈ s.nodes) : s.addNode i = s := by unfold St.addNode; rw [if_pos h]

theorem addNode_inv {s : St} (h : Inv s) {i : Nat} (hi : i < s.heap.length) (hk : s.parent i = none → i ∉ s.nodes → s.name i ∉ s.keys) :
    Inv (s.addNode i) := by
  by_cases hm : i ∈ s.nodes
  · rwa [addNode_of_mem hm]
  have e : s.addNode i = { s with nodes := s.nodes ++ [i] } := by unfold St.addNode; rw [if_neg hm]
  refine ⟨?_, ?_, ?_, ?_, ?_, ?_⟩
  · rw [e]
    exact List.nodup_append.2 ⟨h.nodup, by simp, by rintro a ha b hb rfl; simp only [List.mem_singleton] at hb; subst hb; exact hm ha⟩
  · intro j hj
    rw [mem_addNode] at hj
    rw [addNode_heap]
    rcases hj with hj | rfl
    · exact h.bound j hj
    · exact hi
  · rw [addNode_parent]; exact h.older
  · intro x hx
    rw [addNode_edges] at hx
    simp only [mem_addNode]
    exact ⟨Or.inl (h.ends x hx).1, Or.inl (h.ends x hx).2⟩
  · rw [addNode_edges]; exact h.edgesNodup
  · have ek : (s.addNode i).keys = s.keys ++ (if s.parent i = none then [s.name i] else []) := by
      rw [St.keys, St.top, addNode_name, addNode_parent, e]
      simp only [List.filter_append, List.map_append, St.keys, St.top, List.filter_cons, List.filter_nil, Option.isNone_iff_eq_none]
      split <;> simp
    rw [ek]
    split
    · rename_i hp
      refine List.nodup_append.2 ⟨h.keys, by simp, ?_⟩
      rintro a ha b hb rfl
      simp only [List.mem_singleton] at hb
      subst hb
      exact hk hp hm ha
    · simpa using h.keys

@[simp] theorem addEdge_heap (s : St) (a b : Nat) : (s.addEdge a b).heap = s.heap := by
  unfold St.addEdge; simp only; split <;> simp
@[simp] theorem addEdge_name (s : St) (a b : Nat) : (s.addEdge a b).name = s.name := by funext j; unfold St.name; rw [addEdge_heap]
@[simp] theorem addEdge_parent (s : St) (a b : Nat) : (s.addEdge a b).parent = s.parent := by funext j; unfold St.parent; rw [addEdge_heap]

theorem addEdge_nodes (s : St) (a b : Nat) : (s.addEdge a b).nodes = ((s.addNode a).addNode b).nodes := by
  unfold St.addEdge; simp only; split <;> rfl

theorem addEdge_keys (s : St) (a b : Nat) : (s.addEdge a b).keys = ((s.addNode a).addNode b).keys := by
  unfold St.keys St.top
  rw [addEdge_nodes]
  simp

theorem addEdge_edges (s : St) (a b : Nat) : (s.addEdge a b).edges = if (a, b) ∈ s.edges then s.edges else s.edges ++ [(a, b)] := by
  unfold St.addEdge
  simp only [addNode_edges]
  split <;> simp

/-- Adding an edge, given that adding its nodes is right. -/
theorem addEdge_inv {s : St} {a b : Nat} (h : Inv ((s.addNode a).addNode b)) : Inv (s.addEdge a b) := by
  have hedge : (s.addEdge a b).edges = if (a, b) ∈ s.edges then s.edges else s.edges ++ [(a, b)] := addEdge_edges s a b
  refine ⟨?_, ?_, ?_, ?_, ?_, ?_⟩
  · rw [addEdge_nodes]; exact h.nodup
  · rw [addEdge_nodes, addEdge_heap]; simpa using h.bound
  · rw [addEdge_parent]; simpa using h.older
  · intro e he
    rw [addEdge_nodes]
    have hold := h.ends
    simp only [addNode_edges] at hold
    rw [hedge] at he
    split at he
    · exact hold e he
    · rcases List.mem_append.1 he with he | he
      · exact hold e he
      · simp only [List.mem_singleton] at he
        subst he
        simp only [mem_addNode]
        simp
  · rw [hedge]
    have hold := h.edgesNodup
    simp only [addNode_edges] at hold
    split
    · exact hold
    · rename_i hne
      exact List.nodup_append.2 ⟨hold, by simp, by rintro x hx y hy rfl; simp only [List.mem_singleton] at hy; subst hy; exact hne hx⟩
  · rw [addEdge_keys]; exact h.keys

/-! ### Names -/

theorem setName_nodes (s : St) (i : Nat) (n : String) : (s.setName i n).1.nodes = s.nodes := by unfold St.setName; split <;> rfl
theorem setName_edges (s : St) (i : Nat) (n : String) : (s.setName i n).1.edges = s.edges := by unfold St.setName; split <;> rfl
theorem setName_length (s : St) (i : Nat) (n : String) : (s.setName i n).1.heap.length = s.heap.length := by
  unfold St.setName; split <;> simp

theorem setName_parent (s : St) (i : Nat) (n : String) : (s.setName i n).1.parent = s.parent := by
  funext j
  unfold St.setName St.parent
  split
  · rfl
  · simp only [List.getElem?_modify]
    by_cases hij : i = j
    · simp only [if_pos hij]; cases s.heap[j]? <;> rfl
    · simp only [if_neg hij]; cases s.heap[j]? <;> rfl

theorem setName_ok {s s' : St} {i : Nat} {n : String} (h : s.setName i n = (s', none)) :
    n ∉ s.keys ∧ (i < s.heap.length → s'.name i = n) ∧ ∀ j, j ≠ i → s'.name j = s.name j := by
  unfold St.setName at h
  by_cases hk : n ∈ s.keys
  · rw [if_pos hk] at h; simp at h
  · rw [if_neg hk] at h
    simp only [Prod.mk.injEq, and_true] at h
    subst h
    refine ⟨hk, ?_, ?_⟩
    · intro hi
      simp [St.name, List.getElem?_eq_getElem hi]
    · intro j hj
      simp only [St.name, List.getElem?_modify, if_neg (fun e : i = j => hj e.symm)]
      simp

theorem setName_err {s s' : St} {i : Nat} {n : String} {e : Error} (h : s.setName i n = (s', some e)) : s' = s ∧ e = .nameUsed ∧ n ∈ s.keys := by
  unfold St.setName at h
  by_cases hk : n ∈ s.keys
  · rw [if_pos hk] at h; simp only [Prod.mk.injEq, Option.some.injEq] at h; exact ⟨h.1.symm, h.2.symm, hk⟩
  · rw [if_neg hk] at h; simp at h

/-- The keys after a node is renamed. -/
theorem setName_inv {s : St} (h : Inv s) (i : Nat) (hi : i < s.heap.length) (n : String) : Inv (s.setName i n).1 := by
  refine ⟨?_, ?_, ?_, ?_, ?_, ?_⟩
  · rw [setName_nodes]; exact h.nodup
  · rw [setName_nodes, setName_length]; exact h.bound
  · rw [setName_parent]; exact h.older
  · rw [setName_edges, setName_nodes]; exact h.ends
  · rw [setName_edges]; exact h.edgesNodup
  · rcases hr : s.setName i n with ⟨s', _ | e⟩
    · obtain ⟨hk, hname, hothers⟩ := setName_ok hr
      have hn : s'.nodes = s.nodes := by have := setName_nodes s i n; rw [hr] at this; exact this
      have hp : s'.parent = s.parent := by have := setName_parent s i n; rw [hr] at this; exact this
      have htop : s'.top = s.top := by unfold St.top; rw [hn, hp]
      simp only
      unfold St.keys
      rw [htop]
      have hnd : s.top.Nodup := h.nodup.filter _
      refine (List.nodup_map_iff_inj_on hnd).2 ?_
      have hold := (List.nodup_map_iff_inj_on hnd).1 h.keys
      intro a ha b hb hab
      by_cases hai : a = i
      · by_cases hbi : b = i
        · rw [hai, hbi]
        · subst hai
          rw [hname hi, hothers b hbi] at hab
          exact absurd (List.mem_map_of_mem (f := s.name) hb) (hab ▸ hk)
      · by_cases hbi : b = i
        · subst hbi
          rw [hname hi, hothers a hai] at hab
          exact absurd (List.mem_map_of_mem (f := s.name) ha) (hab ▸ hk)
        · rw [hothers a hai, hothers b hbi] at hab
          exact hold a ha b hb hab
    · rw [(setName_err hr).1]; exact h.keys

/-! ### Constructors -/

/-- Objects without a parent, by their number. -/
def tops (objs : List (Option Nat × Slots)) (r : Nat) : Bool := match objs[r]? with
  | some (none, _) => true
  | _ => false

/-- Steps which do not concern nodes without a parent. -/
def Inert (objs : List (Option Nat × Slots)) : Act → Prop
  | .absent _ => True
  | .may _ => True
  | .init r _ => r < objs.length ∧ tops objs r = false
  | .add r => r < objs.length ∧ tops objs r = false
  | .edge a b => (a < objs.length ∧ tops objs a = false) ∧ (b < objs.length ∧ tops objs b = false)

/-- A constructor which gives names in a safe order: `pending` are the nodes which have a name and are not in the graph yet, `added` the ones in
the graph. -/
def Good (objs : List (Option Nat × Slots)) : List (Nat × String) → List Nat → List Act → Prop
  | _, _, [] => True
  | p, ad, .absent _ :: l => Good objs p ad l
  | p, ad, .may _ :: l => Good objs p ad l
  | p, ad, .init r n :: l => r < objs.length ∧
      ((tops objs r = false ∧ Good objs p ad l) ∨ (tops objs r = true ∧ r ∉ ad ∧ (∀ q ∈ p, q.1 ≠ r) ∧ Good objs ((r, n) :: p) ad l))
  | p, ad, .add r :: l => r < objs.length ∧
      ((tops objs r = false ∧ Good objs p ad l) ∨
        (∃ n, (r, n) ∈ p ∧ (∀ q ∈ p, q.1 ≠ r → q.2 ≠ n) ∧ Good objs (p.filter (·.1 != r)) (r :: ad) l))
  | p, ad, .edge a b :: l => a < objs.length ∧ b < objs.length ∧ (tops objs a = false ∨ a ∈ ad) ∧ (tops objs b = false ∨ b ∈ ad) ∧ Good objs p ad l

theorem good_inert {objs : List (Option Nat × Slots)} {l l' : List Act} (hl : ∀ a ∈ l, Inert objs a) {p : List (Nat × String)} {ad : List Nat}
    (h : Good objs p ad l') : Good objs p ad (l ++ l') := by
  induction l with
  | nil => exact h
  | cons a l ih =>
    have ih := ih (fun b hb => hl b (by simp [hb]))
    have ha := hl a (by simp)
    cases a with
    | absent n => exact ih
    | may k => exact ih
    | init r n => exact ⟨ha.1, Or.inl ⟨ha.2, ih⟩⟩
    | add r => exact ⟨ha.1, Or.inl ⟨ha.2, ih⟩⟩
    | edge a b => exact ⟨ha.1.1, ha.2.1, Or.inl ha.1.2, Or.inl ha.2.2, ih⟩

/-- The state while a constructor runs. -/
structure During (objs : List (Option Nat × Slots)) (base : Nat) (p : List (Nat × String)) (ad : List Nat) (s : St) : Prop where
  inv : Inv s
  room : base + objs.length ≤ s.heap.length
  parents : ∀ r, r < objs.length → (tops objs r = true ↔ s.parent (base + r) = none)
  pending : ∀ q ∈ p, s.name (base + q.1) = q.2 ∧ base + q.1 ∉ s.nodes ∧ q.2 ∉ s.keys ∧ q.1 < objs.length ∧ tops objs q.1 = true
  inside : ∀ r, r < objs.length → base + r ∈ s.nodes → tops objs r = false ∨ r ∈ ad
  added : ∀ r ∈ ad, base + r ∈ s.nodes

/-- Adding a sub-node. -/
theorem during_child {objs : List (Option Nat × Slots)} {base : Nat} {p : List (Nat × String)} {ad : List Nat} {s : St}
    (h : During objs base p ad s) {r : Nat} (hr : r < objs.length) (ht : tops objs r = false) : During objs base p ad (s.addNode (base + r)) := by
  have hnp : s.parent (base + r) ≠ none := fun hc => by have := (h.parents r hr).2 hc; rw [ht] at this; exact absurd this (by simp)
  have hkeys : ∀ n, n ∈ (s.addNode (base + r)).keys ↔ n ∈ s.keys := by
    intro n
    rw [mem_keys, mem_keys]
    simp only [addNode_parent, addNode_name, mem_addNode]
    constructor
    · rintro ⟨i, hi | rfl, hp, hn⟩
      · exact ⟨i, hi, hp, hn⟩
      · exact absurd hp hnp
    · rintro ⟨i, hi, hp, hn⟩; exact ⟨i, Or.inl hi, hp, hn⟩
  refine ⟨addNode_inv h.inv (by have := h.room; omega) (fun hc => absurd hc hnp), by simpa using h.room, by simpa using h.parents, ?_, ?_, ?_⟩
  · intro q hq
    obtain ⟨k1, k2, k3, k4, k5⟩ := h.pending q hq
    refine ⟨by rw [addNode_name]; exact k1, ?_, by rw [hkeys]; exact k3, k4, k5⟩
    rw [mem_addNode]; rintro (hc | hc)
    · exact k2 hc
    · have : q.1 = r := by omega
      rw [this, ht] at k5; exact absurd k5 (by simp)
  · intro r' hr' hin
    rw [mem_addNode] at hin
    rcases hin with hin | hin
    · exact h.inside r' hr' hin
    · have : r' = r := by omega
      rw [this]; exact Or.inl ht
  · intro r' hr'
    rw [mem_addNode]; exact Or.inl (h.added r' hr')

theorem exec_inv {objs : List (Option Nat × Slots)} {raises : Nat → Bool} {base : Nat} (l : List Act) (p : List (Nat × String)) (ad : List Nat) (s : St)
    (hg : Good objs p ad l) (h : During objs base p ad s) : Inv (exec raises base l s).1 := by
  induction l generalizing p ad s with
  | nil => exact h.inv
  | cons a l ih =>
    cases a with
    | absent n =>
      simp only [exec]
      split
      · exact h.inv
      · exact ih p ad s hg h
    | may k =>
      simp only [exec]
      split
      · exact h.inv
      · exact ih p ad s hg h
    | init r n =>
      simp only [exec]
      have hr : base + r < s.heap.length := by have := hg.1; have := h.room; omega
      have hi := setName_inv h.inv (base + r) hr n
      have hnodes := setName_nodes s (base + r) n
      have hpar := setName_parent s (base + r) n
      have hlen := setName_length s (base + r) n
      rcases hs : s.setName (base + r) n with ⟨s', _ | e⟩
      · rw [hs] at hi hnodes hpar hlen
        simp only at hi hnodes hpar hlen ⊢
        obtain ⟨hk, hname, hoth⟩ := setName_ok hs
        -- the keys are as before if the node is not at the top of the graph
        have hkeys : (base + r ∉ s.nodes ∨ tops objs r = false) → s'.keys = s.keys := by
          intro hc
          have htop : s'.top = s.top := by unfold St.top; rw [hnodes, hpar]
          unfold St.keys
          rw [htop]
          refine List.map_congr_left ?_
          intro j hj
          refine hoth j ?_
          rintro rfl
          simp only [St.top, List.mem_filter, Option.isNone_iff_eq_none] at hj
          rcases hc with hc | hc
          · exact hc hj.1
          · have := (h.parents r hg.1).2 hj.2
            rw [hc] at this; exact absurd this (by simp)
        rcases hg.2 with ⟨ht, hg'⟩ | ⟨ht, hnotin, hq, hg'⟩
        · refine ih p ad s' hg' ⟨hi, by rw [hlen]; exact h.room, by rw [hpar]; exact h.parents, ?_, by rw [hnodes]; exact h.inside,
            by rw [hnodes]; exact h.added⟩
          intro q hqp
          obtain ⟨h1, h2, h3, h4, h5⟩ := h.pending q hqp
          rw [hkeys (Or.inr ht), hnodes]
          refine ⟨?_, h2, h3, h4, h5⟩
          by_cases hqr : q.1 = r
          · rw [hqr, ht] at h5; exact absurd h5 (by simp)
          · rw [hoth _ (by omega)]; exact h1
        · by_cases hin : base + r ∈ s.nodes
          · rcases h.inside r hg.1 hin with ht' | hc
            · rw [ht'] at ht; exact absurd ht (by simp)
            · exact absurd hc hnotin
          · refine ih ((r, n) :: p) ad s' hg' ⟨hi, by rw [hlen]; exact h.room, by rw [hpar]; exact h.parents, ?_, by rw [hnodes]; exact h.inside,
              by rw [hnodes]; exact h.added⟩
            intro q hqp
            rw [hkeys (Or.inl hin), hnodes]
            rcases List.mem_cons.1 hqp with rfl | hqp
            · exact ⟨hname hr, hin, hk, hg.1, ht⟩
            · obtain ⟨h1, h2, h3, h4⟩ := h.pending q hqp
              have := hq q hqp
              exact ⟨by rw [hoth _ (by omega)]; exact h1, h2, h3, h4⟩
      · obtain ⟨rfl, -, -⟩ := setName_err hs
        exact h.inv
    | add r =>
      simp only [exec]
      have hr : base + r < s.heap.length := by have := hg.1; have := h.room; omega
      rcases hg.2 with ⟨ht, hg'⟩ | ⟨n, hn, hq, hg'⟩
      · exact ih p ad _ hg' (during_child h hg.1 ht)
      · obtain ⟨h1, h2, h3, h4, h5⟩ := h.pending _ hn
        simp only at h1 h2 h3 h4 h5
        have hi : Inv (s.addNode (base + r)) := addNode_inv h.inv hr (fun _ _ => by rw [h1]; exact h3)
        refine ih _ _ _ hg' ⟨hi, by simpa using h.room, by simpa using h.parents, ?_, ?_, ?_⟩
        · intro q hqp
          simp only [List.mem_filter, bne_iff_ne, ne_eq] at hqp
          obtain ⟨k1, k2, k3, k4, k5⟩ := h.pending q hqp.1
          refine ⟨by rw [addNode_name]; exact k1, ?_, ?_, k4, k5⟩
          · rw [mem_addNode]; rintro (hc | hc)
            · exact k2 hc
            · exact hqp.2 (by omega)
          · rw [mem_keys]
            rintro ⟨i, hi, hip, hin⟩
            rw [mem_addNode] at hi
            rw [addNode_parent] at hip
            rw [addNode_name] at hin
            rcases hi with hi | rfl
            · exact k3 (mem_keys.2 ⟨i, hi, hip, hin⟩)
            · rw [h1] at hin; exact hq q hqp.1 hqp.2 hin.symm
        · intro r' hr' hin
          rw [mem_addNode] at hin
          rcases hin with hin | hin
          · rcases h.inside r' hr' hin with hc | hc
            · exact Or.inl hc
            · exact Or.inr (by simp [hc])
          · exact Or.inr (by simp; left; omega)
        · intro r' hr'
          rw [mem_addNode]
          rcases List.mem_cons.1 hr' with rfl | hr'
          · exact Or.inr rfl
          · exact Or.inl (h.added r' hr')
    | edge a b =>
      simp only [exec]
      obtain ⟨ha, hb, hta, htb, hg'⟩ := hg
      refine ih p ad _ hg' ?_
      have h1 : During objs base p ad (s.addNode (base + a)) := by
        rcases hta with ht | ht
        · exact during_child h ha ht
        · rw [addNode_of_mem (h.added a ht)]; exact h
      have h2 : During objs base p ad ((s.addNode (base + a)).addNode (base + b)) := by
        rcases htb with ht | ht
        · exact during_child h1 hb ht
        · rw [addNode_of_mem (h1.added b ht)]; exact h1
      refine ⟨addEdge_inv h2.inv, by simpa using h2.room, by simpa using h2.parents, ?_, ?_, ?_⟩
      · rw [addEdge_name, addEdge_keys, addEdge_nodes]; simpa using h2.pending
      · rw [addEdge_nodes]; exact h2.inside
      · rw [addEdge_nodes]; exact h2.added

/-- The state in which a constructor starts. -/
def begun (objs : List (Option Nat × Slots)) (s : St) : St :=
  { s with heap := s.heap ++ objs.map fun (p, sl) => ⟨"", p.map (s.heap.length + ·), sl.shift s.heap.length, 0⟩ }

theorem begun_parent_old (objs : List (Option Nat × Slots)) {s : St} {i : Nat} (hi : i < s.heap.length) : (begun objs s).parent i = s.parent i := by
  unfold St.parent begun; simp only [List.getElem?_append_left hi]

theorem begun_name_old (objs : List (Option Nat × Slots)) {s : St} {i : Nat} (hi : i < s.heap.length) : (begun objs s).name i = s.name i := by
  unfold St.name begun; simp only [List.getElem?_append_left hi]

theorem begun_parent_new (objs : List (Option Nat × Slots)) (s : St) (r : Nat) :
    (begun objs s).parent (s.heap.length + r) = objs[r]?.bind fun o => o.1.map (s.heap.length + ·) := by
  unfold St.parent begun
  simp only [List.getElem?_append_right (Nat.le_add_right _ _), Nat.add_sub_cancel_left, List.getElem?_map]
  cases objs[r]? <;> rfl

theorem begun_keys (objs : List (Option Nat × Slots)) {s : St} (h : ∀ i ∈ s.nodes, i < s.heap.length) : (begun objs s).keys = s.keys := by
  have htop : (begun objs s).top = s.top := by
    unfold St.top
    refine List.filter_congr ?_
    intro i hi
    rw [begun_parent_old objs (h i hi)]
  unfold St.keys
  rw [htop]
  refine List.map_congr_left ?_
  intro i hi
  exact begun_name_old objs (h i (List.mem_filter.1 hi).1)

/-- Sub-nodes come after their parents. -/
def Ordered (objs : List (Option Nat × Slots)) : Prop := ∀ r p : Nat, (objs[r]?.bind Prod.fst) = some p → p < r

theorem begun_during {objs : List (Option Nat × Slots)} (ho : Ordered objs) {s : St} (h : Inv s) : During objs s.heap.length [] [] (begun objs s) := by
  refine ⟨⟨h.nodup, ?_, ?_, h.ends, h.edgesNodup, by rw [begun_keys objs h.bound]; exact h.keys⟩, ?_, ?_, ?_, ?_, ?_⟩
  · intro i hi
    have := h.bound i hi
    simp only [begun, List.length_append]; omega
  · intro i p hp
    by_cases hi : i < s.heap.length
    · rw [begun_parent_old objs hi] at hp; exact h.older i p hp
    · obtain ⟨r, rfl⟩ : ∃ r, i = s.heap.length + r := ⟨i - s.heap.length, by omega⟩
      rw [begun_parent_new] at hp
      cases hr : objs[r]? with
      | none => rw [hr] at hp; cases hp
      | some o =>
        rw [hr] at hp
        simp only [Option.bind_some, Option.map_eq_some_iff] at hp
        obtain ⟨q, hq, rfl⟩ := hp
        have := ho r q (by rw [hr]; exact hq)
        omega
  · simp [begun]
  · intro r hr
    rw [begun_parent_new, tops, List.getElem?_eq_getElem hr]
    rcases objs[r] with ⟨_ | p, sl⟩ <;> simp
  · intro q hq; cases hq
  · intro r _ hin
    have := h.bound _ hin
    omega
  · intro r hr; cases hr

end Verif.Network

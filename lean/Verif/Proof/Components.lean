import Verif.Proof.Digraph
import Verif.Spec.Components

namespace Verif.Components

open Verif

/-! ## Depth-first search -/

/-- Invariant of the search loop. -/
structure DfsInv (g : Digraph) (src : Nat) (vis : List Nat) (stack : List (Nat × List Nat)) (out : List Nat) :
    Prop where
  vis_iff : ∀ x, x ∈ vis ↔ x ∈ out ∨ x ∈ stack.map (·.1)
  nodup : (stack.map (·.1) ++ out).Nodup
  chain : stack.IsChain (fun a b => g.Edge b.1 a.1)
  frames : ∀ f ∈ stack, ∀ c, g.Edge f.1 c → c ∈ f.2 ∨ c ∈ vis
  frames_sub : ∀ f ∈ stack, ∀ c ∈ f.2, g.Edge f.1 c
  closed : ∀ l u r, out = l ++ u :: r → ∀ v, g.Edge u v → v ∈ l
  reach : ∀ x ∈ vis, Relation.ReflTransGen g.Edge src x
  src_vis : src ∈ vis

theorem stack_reach {g : Digraph} (f : Nat × List Nat) (stack : List (Nat × List Nat))
    (h : (f :: stack).IsChain (fun a b => g.Edge b.1 a.1)) :
    ∀ x ∈ stack, Relation.TransGen g.Edge x.1 f.1 := by
  induction stack generalizing f with
  | nil => simp
  | cons a rest ih =>
    obtain ⟨h1, h2⟩ := List.isChain_cons_cons.1 h
    intro x hx
    rcases List.mem_cons.1 hx with rfl | hx
    · exact .single h1
    · exact (ih a h2 x hx).tail h1

theorem closed_append {g : Digraph} {out : List Nat} {p : Nat}
    (h : ∀ l u r, out = l ++ u :: r → ∀ v, g.Edge u v → v ∈ l)
    (hp : ∀ v, g.Edge p v → v ∈ out) :
    ∀ l u r, out ++ [p] = l ++ u :: r → ∀ v, g.Edge u v → v ∈ l := by
  intro l u r heq v hv
  rcases List.eq_nil_or_concat r with rfl | ⟨r', b, rfl⟩
  · have := List.append_inj' heq (by simp)
    obtain ⟨rfl, h2⟩ := this
    simp at h2; subst h2
    exact hp v hv
  · have heq' : out ++ [p] = (l ++ u :: r') ++ [b] := by simpa using heq
    obtain ⟨h1, -⟩ := List.append_inj' heq' (by simp)
    exact h l u r' h1 v hv

theorem dfsLoop_spec (g : Digraph) (hac : ¬ g.Cyclic) (src : Nat) (vis : List Nat)
    (stack : List (Nat × List Nat)) (out : List Nat) (h : DfsInv g src vis stack out) :
    ∃ vis', DfsInv g src vis' [] (dfsLoop g vis stack out) := by
  fun_induction dfsLoop g vis stack out with
  | case1 vis out => exact ⟨vis, h⟩
  | case2 vis out p rest ih =>
    apply ih
    have hnc : ∀ c, g.Edge p c → c ∈ out := by
      intro c hc
      have := h.frames (p, []) (by simp) c hc
      simp only [List.not_mem_nil, false_or] at this
      rcases (h.vis_iff c).1 this with h' | h'
      · exact h'
      · exfalso
        simp only [List.map_cons, List.mem_cons, List.mem_map] at h'
        rcases h' with rfl | ⟨f, hf, rfl⟩
        · exact hac ⟨_, .single hc⟩
        · exact hac ⟨_, Relation.TransGen.head hc (stack_reach _ _ h.chain f hf)⟩
    refine ⟨?_, ?_, ?_, ?_, ?_, ?_, h.reach, h.src_vis⟩
    · intro x; rw [h.vis_iff x]; simp only [List.map_cons, List.mem_cons, List.mem_append, List.not_mem_nil]
      tauto
    · have hn := h.nodup
      simp only [List.map_cons, List.cons_append, List.nodup_cons] at hn
      have : (List.map (·.1) rest ++ (out ++ [p])).Perm (p :: (List.map (·.1) rest ++ out)) := by
        rw [← List.append_assoc]
        exact List.perm_append_singleton _ _
      rw [this.nodup_iff, List.nodup_cons]
      exact hn
    · exact h.chain.tail
    · intro f hf; exact h.frames f (by simp [hf])
    · intro f hf; exact h.frames_sub f (by simp [hf])
    · exact closed_append h.closed hnc
  | case3 vis out p c cs rest hc ih =>
    apply ih
    refine ⟨?_, ?_, ?_, ?_, ?_, h.closed, h.reach, h.src_vis⟩
    · simpa using h.vis_iff
    · simpa using h.nodup
    · have := h.chain
      match rest with
      | [] => simp
      | a :: rest' =>
        obtain ⟨h1, h2⟩ := List.isChain_cons_cons.1 this
        exact List.isChain_cons_cons.2 ⟨h1, h2⟩
    · intro f hf x hx
      rcases List.mem_cons.1 hf with rfl | hf
      · rcases h.frames (p, c :: cs) (by simp) x hx with h' | h'
        · rcases List.mem_cons.1 h' with rfl | h'
          · exact .inr hc
          · exact .inl h'
        · exact .inr h'
      · exact h.frames f (by simp [hf]) x hx
    · intro f hf x hx
      rcases List.mem_cons.1 hf with rfl | hf
      · exact h.frames_sub (p, c :: cs) (by simp) x (by simp [hx])
      · exact h.frames_sub f (by simp [hf]) x hx
  | case4 vis out p c cs rest hc ih =>
    apply ih
    have hpc : g.Edge p c := h.frames_sub (p, c :: cs) (by simp) c (by simp)
    refine ⟨?_, ?_, ?_, ?_, ?_, h.closed, ?_, ?_⟩
    · intro x
      rw [List.mem_cons, h.vis_iff x]
      simp only [List.map_cons, List.mem_cons]
      tauto
    · have hn := h.nodup
      simp only [List.map_cons, List.cons_append] at hn ⊢
      rw [List.nodup_cons]
      refine ⟨?_, hn⟩
      intro hmem
      apply hc
      rw [h.vis_iff c]
      simp only [List.mem_cons, List.mem_append, List.map_cons] at hmem ⊢
      tauto
    · refine List.isChain_cons_cons.2 ⟨hpc, ?_⟩
      have := h.chain
      match rest with
      | [] => simp
      | a :: rest' =>
        obtain ⟨h1, h2⟩ := List.isChain_cons_cons.1 this
        exact List.isChain_cons_cons.2 ⟨h1, h2⟩
    · intro f hf x hx
      rcases List.mem_cons.1 hf with rfl | hf
      · exact .inl (Digraph.mem_adj.2 hx)
      · rcases List.mem_cons.1 hf with rfl | hf
        · rcases h.frames (p, c :: cs) (by simp) x hx with h' | h'
          · rcases List.mem_cons.1 h' with rfl | h'
            · exact .inr (by simp)
            · exact .inl h'
          · exact .inr (by simp [h'])
        · rcases h.frames f (by simp [hf]) x hx with h' | h'
          · exact .inl h'
          · exact .inr (by simp [h'])
    · intro f hf x hx
      rcases List.mem_cons.1 hf with rfl | hf
      · exact Digraph.mem_adj.1 hx
      · rcases List.mem_cons.1 hf with rfl | hf
        · exact h.frames_sub (p, c :: cs) (by simp) x (by simp [hx])
        · exact h.frames_sub f (by simp [hf]) x hx
    · intro x hx
      rcases List.mem_cons.1 hx with rfl | hx
      · refine (h.reach p ?_).tail hpc
        rw [h.vis_iff]; simp
      · exact h.reach x hx
    · simp [h.src_vis]

theorem dfsPostorder_spec (g : Digraph) (hac : ¬ g.Cyclic) (src : Nat) :
    (dfsPostorder g src).Nodup ∧
    (∀ x, x ∈ dfsPostorder g src ↔ Relation.ReflTransGen g.Edge src x) ∧
    (∀ l u r, dfsPostorder g src = l ++ u :: r → ∀ v, g.Edge u v → v ∈ l) := by
  have h0 : DfsInv g src [src] [(src, g.adj src)] [] := by
    refine ⟨by simp, by simp, by simp, ?_, ?_, by simp, ?_, by simp⟩
    · intro f hf c hc; simp at hf; subst hf; exact .inl (Digraph.mem_adj.2 hc)
    · intro f hf c hc; simp at hf; subst hf; exact Digraph.mem_adj.1 hc
    · intro x hx; simp at hx; subst hx; exact .refl
  obtain ⟨vis', h⟩ := dfsLoop_spec g hac src _ _ _ h0
  have hv : ∀ x, x ∈ vis' ↔ x ∈ dfsPostorder g src := by
    intro x; have := h.vis_iff x; simpa [dfsPostorder] using this
  refine ⟨by simpa [dfsPostorder] using h.nodup, ?_, h.closed⟩
  intro x
  constructor
  · intro hx; exact h.reach x ((hv x).2 hx)
  · intro hx
    induction hx with
    | refl => exact (hv src).1 h.src_vis
    | tail _ hbc ih =>
      obtain ⟨l, r, hlr⟩ := List.append_of_mem ih
      have := h.closed l _ r hlr _ hbc
      rw [hlr]; simp [this]

/-! ## Construction histories -/

/-- What every construction history guarantees about the graph. -/
structure BuildInv (ops : List Op) (g : Digraph) : Prop where
  wf : g.WF
  root_mem : root ∈ g.nodes
  nodes : ∀ c, c ∈ g.nodes ↔ c = root ∨ c ∈ created ops
  root_edges : ∀ c, g.Edge root c ↔ c ∈ created ops
  no_into_root : ∀ c, ¬ g.Edge c root
  deps : ∀ x d, d ≠ root → (g.Edge d x ↔ declaredDep ops.reverse x d)
  deps_root : ∀ x d, declaredDep ops.reverse x d → d ≠ root ∧ x ≠ root
  root_not_created : root ∉ created ops

theorem created_append (ops : List Op) (op : Op) :
    created (ops ++ [op]) = created ops ++ (match op with | .create c => [c] | _ => []) := by
  cases op <;> simp [created, List.filterMap_append]

theorem wf_removeEdge {g g' : Digraph} {u v : Nat} (h : g.WF) (hr : g.removeEdge u v = some g') :
    g'.WF ∧ g'.nodes = g.nodes ∧ (∀ a b, g'.Edge a b ↔ g.Edge a b ∧ ¬ (a = u ∧ b = v)) := by
  unfold Digraph.removeEdge at hr
  split at hr
  · simp at hr; subst hr
    have hmem : ∀ a b, (a, b) ∈ g.edges.erase (u, v) ↔ (a, b) ∈ g.edges ∧ ¬ (a = u ∧ b = v) := by
      intro a b
      rw [h.2.1.mem_erase_iff]
      simp only [ne_eq, Prod.mk.injEq]
      tauto
    refine ⟨⟨h.1, h.2.1.erase _, ?_⟩, rfl, ?_⟩
    · intro a b hab
      exact h.2.2 a b ((hmem a b).1 hab).1
    · intro a b; exact hmem a b
  · simp at hr

theorem build_inv (ops : List Op) (g : Digraph) (h : build ops = some g) : BuildInv ops g := by
  induction ops using List.reverseRecOn generalizing g with
  | nil =>
    simp [build] at h; subst h
    refine ⟨Digraph.wf_addNode Digraph.wf_empty _, ?_, ?_, ?_, ?_, ?_, ?_, ?_⟩ <;>
      simp [Digraph.addNode, Digraph.empty, created, Digraph.Edge, declaredDep]
  | append_singleton ops op ih =>
    unfold build at h
    rw [List.foldlM_append] at h
    simp only [Option.bind_eq_bind, Option.bind_eq_some_iff] at h
    obtain ⟨g0, h0, h1⟩ := h
    have I := ih g0 h0
    simp only [List.foldlM_cons, List.foldlM_nil, Option.bind_eq_bind, Option.bind_eq_some_iff,
      Option.pure_def, Option.some.injEq] at h1
    obtain ⟨g1, h1, rfl⟩ := h1
    cases op with
    | create c =>
      simp only [applyOp] at h1
      split at h1
      · simp at h1
      · rename_i hc
        push Not at hc
        simp at h1; subst h1
        have hcn : c ∉ created ops := fun hcc => hc.2 ((I.nodes c).2 (.inr hcc))
        refine ⟨Digraph.wf_addEdge I.wf _ _, ?_, ?_, ?_, ?_, ?_, ?_, ?_⟩
        · rw [Digraph.mem_nodes_addEdge]; simp
        · intro x; rw [Digraph.mem_nodes_addEdge, I.nodes, created_append]; simp; tauto
        · intro x; rw [Digraph.edge_addEdge, I.root_edges, created_append]; simp
        · intro x; rw [Digraph.edge_addEdge]
          rintro (h' | ⟨-, h'⟩)
          · exact I.no_into_root x h'
          · exact hc.1 h'.symm
        · intro x d hd; rw [Digraph.edge_addEdge, I.deps x d hd]
          simp [declaredDep, hd]
        · intro x d; simp only [List.reverse_append, List.reverse_cons, List.reverse_nil, List.nil_append,
            List.cons_append, declaredDep]; exact I.deps_root x d
        · rw [created_append]; simp [I.root_not_created]; exact fun h => hc.1 h.symm
    | addDep x d =>
      simp only [applyOp] at h1
      split at h1
      · rename_i hc
        obtain ⟨hx, hd, hxr, hdr⟩ := hc
        simp at h1; subst h1
        refine ⟨Digraph.wf_addEdge I.wf _ _, ?_, ?_, ?_, ?_, ?_, ?_, ?_⟩
        · rw [Digraph.mem_nodes_addEdge]; simp [I.root_mem]
        · intro y; rw [Digraph.mem_nodes_addEdge, I.nodes, created_append]; simp
          rintro (rfl | rfl)
          · exact (I.nodes _).1 hd
          · exact (I.nodes _).1 hx
        · intro y; rw [Digraph.edge_addEdge, I.root_edges, created_append]; simp
          intro h'; exact absurd h'.symm hdr
        · intro y; rw [Digraph.edge_addEdge]
          rintro (h' | ⟨-, h'⟩)
          · exact I.no_into_root y h'
          · exact hxr h'.symm
        · intro y e he; rw [Digraph.edge_addEdge, I.deps y e he]
          simp [declaredDep]; tauto
        · intro y e; simp only [List.reverse_append, List.reverse_cons, List.reverse_nil, List.nil_append,
            List.cons_append, declaredDep]
          rintro (⟨rfl, rfl⟩ | h')
          · exact ⟨hdr, hxr⟩
          · exact I.deps_root y e h'
        · rw [created_append]; simp [I.root_not_created]
      · simp at h1
    | addOther x =>
      simp only [applyOp] at h1
      split at h1
      · simp at h1; subst h1
        refine ⟨I.wf, I.root_mem, ?_, ?_, I.no_into_root, ?_, ?_, ?_⟩
        · intro y; rw [I.nodes, created_append]; simp
        · intro y; rw [I.root_edges, created_append]; simp
        · intro y e he; rw [I.deps y e he]; simp [declaredDep]
        · intro y e; simp only [List.reverse_append, List.reverse_cons, List.reverse_nil, List.nil_append,
            List.cons_append, declaredDep]; exact I.deps_root y e
        · rw [created_append]; simp [I.root_not_created]
      · simp at h1
    | removeDep x d =>
      simp only [applyOp] at h1
      split at h1
      · simp at h1
      · rename_i hdr
        obtain ⟨w1, w2, w3⟩ := wf_removeEdge I.wf h1
        refine ⟨w1, by rw [w2]; exact I.root_mem, ?_, ?_, ?_, ?_, ?_, ?_⟩
        · intro y; rw [w2, I.nodes, created_append]; simp
        · intro y; rw [w3, I.root_edges, created_append]; simp
          intro _ h'; exact absurd h'.symm hdr
        · intro y; rw [w3]; intro h'; exact I.no_into_root y h'.1
        · intro y e he; rw [w3, I.deps y e he]; simp [declaredDep]; tauto
        · intro y e; simp only [List.reverse_append, List.reverse_cons, List.reverse_nil, List.nil_append,
            List.cons_append, declaredDep]
          rintro ⟨-, h'⟩; exact I.deps_root y e h'
        · rw [created_append]; simp [I.root_not_created]

theorem transGen_dep_iff {ops : List Op} {g : Digraph} (I : BuildInv ops g) {x d : Nat}
    (h : Relation.TransGen (declaredDep ops.reverse) x d) : Relation.TransGen g.Edge d x := by
  induction h with
  | single h => exact .single ((I.deps _ _ (I.deps_root _ _ h).1).2 h)
  | tail _ h ih => exact Relation.TransGen.head ((I.deps _ _ (I.deps_root _ _ h).1).2 h) ih

theorem cyclic_iff {ops : List Op} {g : Digraph} (I : BuildInv ops g) :
    g.Cyclic ↔ ∃ c, Relation.TransGen (declaredDep ops.reverse) c c := by
  constructor
  · rintro ⟨u, hu⟩
    have key : ∀ a b, Relation.TransGen g.Edge a b → a ≠ root →
        Relation.TransGen (declaredDep ops.reverse) b a := by
      intro a b hab
      induction hab using Relation.TransGen.head_induction_on with
      | single h => intro ha; exact .single ((I.deps _ _ ha).1 h)
      | head h hbc ih =>
        rename_i a' b'
        intro ha
        have hb : b' ≠ root := by rintro rfl; exact I.no_into_root _ h
        exact (ih hb).tail ((I.deps _ _ ha).1 h)
    have hur : u ≠ root := by
      rintro rfl
      obtain ⟨v, _, hv⟩ := Relation.TransGen.tail'_iff.1 hu
      exact I.no_into_root _ hv
    exact ⟨u, key u u hu hur⟩
  · rintro ⟨c, hc⟩
    exact ⟨c, transGen_dep_iff I hc⟩

theorem flatten_ok {ops : List Op} {g : Digraph} (I : BuildInv ops g) (hac : ¬ g.Cyclic) :
    flatten g = .ok ((dfsPostorder g root).filter (· != root)).reverse := by
  unfold flatten
  have h1 : g.hasCycle = false := by
    rw [Bool.eq_false_iff]; intro h; exact hac ((Digraph.hasCycle_iff I.wf).1 h)
  have h2 : g.edges.any (fun e => e.1 == e.2) = false := by
    rw [Bool.eq_false_iff]; intro h
    rw [List.any_eq_true] at h
    obtain ⟨⟨a, b⟩, hab, h'⟩ := h
    simp at h'; subst h'
    exact hac ⟨a, .single hab⟩
  rw [h1, h2]; simp

theorem evalOrder {ops : List Op} {g : Digraph} (I : BuildInv ops g) (hac : ¬ g.Cyclic) :
    IsEvalOrder (created ops) (declaredDep ops.reverse) ((dfsPostorder g root).filter (· != root)).reverse := by
  obtain ⟨h1, h2, h3⟩ := dfsPostorder_spec g hac root
  -- transitive closure of "edge targets come first"
  have hclosed : ∀ l u r, dfsPostorder g root = l ++ u :: r → ∀ v, Relation.TransGen g.Edge u v → v ∈ l := by
    intro l u r hlr v huv
    induction huv with
    | single h => exact h3 l u r hlr _ h
    | tail _ hbc ih =>
      obtain ⟨l1, l2, rfl⟩ := List.append_of_mem ih
      have := h3 l1 _ (l2 ++ u :: r) (by simpa using hlr) _ hbc
      simp [this]
  refine ⟨?_, ?_, ?_⟩
  · rw [List.nodup_reverse]; exact h1.filter _
  · intro c
    simp only [List.mem_reverse, List.mem_filter, bne_iff_ne, ne_eq, h2]
    constructor
    · rintro ⟨hr, hc⟩
      rcases Relation.ReflTransGen.cases_tail hr with h | ⟨b, _, hbc⟩
      · exact absurd h hc
      · have := (I.nodes c).1 (I.wf.2.2 _ _ hbc).2
        exact this.resolve_left hc
    · intro hc
      exact ⟨.single ((I.root_edges c).2 hc), fun h => I.root_not_created (h ▸ hc)⟩
  · intro before c after heq d hd
    have hrev : (dfsPostorder g root).filter (· != root) = after.reverse ++ c :: before.reverse := by
      have := congrArg List.reverse heq
      simpa using this
    have hnd := h1.filter (· != root)
    rw [hrev] at hnd
    have hdc : Relation.TransGen g.Edge d c := transGen_dep_iff I hd
    -- d is in the order
    have hcm : c ∈ dfsPostorder g root := by
      have : c ∈ (dfsPostorder g root).filter (· != root) := by rw [hrev]; simp
      exact (List.mem_filter.1 this).1
    have hdr : d ≠ root := by
      rcases Relation.TransGen.tail'_iff.1 hd with ⟨b, _, hb⟩
      exact (I.deps_root _ _ hb).1
    have hdn : d ∈ g.nodes := by
      rcases Relation.TransGen.head'_iff.1 hdc with ⟨b, hb, _⟩
      exact (I.wf.2.2 _ _ hb).1
    have hdm : d ∈ dfsPostorder g root :=
      (h2 d).2 (.single ((I.root_edges d).2 (((I.nodes d).1 hdn).resolve_left hdr)))
    have hdf : d ∈ (dfsPostorder g root).filter (· != root) := List.mem_filter.2 ⟨hdm, by simpa using hdr⟩
    rw [hrev, List.mem_append, List.mem_cons] at hdf
    rcases hdf with h | h | h
    · -- d before c in post order: impossible
      exfalso
      obtain ⟨l, r, hlr⟩ := List.append_of_mem hdm
      have hcl := hclosed l d r hlr c hdc
      -- c before d in postorder and d before c in filtered postorder
      obtain ⟨l1, l2, rfl⟩ := List.append_of_mem hcl
      obtain ⟨a1, a2, ha⟩ := List.append_of_mem h
      have e1 : (dfsPostorder g root).filter (· != root) =
          l1.filter (· != root) ++ c :: (l2.filter (· != root) ++ d :: r.filter (· != root)) := by
        rw [hlr]
        have hcr : c ≠ root := by
          have : c ∈ (dfsPostorder g root).filter (· != root) := by rw [hrev]; simp
          simpa using (List.mem_filter.1 this).2
        simp [List.filter_append, hcr, hdr]
      have e2 : (dfsPostorder g root).filter (· != root) = a1 ++ d :: (a2 ++ c :: before.reverse) := by
        rw [hrev, ha]; simp
      have hnd1 := h1.filter (· != root)
      have hnd2 := h1.filter (· != root)
      rw [e1] at hnd1
      rw [e2] at hnd2
      have i1 := List.idxOf_append (l₁ := l1.filter (· != root))
        (l₂ := c :: (l2.filter (· != root) ++ d :: r.filter (· != root))) (a := c)
      have c1 : c ∉ l1.filter (· != root) := fun h => (List.nodup_append.1 hnd1).2.2 c h c (by simp) rfl
      have d1 : d ∉ l1.filter (· != root) := fun h => (List.nodup_append.1 hnd1).2.2 d h d (by simp) rfl
      have c2 : c ∉ a1 := fun h => (List.nodup_append.1 hnd2).2.2 c h c (by simp) rfl
      have d2 : d ∉ a1 := fun h => (List.nodup_append.1 hnd2).2.2 d h d (by simp) rfl
      have hcd : c ≠ d := by
        rintro rfl; exact hac ⟨c, hdc⟩
      have x1 : List.idxOf c ((dfsPostorder g root).filter (· != root)) <
          List.idxOf d ((dfsPostorder g root).filter (· != root)) := by
        rw [e1, List.idxOf_append, List.idxOf_append]
        simp only [c1, d1, if_false, List.idxOf_cons_self]
        rw [List.idxOf_cons_ne _ hcd]; omega
      have x2 : List.idxOf d ((dfsPostorder g root).filter (· != root)) <
          List.idxOf c ((dfsPostorder g root).filter (· != root)) := by
        rw [e2, List.idxOf_append, List.idxOf_append]
        simp only [c2, d2, if_false, List.idxOf_cons_self]
        rw [List.idxOf_cons_ne _ (Ne.symm hcd)]; omega
      omega
    · exfalso; subst h; exact hac ⟨d, hdc⟩
    · simpa using h

/-! ## Values -/

theorem calcValues_append {β : Type} (f : Nat → (Nat → β) → β) (l r : List Nat) (v : Nat → β) :
    calcValues f (l ++ r) v = calcValues f r (calcValues f l v) := by
  simp [calcValues, List.foldl_append]

theorem calcValues_not_mem {β : Type} (f : Nat → (Nat → β) → β) (l : List Nat) (v : Nat → β) (x : Nat)
    (hx : x ∉ l) : calcValues f l v x = v x := by
  induction l generalizing v with
  | nil => rfl
  | cons a l ih =>
    simp only [List.mem_cons, not_or] at hx
    have := ih (fun x => if x = a then f a v else v x) hx.2
    simp only [calcValues, List.foldl_cons] at this ⊢
    rw [this]; simp [hx.1]

theorem calcValues_consistent {β : Type} {comps : List Nat} {dep : Nat → Nat → Prop} {order : List Nat}
    (ho : IsEvalOrder comps dep order) (f : Nat → (Nat → β) → β) (hf : ReadsOnly dep f) (v : Nat → β) :
    ∀ c ∈ comps, calcValues f order v c = f c (calcValues f order v) := by
  intro c hc
  obtain ⟨l, r, hlr⟩ := List.append_of_mem ((ho.all c).2 hc)
  have hnd := ho.once
  rw [hlr] at hnd
  have hcr : c ∉ r := (List.nodup_cons.1 (List.nodup_append.1 hnd).2.1).1
  have hval : ∀ w, calcValues f (l ++ c :: r) w = calcValues f r
      (fun x => if x = c then f c (calcValues f l w) else calcValues f l w x) := by
    intro w
    rw [calcValues_append]; rfl
  rw [hlr, hval v, calcValues_not_mem _ _ _ _ hcr]
  simp only [if_true]
  apply hf
  intro d hd
  have hdl : d ∈ l := ho.deps_first l c r hlr d (.single hd)
  have hdr : d ∉ r := fun h => (List.nodup_append.1 hnd).2.2 d hdl d (by simp [h]) rfl
  have hdc : d ≠ c := fun h => (List.nodup_append.1 hnd).2.2 d hdl c (by simp) h
  rw [calcValues_not_mem _ _ _ _ hdr]; simp [hdc]

/-- Two consistent valuations agree on all components. -/
theorem consistent_unique {β : Type} {comps : List Nat} {dep : Nat → Nat → Prop} {order : List Nat}
    (ho : IsEvalOrder comps dep order) (f : Nat → (Nat → β) → β) (hf : ReadsOnly dep f) (v w : Nat → β)
    (hv : ∀ c ∈ comps, v c = f c v) (hw : ∀ c ∈ comps, w c = f c w) : ∀ c ∈ comps, v c = w c := by
  have key : ∀ l r, order = l ++ r → ∀ c ∈ l, v c = w c := by
    intro l
    induction l using List.reverseRecOn with
    | nil => simp
    | append_singleton l a ih =>
      intro r hlr c hc
      have hlr' : order = l ++ a :: r := by simpa using hlr
      have ih' := ih (a :: r) hlr'
      rcases List.mem_append.1 hc with h | h
      · exact ih' c h
      · simp at h; subst h
        have hcm : c ∈ comps := (ho.all c).1 (by rw [hlr']; simp)
        rw [hv c hcm, hw c hcm]
        apply hf
        intro d hd
        exact ih' d (ho.deps_first l c r hlr' d (.single hd))
  intro c hc
  exact key order [] (by simp) c ((ho.all c).2 hc)

end Verif.Components

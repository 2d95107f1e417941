import Verif.Spec.Checks
import Verif.Props.Routes
import Verif.Props.Components
/-! # C94: checking a model -/

namespace Verif.Checks

open Verif Verif.Routes

private theorem isRoute_onRoute (N : Net) (n : Nat) : N.OnRoute n ↔
    ∃ r, IsRoute N.graph N.info (.cls N.isInput) (.cls N.isOutput) (some fun n => N.isLink n || N.isInput n || N.isOutput n) none .strict r ∧ n ∈ r := by
  constructor
  · rintro ⟨s, t, r, hs, ht, hi, ho, hne, hp, hn, hv, hd⟩
    refine ⟨r, ⟨s, t, ⟨hs, hi⟩, ⟨ht, ho⟩, hne, hp, ?_, by simp, fun x hx y hy => (hd x hx).trans (hd y hy).symm⟩, hn⟩
    intro test htest x hx _ _
    cases htest
    have := hv x hx
    simp only [Bool.or_eq_true]
    tauto
  · rintro ⟨r, ⟨s, t, ⟨hs, hi⟩, ⟨ht, ho⟩, hne, hp, hv, -, hd⟩, hn⟩
    refine ⟨s, t, r, hs, ht, hi, ho, hne, hp, hn, fun x hx => ?_, fun x hx => hd x hx s ?_⟩
    · by_cases h1 : x = s
      · subst h1; exact Or.inr (Or.inl hi)
      · by_cases h2 : x = t
        · subst h2; exact Or.inr (Or.inr ho)
        · have := hv _ rfl x hx h1 h2
          simp only [Bool.or_eq_true] at this
          tauto
    · exact List.mem_of_mem_head? hp.1

private theorem chain_nodes {g : Digraph} (hg : g.WF) : ∀ (p : List Nat), p.IsChain g.Edge → (∀ s, p.head? = some s → s ∈ g.nodes) → ∀ x ∈ p, x ∈ g.nodes
  | [], _, _ => by simp
  | [a], _, h => by simpa using h a rfl
  | a :: b :: l, hc, h => by
    rw [List.isChain_cons_cons] at hc
    intro x hx
    rcases List.mem_cons.1 hx with rfl | hx
    · exact h _ rfl
    · exact chain_nodes hg (b :: l) hc.2 (by intro s hs; cases hs; exact (hg.2.2 _ _ hc.1).2) x hx

/-- The check of the graph finds exactly the nodes that may not be isolated and are on no way from an input to an output; it never fails otherwise. -/
theorem C94_check_graph (N : Net) (hg : N.graph.WF) :
    ∃ l, N.objections = .ok l ∧ ∀ n, n ∈ l ↔ n ∈ N.graph.nodes ∧ N.allowIsolated n = false ∧ ¬ N.OnRoute n := by
  obtain ⟨routes, hr⟩ := C26_routes_total N.graph N.info (.cls N.isInput) (.cls N.isOutput) (some fun n => N.isLink n || N.isInput n || N.isOutput n) none .strict (by decide)
  obtain ⟨-, hex⟩ := C26_routes_exact N.graph hg N.info _ _ _ _ _ routes hr
  have hseen : ∀ n, n ∈ routes.flatten ↔ N.OnRoute n := by
    intro n
    rw [isRoute_onRoute, List.mem_flatten]
    exact ⟨fun ⟨r, h1, h2⟩ => ⟨r, (hex r).1 h1, h2⟩, fun ⟨r, h1, h2⟩ => ⟨r, (hex r).2 h1, h2⟩⟩
  have hsub : ∀ n, N.OnRoute n → n ∈ N.graph.nodes := by
    rintro n ⟨s, t, r, hs, -, -, -, -, hp, hn, -⟩
    exact chain_nodes hg r hp.2.2.1 (by intro a ha; rw [hp.1] at ha; cases ha; exact hs) n hn
  unfold Net.objections Net.routes
  rw [hr]
  refine ⟨_, rfl, fun n => ?_⟩
  simp only [List.mem_filter, List.mem_append, Bool.not_eq_true', beq_iff_eq, List.contains_eq_mem, decide_eq_false_iff_not, hseen]
  constructor
  · rintro ⟨⟨h1, h2⟩ | ⟨h1, h2⟩, h3⟩
    · exact ⟨h1, h3, h2⟩
    · exact absurd (hsub n h1) h2
  · rintro ⟨h1, h2, h3⟩
    exact ⟨Or.inl ⟨h1, h3⟩, h2⟩

/-- A node on none of the routes the solver was given has no flow, whatever the solver answers. -/
theorem C94_no_flow (d : Lp.Data) (routes : List (List Nat)) (x : List Rat) (n : Nat) (h : ∀ r ∈ routes, n ∉ r) : Lp.routeNodeFlow d routes x n = 0 := by
  have sum0 : ∀ l : List Rat, (∀ v ∈ l, v = 0) → l.sum = 0 := by
    intro l
    induction l with
    | nil => intro _; rfl
    | cons a l ih =>
      intro hl
      rw [List.sum_cons, hl a List.mem_cons_self, ih fun v hv => hl v (List.mem_cons_of_mem _ hv)]
      simp
  unfold Lp.routeNodeFlow
  apply sum0
  intro v hv
  obtain ⟨q, hq, rfl⟩ := List.mem_map.1 hv
  have hr := h q.1 (List.fst_mem_of_mem_zipIdx hq)
  simp only
  split
  · rfl
  · apply sum0
    intro w hw
    obtain ⟨p, hp, rfl⟩ := List.mem_map.1 hw
    have := List.fst_mem_of_mem_zipIdx hp
    rw [if_neg]
    rintro ⟨e, -⟩
    rw [e] at this
    exact hr this

/-! ## Parameters that nothing uses -/

private theorem mem_components (as : List Attr) (c : Nat) : c ∈ components as ↔ Attr.component c ∈ as := by
  induction as with
  | nil => simp [components]
  | cons a as ih => cases a <;> simp [components, ih]

private theorem adj_ne_nil (g : Digraph) (c : Nat) : ((g.adj c).length != 0) = true ↔ ∃ x, g.Edge c x := by
  rw [bne_iff_ne, ← Nat.pos_iff_ne_zero, List.length_pos_iff_exists_mem]
  constructor
  · rintro ⟨x, hx⟩
    simp only [Digraph.adj, List.mem_map, List.mem_filter, beq_iff_eq] at hx
    obtain ⟨⟨a, b⟩, ⟨h1, h2⟩, h3⟩ := hx
    simp only at h2 h3
    subst h2 h3
    exact ⟨b, h1⟩
  · rintro ⟨x, hx⟩
    have hx' : (c, x) ∈ g.edges := hx
    exact ⟨x, by simpa [Digraph.adj] using hx'⟩

private theorem mem_orphans (N : Net) (ops : List Components.Op) (cg : Digraph) (hb : Components.build ops = some cg) (isParameter : Nat → Bool) (p : Nat) :
    p ∈ N.orphans cg isParameter ↔ p ∈ Components.created ops ∧ isParameter p = true ∧ (∀ x, ¬ Components.declaredDep ops.reverse x p) ∧
      ∀ n ∈ N.graph.nodes, Attr.component p ∉ N.attrs n := by
  have I := Components.build_inv ops cg hb
  have hne : ∀ c, c ∈ Components.created ops → c ≠ Components.root := fun c hc e => I.root_not_created (e ▸ hc)
  unfold Net.orphans
  simp only [List.mem_filter, Bool.not_eq_true', List.contains_eq_mem, decide_eq_false_iff_not, List.mem_append, List.mem_flatMap, mem_components, adj_ne_nil]
  simp only [bne_iff_ne, ne_eq]
  constructor
  · rintro ⟨⟨⟨h1, h2⟩, h3⟩, h4⟩
    refine ⟨((I.nodes p).1 h1).resolve_left h2, h3, fun x hx => h4 (Or.inl ⟨⟨h1, h2⟩, x, (I.deps x p h2).2 hx⟩), fun n hn hc => h4 (Or.inr ⟨n, hn, hc⟩)⟩
  · rintro ⟨h1, h2, h3, h4⟩
    refine ⟨⟨⟨(I.nodes p).2 (Or.inr h1), hne p h1⟩, h2⟩, ?_⟩
    rintro (⟨-, x, hx⟩ | ⟨n, hn, hc⟩)
    · exact h3 x ((I.deps x p (hne p h1)).1 hx)
    · exact h4 n hn hc

/-- Every parameter of no use is reported, whatever the history of the component graph; and if no node keeps components in a list, nothing else is. -/
theorem C94_orphans_partial (N : Net) (ops : List Components.Op) (cg : Digraph) (hb : Components.build ops = some cg) (isParameter : Nat → Bool) (p : Nat)
    (hp : p ∈ Components.created ops) (hi : isParameter p = true) :
    (N.Unused ops p → p ∈ N.orphans cg isParameter) ∧
    ((∀ n ∈ N.graph.nodes, ∀ cs, Attr.list cs ∈ N.attrs n → cs = []) → (p ∈ N.orphans cg isParameter ↔ N.Unused ops p)) := by
  rw [mem_orphans N ops cg hb]
  refine ⟨fun h => ⟨hp, hi, h.1, fun n hn hc => h.2 n hn (Or.inl hc)⟩, fun hl => ⟨fun h => ⟨h.2.2.1, fun n hn hr => ?_⟩, fun h => ⟨hp, hi, h.1, fun n hn hc => h.2 n hn (Or.inl hc)⟩⟩⟩
  rcases hr with hr | ⟨cs, hcs, hc⟩
  · exact h.2.2.2 n hn hr
  · rw [hl n hn cs hcs] at hc; cases hc

private def factorsNet : Net where
  graph := ⟨[0, 1, 2], [(0, 1)]⟩
  info := ⟨fun _ => "", fun _ => "", fun _ => 0⟩
  isInput n := n == 0
  isOutput n := n == 1
  isLink _ := false
  allowIsolated n := n == 2
  hasParent _ := false
  attrs n := if n = 2 then [.none, .none, .list [1]] else if n = 0 then [.component 2] else []
  virtualCost _ := none

/-- The parameters that an aggregated node has as factors are kept in a list, which is overlooked: a parameter the node refers to is reported. (Numbers given as factors become such parameters too.) -/
theorem C94_factors_fails : ∃ (N : Net) (ops : List Components.Op) (cg : Digraph) (p n : Nat), Components.build ops = some cg ∧ p ∈ N.orphans cg (fun _ => true) ∧
    n ∈ N.graph.nodes ∧ Refers (N.attrs n) p := by
  refine ⟨factorsNet, [.create 1, .create 2], ⟨[0, 1, 2], [(0, 1), (0, 2)]⟩, 1, 2, by decide, by decide, by decide, Or.inr ⟨[1], by decide, by decide⟩⟩

/-- A parameter that nothing uses is harmless: whatever it computes, every other component has the same value (and no node looks at it). -/
theorem C94_orphan_harmless (N : Net) (ops : List Components.Op) (p : Nat) (hp : N.Unused ops p) (order : List Nat) {β : Type} (f f' : Nat → (Nat → β) → β)
    (hf : Components.ReadsOnly (Components.declaredDep ops.reverse) f) (hff : ∀ c, c ≠ p → f' c = f c) (stored : Nat → β) :
    (∀ c, c ≠ p → Components.calcValues f' order stored c = Components.calcValues f order stored c) ∧ ∀ n ∈ N.graph.nodes, ¬ Refers (N.attrs n) p := by
  refine ⟨?_, hp.2⟩
  suffices h : ∀ v v' : Nat → β, (∀ c, c ≠ p → v' c = v c) → ∀ c, c ≠ p → Components.calcValues f' order v' c = Components.calcValues f order v c from h stored stored fun _ _ => rfl
  unfold Components.calcValues
  induction order with
  | nil => exact fun v v' h => h
  | cons a order ih =>
    intro v v' h
    rw [List.foldl_cons, List.foldl_cons]
    apply ih
    intro c hc
    split
    · rename_i e
      subst e
      rw [hff c hc]
      exact hf c v' v fun d hd => h d fun e => hp.1 c (e ▸ hd)
    · exact h c hc

/-! ## The whole check -/

/-- What `check` says: an error if a virtual storage has a cost, an error if a node that may not be isolated is on no route, otherwise the number of orphans. -/
theorem C94_check (N : Net) (hg : N.graph.WF) (cg : Digraph) (isParameter : Nat → Bool) :
    (N.check cg isParameter = .error .notImplemented ↔ ∃ n ∈ N.graph.nodes, N.hasParent n = false ∧ ∃ a, N.virtualCost n = some a ∧ a ≠ .none ∧ a ≠ .number 0) ∧
    (N.check cg isParameter ≠ .error .other) ∧
    (N.check cg isParameter = .ok (N.orphans cg isParameter).length ↔
      (∀ n ∈ N.graph.nodes, N.hasParent n = false → ∀ a, N.virtualCost n = some a → a = .none ∨ a = .number 0) ∧
      ∀ n ∈ N.graph.nodes, N.allowIsolated n = false → N.OnRoute n) := by
  obtain ⟨l, hl, hm⟩ := C94_check_graph N hg
  have hok : ∀ n, N.nodeOk n = false ↔ ∃ a, N.virtualCost n = some a ∧ a ≠ .none ∧ a ≠ .number 0 := by
    intro n
    unfold Net.nodeOk
    split <;> simp_all
  have hany : ((N.graph.nodes.filter fun n => !N.hasParent n).any fun n => !N.nodeOk n) = true ↔
      ∃ n ∈ N.graph.nodes, N.hasParent n = false ∧ ∃ a, N.virtualCost n = some a ∧ a ≠ .none ∧ a ≠ .number 0 := by
    simp only [List.any_eq_true, List.mem_filter, Bool.not_eq_true', hok, and_assoc]
  have hnil : l = [] ↔ ∀ n ∈ N.graph.nodes, N.allowIsolated n = false → N.OnRoute n := by
    rw [List.eq_nil_iff_forall_not_mem]
    refine forall_congr' fun n => ?_
    rw [hm n]
    tauto
  unfold Net.check
  rw [hl]
  by_cases h1 : ((N.graph.nodes.filter fun n => !N.hasParent n).any fun n => !N.nodeOk n) = true
  · rw [if_pos h1]
    refine ⟨⟨fun _ => hany.1 h1, fun _ => rfl⟩, by simp, ⟨fun h => (by cases h), fun h => ?_⟩⟩
    obtain ⟨n, hn, hp, a, ha, h2, h3⟩ := hany.1 h1
    rcases h.1 n hn hp a ha with h | h
    · exact absurd h h2
    · exact absurd h h3
  · rw [if_neg h1]
    have hno : ∀ n ∈ N.graph.nodes, N.hasParent n = false → ∀ a, N.virtualCost n = some a → a = .none ∨ a = .number 0 := by
      intro n hn hp a ha
      by_contra hc
      rw [not_or] at hc
      exact h1 (hany.2 ⟨n, hn, hp, a, ha, hc.1, hc.2⟩)
    simp only
    by_cases h2 : l = []
    · rw [if_pos h2]
      exact ⟨⟨fun h => (by cases h), fun h => absurd (hany.2 h) h1⟩, by simp, ⟨fun _ => ⟨hno, hnil.1 h2⟩, fun _ => rfl⟩⟩
    · rw [if_neg h2]
      exact ⟨⟨fun h => (by cases h), fun h => absurd (hany.2 h) h1⟩, by simp, ⟨fun h => (by cases h), fun h => absurd (hnil.2 h.2) h2⟩⟩

private theorem factorsNet_wf : factorsNet.graph.WF := by
  refine ⟨by decide, by decide, fun u v h => ?_⟩
  have : (u, v) ∈ [(0, 1)] := h
  simp only [List.mem_cons, List.not_mem_nil, or_false, Prod.mk.injEq] at this
  obtain ⟨rfl, rfl⟩ := this
  exact ⟨by decide, by decide⟩

/-- A model with an input, an output and an aggregated node, which need not be connected, passes. -/
example : factorsNet.check ⟨[0, 1, 2], [(0, 1), (0, 2)]⟩ (fun _ => true) = .ok 1 := by
  refine (C94_check _ factorsNet_wf _ _).2.2.2 ⟨fun n _ _ a h => (by cases h), fun n hn hi => ?_⟩
  refine ⟨0, 1, [0, 1], by decide, by decide, rfl, rfl, by decide, ⟨rfl, rfl, ?_, by decide⟩, ?_, ?_, fun _ _ => rfl⟩
  · rw [List.isChain_cons_cons]; exact ⟨(by decide : (0, 1) ∈ [(0, 1)]), List.isChain_singleton _⟩
  · have : n ∈ [0, 1, 2] := hn
    simp only [List.mem_cons, List.not_mem_nil, or_false] at this ⊢
    rcases this with rfl | rfl | rfl
    · exact Or.inl rfl
    · exact Or.inr rfl
    · exact absurd hi (by decide)
  · intro x hx
    simp only [List.mem_cons, List.not_mem_nil, or_false] at hx
    rcases hx with rfl | rfl
    · exact Or.inr (Or.inl rfl)
    · exact Or.inr (Or.inr rfl)

example : factorsNet.Unused [.create 1, .create 2, .create 3] 3 := by
  refine ⟨fun x h => by simp [Components.declaredDep] at h, fun n hn h => ?_⟩
  have : n ∈ [0, 1, 2] := hn
  simp only [List.mem_cons, List.not_mem_nil, or_false] at this
  rcases this with rfl | rfl | rfl <;> rcases h with h | ⟨cs, h, hc⟩ <;> simp [factorsNet] at h
  subst h
  simp at hc

end Verif.Checks

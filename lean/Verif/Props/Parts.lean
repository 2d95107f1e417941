import Verif.Proof.Parts
/-!
# C118: parts of a model that are not connected do not influence each other
-/

namespace Verif.Lp

open Verif Verif.Bounds Verif.Composite

private theorem mult_of_built {d : Data} {routes : List (List Nat)} {n : Nat} {L : Line (List Nat)} (hL : nodeLine d n = some L) (hb : L.Built routes) : ∃ r ∈ routes, n ∈ r := by
  obtain ⟨-, ⟨r, hr, hm⟩, -⟩ := hb
  refine ⟨r, hr, ?_⟩
  unfold nodeLine limitLine at hL
  cases hf : flowRow true (d.minFlow n) (d.maxFlow n) with
  | stored row =>
    rw [hf] at hL
    simp only [Option.some.injEq] at hL
    subst hL
    by_contra hn
    simp only [passes_false hn] at hm
    exact hm rfl
  | glpkError => rw [hf] at hL; cases hL
  | storedNan => rw [hf] at hL; cases hL

private theorem nonempty_of_part {side : Nat → Bool} {b : Bool} {d : Data} (h : (part side b d).nonStorages ≠ []) : d.nodes ≠ [] ∧ d.nonStorages ≠ [] := by
  obtain ⟨n, hn⟩ := List.exists_mem_of_ne_nil _ h
  have := (mem_part_nonStorages.1 hn).1
  exact ⟨List.ne_nil_of_mem (mem_nonStorages.1 this).1, List.ne_nil_of_mem this⟩

/-- **C118 (feasible solutions).** The feasible solutions of a model made of two parts that are not connected are exactly those that are feasible for each part taken as a model of
its own. -/
theorem C118_feasible (side : Nat → Bool) (d : Data) (routes : List (List Nat)) (hs : Separate side d) (hr : RoutesApart side routes) (x : List Rat) :
    RouteFeasible d routes x ↔ x.length = routes.length ∧ ∀ b, RouteFeasible (part side b d) (routesOf side b routes) (pick (onSide side b) routes x) := by
  simp only [routeFeasible_iff]
  constructor
  · rintro ⟨⟨h1, h2, h3⟩, hl, hx, hrows⟩
    refine ⟨hl, fun b => ?_⟩
    obtain ⟨n, hn, hk, hb⟩ := hs.both b
    have hmem : n ∈ (part side b d).nonStorages := mem_part_nonStorages.2 ⟨mem_nonStorages.2 ⟨hn, hk⟩, hb⟩
    refine ⟨⟨List.ne_nil_of_mem (mem_nonStorages.1 hmem).1, ?_, List.ne_nil_of_mem hmem⟩, pick_length _ _ _ hl, ?_, ?_⟩
    · obtain ⟨L, hL, hbuilt, -⟩ := hrows (nodeLine d n) (by unfold routeLines; simp only [List.mem_append, List.mem_map]; exact .inl (.inl (.inl (.inl (.inl ⟨n, (mem_part_nonStorages.1 hmem).1, rfl⟩)))))
      obtain ⟨r, hrm, hnr⟩ := mult_of_built hL hbuilt
      refine List.ne_nil_of_mem (a := r) (List.mem_filter.2 ⟨hrm, onSide_iff.2 ?_⟩)
      obtain ⟨-, b', hb'⟩ := hr r hrm
      rw [← hb, hb' n hnr]; exact hb'
    · have := (pick_nonneg (onSide side true) (onSide side false) routes x hl (sides_split hr)).1 hx
      cases b
      · exact this.2
      · exact this.1
    · refine (allHold_pick (onSide side b) routes x hl _ (routes_local hs hr b)).1 fun o ho => ?_
      exact hrows o ((routeLines_part hs o).2 ⟨b, ho⟩)
  · rintro ⟨hl, hparts⟩
    obtain ⟨⟨-, hr1, hn1⟩, -, hx1, hrows1⟩ := hparts true
    obtain ⟨⟨-, hr2, hn2⟩, -, hx2, hrows2⟩ := hparts false
    refine ⟨⟨(nonempty_of_part hn1).1, ?_, (nonempty_of_part hn1).2⟩, hl, (pick_nonneg (onSide side true) (onSide side false) routes x hl (sides_split hr)).2 ⟨hx1, hx2⟩, fun o ho => ?_⟩
    · rintro rfl; exact hr1 rfl
    · obtain ⟨b, hb⟩ := (routeLines_part hs o).1 ho
      obtain ⟨-, -, -, hrowsb⟩ := hparts b
      exact (allHold_pick (onSide side b) routes x hl _ (routes_local hs hr b)).2 hrowsb o hb

/-- **C118 (costs).** The objective is the sum of the objectives of the parts. -/
theorem C118_objective (side : Nat → Bool) (d : Data) (routes : List (List Nat)) (hr : RoutesApart side routes) (x : List Rat) (hl : x.length = routes.length) :
    routeObjective d routes x = routeObjective (part side true d) (routesOf side true routes) (pick (onSide side true) routes x) +
      routeObjective (part side false d) (routesOf side false routes) (pick (onSide side false) routes x) := by
  simp only [routeObjective_S]
  exact S_both _ _ _ _ hl _ (sides_split hr)

/-- **C118 (flows).** The flow of a node is the one it has in its part. -/
theorem C118_flows (side : Nat → Bool) (d : Data) (routes : List (List Nat)) (hr : RoutesApart side routes) (x : List Rat) (hl : x.length = routes.length) (n : Nat) :
    routeNodeFlow d routes x n = routeNodeFlow (part side (side n) d) (routesOf side (side n) routes) (pick (onSide side (side n)) routes x) n := by
  rw [routeNodeFlow_eq_S, routeNodeFlow_eq_S]
  refine (S_pick _ _ _ hl _ fun r hrm hb => ?_).symm
  have hn := not_mem_of_sides (other_side hr hrm hb) rfl
  unfold nodeCoef
  refine sum_map_zero fun p hp => if_neg ?_
  rintro ⟨rfl, -⟩
  have := List.mem_zipIdx' hp
  exact hn (by rw [this.2]; exact List.getElem_mem _)

/-- **C118 (optimal solutions).** A solution is cost-optimal for the whole model exactly if it is cost-optimal for each part. -/
theorem C118_optimal (side : Nat → Bool) (d : Data) (routes : List (List Nat)) (hs : Separate side d) (hr : RoutesApart side routes) (x : List Rat) :
    Optimal d routes x ↔ x.length = routes.length ∧ ∀ b, Optimal (part side b d) (routesOf side b routes) (pick (onSide side b) routes x) := by
  have hsp := sides_split hr
  unfold Optimal
  rw [C118_feasible side d routes hs hr x]
  constructor
  · rintro ⟨⟨hl, hf⟩, hopt⟩
    refine ⟨hl, fun b => ⟨hf b, fun z hz => ?_⟩⟩
    have hzl : z.length = (routesOf side b routes).length := by obtain ⟨_, _, h, _⟩ := hz; exact h
    have key : ∀ (z1 z2 : List Rat), RouteFeasible (part side true d) (routesOf side true routes) z1 → RouteFeasible (part side false d) (routesOf side false routes) z2 →
        routeObjective d routes x ≤ routeObjective (part side true d) (routesOf side true routes) z1 + routeObjective (part side false d) (routesOf side false routes) z2 := by
      intro z1 z2 hz1 hz2
      have hl1 : z1.length = (routesOf side true routes).length := by obtain ⟨_, _, h, _⟩ := hz1; exact h
      have hl2 : z2.length = (routesOf side false routes).length := by obtain ⟨_, _, h, _⟩ := hz2; exact h
      obtain ⟨x', hl', e1, e2⟩ := merge (onSide side true) (onSide side false) routes hsp z1 z2 hl1 hl2
      have := hopt x' ((C118_feasible side d routes hs hr x').2 ⟨hl', fun b => by cases b; rw [e2]; exact hz2; rw [e1]; exact hz1⟩)
      rwa [C118_objective side d routes hr x' hl', e1, e2] at this
    rw [C118_objective side d routes hr x hl] at key
    cases b
    · have := key _ z (hf true) hz; linarith
    · have := key z _ hz (hf false); linarith
  · rintro ⟨hl, hf⟩
    refine ⟨⟨hl, fun b => (hf b).1⟩, fun x' hx' => ?_⟩
    obtain ⟨hl', hx''⟩ := (C118_feasible side d routes hs hr x').1 hx'
    rw [C118_objective side d routes hr x hl, C118_objective side d routes hr x' hl']
    exact add_le_add ((hf true).2 _ (hx'' true)) ((hf false).2 _ (hx'' false))

/-! ## The edge solver -/

private theorem meets_of_built {d : Data} {g : Graph} {n : Nat} {L : Line (Nat × Nat)} (hL : nodeLineE d g n = some L) (hb : L.Built g.edges) : ∃ e ∈ g.edges, e.1 = n ∨ e.2 = n := by
  obtain ⟨-, ⟨e, he, hm⟩, -⟩ := hb
  refine ⟨e, he, ?_⟩
  unfold nodeLineE limitLine at hL
  cases hf : flowRow true (d.minFlow n) (d.maxFlow n) with
  | stored row =>
    rw [hf] at hL
    simp only [Option.some.injEq] at hL
    subst hL
    by_contra hn
    push Not at hn
    simp only [meets_false hn] at hm
    exact hm rfl
  | glpkError => rw [hf] at hL; cases hL
  | storedNan => rw [hf] at hL; cases hL

private theorem edges_split (side : Nat → Bool) (edges : List (Nat × Nat)) : ∀ e ∈ edges, (side e.1 == false) = !(side e.1 == true) := by
  intro e _
  cases side e.1 <;> rfl

/-- **C118 (feasible solutions, edge solver).** -/
theorem C118_edge_feasible (side : Nat → Bool) (d : Data) (g : Graph) (hs : Separate side d) (hr : EdgesApart side g.edges) (y : List Rat) :
    EdgeFeasible d g y ↔ y.length = g.edges.length ∧ ∀ b, EdgeFeasible (part side b d) (g.part side b) (pick (fun e => side e.1 == b) g.edges y) := by
  simp only [edgeFeasible_iff]
  have hlines : ∀ b, edgeLines (part side b d) (g.part side b) = edgeLines (part side b d) g := fun b => rfl
  constructor
  · rintro ⟨⟨h1, h2, h3⟩, hl, hx, hrows⟩
    refine ⟨hl, fun b => ?_⟩
    obtain ⟨n, hn, hk, hb⟩ := hs.both b
    have hmem : n ∈ (part side b d).nonStorages := mem_part_nonStorages.2 ⟨mem_nonStorages.2 ⟨hn, hk⟩, hb⟩
    refine ⟨⟨List.ne_nil_of_mem (mem_nonStorages.1 hmem).1, ?_, List.ne_nil_of_mem hmem⟩, pick_length _ _ _ hl, ?_, ?_⟩
    · obtain ⟨L, hL, hbuilt, -⟩ := hrows (nodeLineE d g n) (by unfold edgeLines; simp only [List.mem_append, List.mem_map]; exact .inl (.inl (.inl (.inl (.inl (.inl ⟨n, (mem_part_nonStorages.1 hmem).1, rfl⟩))))))
      obtain ⟨e, he, hne⟩ := meets_of_built hL hbuilt
      refine List.ne_nil_of_mem (a := e) (List.mem_filter.2 ⟨he, ?_⟩)
      rcases hne with rfl | rfl
      · simpa using hb
      · simpa [hr e he] using hb
    · have := (pick_nonneg (fun e => side e.1 == true) (fun e => side e.1 == false) g.edges y hl (edges_split side _)).1 hx
      cases b
      · exact this.2
      · exact this.1
    · rw [hlines]
      refine (allHold_pick (fun e => side e.1 == b) g.edges y hl _ (edges_local hs hr b)).1 fun o ho => ?_
      exact hrows o ((edgeLines_part hs o).2 ⟨b, ho⟩)
  · rintro ⟨hl, hparts⟩
    obtain ⟨⟨-, hr1, hn1⟩, -, hx1, hrows1⟩ := hparts true
    obtain ⟨⟨-, hr2, hn2⟩, -, hx2, hrows2⟩ := hparts false
    refine ⟨⟨(nonempty_of_part hn1).1, ?_, (nonempty_of_part hn1).2⟩, hl,
      (pick_nonneg (fun e => side e.1 == true) (fun e => side e.1 == false) g.edges y hl (edges_split side _)).2 ⟨hx1, hx2⟩, fun o ho => ?_⟩
    · intro he
      apply hr1
      unfold Graph.part
      rw [he]; rfl
    · obtain ⟨b, hb⟩ := (edgeLines_part hs o).1 ho
      obtain ⟨-, -, -, hrowsb⟩ := hparts b
      rw [hlines] at hrowsb
      exact (allHold_pick (fun e => side e.1 == b) g.edges y hl _ (edges_local hs hr b)).2 hrowsb o hb

private theorem eCost_part (side : Nat → Bool) (b : Bool) (d : Data) (g : Graph) (hr : EdgesApart side g.edges) (e : Nat × Nat) (he : e ∈ g.edges) (hb : side e.1 = b) :
    eCost (part side b d) (g.part side b) e = eCost d g e := by
  unfold eCost part
  simp only
  have key : ∀ (l : List Nat) (f : Nat → Rat), (∀ n ∈ l, (side n == b) = false → f n = 0) → ((l.filter fun n => side n == b).map f).sum = (l.map f).sum := by
    intro l f hf
    induction l with
    | nil => rfl
    | cons a l ih =>
      have := ih fun n hn => hf n (by simp [hn])
      by_cases h : (side a == b) = true
      · rw [List.filter_cons_of_pos (p := fun n => side n == b) h, List.map_cons, List.sum_cons, List.map_cons, List.sum_cons, this]
      · rw [List.filter_cons_of_neg (p := fun n => side n == b) h, List.map_cons, List.sum_cons, this, hf a (by simp) (by simpa using h)]; ring
  refine key d.nodes _ fun n _ hn => ?_
  have hn' : side n ≠ b := by simpa using hn
  have h1 : e.1 ≠ n := by rintro rfl; exact hn' hb
  have h2 : e.2 ≠ n := by rintro rfl; exact hn' ((hr e he).symm.trans hb)
  rw [enters_false h2, leaves_false h1]
  simp [one]

/-- **C118 (costs, edge solver).** -/
theorem C118_edge_objective (side : Nat → Bool) (d : Data) (g : Graph) (hr : EdgesApart side g.edges) (y : List Rat) (hl : y.length = g.edges.length) :
    edgeObjective d g y = edgeObjective (part side true d) (g.part side true) (pick (fun e => side e.1 == true) g.edges y) +
      edgeObjective (part side false d) (g.part side false) (pick (fun e => side e.1 == false) g.edges y) := by
  simp only [edgeObjective_S]
  rw [S_both _ _ _ _ hl _ (edges_split side g.edges)]
  have key : ∀ b, S (g.part side b).edges (pick (fun e => side e.1 == b) g.edges y) (eCost (part side b d) (g.part side b)) =
      S (g.edges.filter fun e => side e.1 == b) (pick (fun e => side e.1 == b) g.edges y) (eCost d g) := by
    intro b
    refine S_congr fun e he => ?_
    obtain ⟨h1, h2⟩ := List.mem_filter.1 he
    exact eCost_part side b d g hr e h1 (by simpa using h2)
  rw [key, key]

/-- **C118 (flows, edge solver).** -/
theorem C118_edge_flows (side : Nat → Bool) (d : Data) (g : Graph) (hr : EdgesApart side g.edges) (y : List Rat) (hl : y.length = g.edges.length) (n : Nat) :
    edgeNodeFlow d g y n = edgeNodeFlow (part side (side n) d) (g.part side (side n)) (pick (fun e => side e.1 == side n) g.edges y) n := by
  rw [edgeNodeFlow_S, edgeNodeFlow_S]
  refine (S_pick _ _ _ hl _ fun e he hb => ?_).symm
  have := off_side hr he hb rfl
  rw [if_neg this.1, if_neg this.2]; ring

/-- **C118 (optimal solutions, edge solver).** -/
theorem C118_edge_optimal (side : Nat → Bool) (d : Data) (g : Graph) (hs : Separate side d) (hr : EdgesApart side g.edges) (y : List Rat) :
    EdgeOptimal d g y ↔ y.length = g.edges.length ∧ ∀ b, EdgeOptimal (part side b d) (g.part side b) (pick (fun e => side e.1 == b) g.edges y) := by
  have hsp := edges_split side g.edges
  unfold EdgeOptimal
  rw [C118_edge_feasible side d g hs hr y]
  constructor
  · rintro ⟨⟨hl, hf⟩, hopt⟩
    refine ⟨hl, fun b => ⟨hf b, fun z hz => ?_⟩⟩
    have key : ∀ (z1 z2 : List Rat), EdgeFeasible (part side true d) (g.part side true) z1 → EdgeFeasible (part side false d) (g.part side false) z2 →
        edgeObjective d g y ≤ edgeObjective (part side true d) (g.part side true) z1 + edgeObjective (part side false d) (g.part side false) z2 := by
      intro z1 z2 hz1 hz2
      have hl1 : z1.length = (g.part side true).edges.length := by obtain ⟨_, _, h, _⟩ := hz1; exact h
      have hl2 : z2.length = (g.part side false).edges.length := by obtain ⟨_, _, h, _⟩ := hz2; exact h
      obtain ⟨y', hl', e1, e2⟩ := merge (fun e : Nat × Nat => side e.1 == true) (fun e : Nat × Nat => side e.1 == false) g.edges hsp z1 z2 hl1 hl2
      have := hopt y' ((C118_edge_feasible side d g hs hr y').2 ⟨hl', fun b => by cases b; rw [e2]; exact hz2; rw [e1]; exact hz1⟩)
      rwa [C118_edge_objective side d g hr y' hl', e1, e2] at this
    rw [C118_edge_objective side d g hr y hl] at key
    cases b
    · have := key _ z (hf true) hz; linarith
    · have := key z _ hz (hf false); linarith
  · rintro ⟨hl, hf⟩
    refine ⟨⟨hl, fun b => (hf b).1⟩, fun y' hy' => ?_⟩
    obtain ⟨hl', hy''⟩ := (C118_edge_feasible side d g hs hr y').1 hy'
    rw [C118_edge_objective side d g hr y hl, C118_edge_objective side d g hr y' hl']
    exact add_le_add ((hf true).2 _ (hy'' true)) ((hf false).2 _ (hy'' false))

/-! ## The routes of the parts -/

private theorem chain_side {side : Nat → Bool} {edges : List (Nat × Nat)} (he : EdgesApart side edges) {r : List Nat} (hr : r.IsChain fun a b => (a, b) ∈ edges) {s : Nat}
    (hs : r.head? = some s) : ∀ n ∈ r, side n = side s := by
  induction r generalizing s with
  | nil => cases hs
  | cons a r ih =>
    simp only [List.head?_cons, Option.some.injEq] at hs
    subst hs
    intro n hn
    rcases List.mem_cons.1 hn with rfl | hn
    · rfl
    · cases r with
      | nil => cases hn
      | cons c r =>
        rw [List.isChain_cons_cons] at hr
        rw [ih hr.2 rfl n hn]
        exact (he _ hr.1).symm

/-- **C118 (routes).** If no connection leads from one side to the other, no supply route does, and the supply routes of a part are those of the whole model on that side. -/
theorem C118_routes (side : Nat → Bool) (g : Digraph) (hg : g.WF) (he : EdgesApart side g.edges) (info : Routes.NodeInfo) (t1 t2 : Nat → Bool) (valid : Option (Nat → Bool))
    (maxLength : Option Nat) (dm : Routes.DomainMatch) (routes : List (List Nat)) (h : Routes.findAllRoutes g info (.cls t1) (.cls t2) valid maxLength dm = .ok routes) :
    RoutesApart side routes ∧
    ∀ b routes', Routes.findAllRoutes ⟨g.nodes.filter fun n => side n == b, g.edges.filter fun e => side e.1 == b⟩ info (.cls t1) (.cls t2) valid maxLength dm = .ok routes' →
      routes'.Perm (routesOf side b routes) := by
  obtain ⟨hnd, hmem⟩ := Routes.C26_routes_exact g hg info _ _ valid maxLength dm routes h
  have hapart : ∀ r, Routes.IsRoute g info (.cls t1) (.cls t2) valid maxLength dm r → ∃ s, r.head? = some s ∧ ∀ n ∈ r, side n = side s := by
    rintro r ⟨s, t, -, -, -, ⟨h1, -, h3, -⟩, -⟩
    exact ⟨s, h1, chain_side he h3 h1⟩
  refine ⟨fun r hr => ?_, fun b routes' h' => ?_⟩
  · obtain ⟨s, hs, hside⟩ := hapart r ((hmem r).1 hr)
    exact ⟨(by rintro rfl; cases hs), side s, hside⟩
  · have hg' : Digraph.WF ⟨g.nodes.filter fun n => side n == b, g.edges.filter fun e => side e.1 == b⟩ := by
      obtain ⟨w1, w2, w3⟩ := hg
      refine ⟨w1.filter _, w2.filter _, fun u v huv => ?_⟩
      obtain ⟨h1, h2⟩ := List.mem_filter.1 huv
      have h2 : side u = b := by simpa using h2
      obtain ⟨hu, hv⟩ := w3 u v h1
      exact ⟨List.mem_filter.2 ⟨hu, by simpa using h2⟩, List.mem_filter.2 ⟨hv, by simpa [← he _ h1] using h2⟩⟩
    obtain ⟨hnd', hmem'⟩ := Routes.C26_routes_exact _ hg' info _ _ valid maxLength dm routes' h'
    refine (List.perm_ext_iff_of_nodup hnd' (hnd.filter _)).2 fun r => ?_
    rw [List.mem_filter, hmem', hmem, onSide_iff]
    constructor
    · rintro ⟨s, t, ⟨hs, hs'⟩, ⟨ht, ht'⟩, hst, ⟨h1, h2, h3, h4⟩, h5⟩
      have hsb : side s = b := by simpa using (List.mem_filter.1 hs).2
      have h3' : r.IsChain g.Edge := h3.imp fun u v huv => (List.mem_filter.1 huv).1
      have hall := chain_side he h3' h1
      exact ⟨⟨s, t, ⟨(List.mem_filter.1 hs).1, hs'⟩, ⟨(List.mem_filter.1 ht).1, ht'⟩, hst, ⟨h1, h2, h3', h4⟩, h5⟩, fun n hn => (hall n hn).trans hsb⟩
    · rintro ⟨⟨s, t, ⟨hs, hs'⟩, ⟨ht, ht'⟩, hst, ⟨h1, h2, h3, h4⟩, h5⟩, hall⟩
      refine ⟨s, t, ⟨List.mem_filter.2 ⟨hs, ?_⟩, hs'⟩, ⟨List.mem_filter.2 ⟨ht, ?_⟩, ht'⟩, hst, ⟨h1, h2, ?_, h4⟩, h5⟩
      · simpa using hall s (mem_of_head? h1)
      · simpa using hall t (List.mem_of_getLast? h2)
      · have hch : ∀ r : List Nat, r.IsChain g.Edge → (∀ n ∈ r, side n = b) → r.IsChain (Digraph.Edge ⟨g.nodes.filter fun n => side n == b, g.edges.filter fun e => side e.1 == b⟩) := by
          intro r hr hb
          induction r with
          | nil => exact List.isChain_nil
          | cons a r ih =>
            cases r with
            | nil => exact List.isChain_singleton _
            | cons c r =>
              rw [List.isChain_cons_cons] at hr ⊢
              exact ⟨List.mem_filter.2 ⟨hr.1, by simpa using hb a (by simp)⟩, ih hr.2 fun n hn => hb n (by simp [hn])⟩
        exact hch r h3 hall

/-! ## Order of definition -/

private theorem routeLines_order {d d' : Data} (h : Reordered d d') (o : Option (Line (List Nat))) : o ∈ routeLines d' ↔ o ∈ routeLines d := by
  obtain ⟨k, n1, n2, c, dd, p1, p2, p3, p4, p5⟩ := h
  have e1 : nodeLine d' = nodeLine d := by funext n; unfold nodeLine; rw [k, n1, n2]
  have e2 : crossLine d' = crossLine d := by funext c; unfold crossLine; rw [k]
  have e3 : (fun s => some (storageLine d' s)) = fun s => some (storageLine d s) := by funext s; unfold storageLine; rw [dd]
  have e4 : (fun v => some (virtualLine d' v)) = fun v => some (virtualLine d v) := by funext v; unfold virtualLine; rw [dd]
  have e5 : ∀ n, n ∈ d'.nonStorages ↔ n ∈ d.nonStorages := fun n => by rw [mem_nonStorages, mem_nonStorages, p1.mem_iff, k]
  unfold routeLines
  rw [e1, e2, e3, e4]
  simp only [List.mem_append, List.mem_map, List.mem_flatMap, e5, p2.mem_iff, p3.mem_iff, p4.mem_iff, p5.mem_iff]

private theorem nonempty_order {d d' : Data} (h : Reordered d d') : (d'.nodes ≠ [] ↔ d.nodes ≠ []) ∧ (d'.nonStorages ≠ [] ↔ d.nonStorages ≠ []) := by
  have h2 : d'.nonStorages.Perm d.nonStorages := by
    unfold Data.nonStorages
    rw [h.kind]
    exact h.nodes.filter _
  have key : ∀ {l l' : List Nat}, l.Perm l' → (l ≠ [] ↔ l' ≠ []) := by
    intro l l' hp
    rw [← List.length_pos_iff, ← List.length_pos_iff, hp.length_eq]
  exact ⟨key h.nodes, key h2⟩

/-- **C118 (order of definition).** Neither the order in which the nodes and components of a model are defined nor the order of its routes matters: the same routes with the same
flows are feasible, at the same cost and with the same flow of every node. -/
theorem C118_order (d d' : Data) (h : Reordered d d') (routes routes' : List (List Nat)) (x x' : List Rat) (hl : x.length = routes.length) (hl' : x'.length = routes'.length)
    (hp : (routes.zip x).Perm (routes'.zip x')) :
    (RouteFeasible d routes x ↔ RouteFeasible d' routes' x') ∧ routeObjective d' routes' x' = routeObjective d routes x ∧
      ∀ n, routeNodeFlow d' routes' x' n = routeNodeFlow d routes x n := by
  refine ⟨?_, ?_, fun n => ?_⟩
  · rw [routeFeasible_iff, routeFeasible_iff]
    obtain ⟨e1, e2⟩ := nonempty_order h
    have e3 : routes ≠ [] ↔ routes' ≠ [] := by
      have : ∀ r, r ∈ routes ↔ r ∈ routes' := fun r => ⟨mem_of_zip_perm hl hp, mem_of_zip_perm hl' hp.symm⟩
      constructor
      · intro hne
        obtain ⟨r, hr⟩ := List.exists_mem_of_ne_nil _ hne
        exact List.ne_nil_of_mem ((this r).1 hr)
      · intro hne
        obtain ⟨r, hr⟩ := List.exists_mem_of_ne_nil _ hne
        exact List.ne_nil_of_mem ((this r).2 hr)
    rw [e1, e2, e3, allHold_perm hl hl' hp fun o => (routeLines_order h o).symm]
    refine and_congr Iff.rfl (and_congr ⟨fun _ => hl', fun _ => hl⟩ (and_congr ⟨?_, ?_⟩ Iff.rfl))
    · exact nonneg_of_zip_perm hl' hp.symm
    · exact nonneg_of_zip_perm hl hp
  · rw [routeObjective_S, routeObjective_S, S_perm hp]
    refine S_congr fun r _ => ?_
    unfold routeCost
    rw [h.kind, h.cost]
  · rw [routeNodeFlow_eq_S, routeNodeFlow_eq_S, S_perm hp]
    refine S_congr fun r _ => ?_
    unfold nodeCoef
    rw [h.kind]

private theorem edgeLines_order {d d' : Data} (h : Reordered d d') (g g' : Graph) (hd : g'.domain = g.domain) (o : Option (Line (Nat × Nat))) : o ∈ edgeLines d' g' ↔ o ∈ edgeLines d g := by
  obtain ⟨k, n1, n2, c, dd, p1, p2, p3, p4, p5⟩ := h
  have a1 : enters g' = enters g := by funext n e; unfold enters; rw [hd]
  have a2 : leaves g' = leaves g := by funext n e; unfold leaves; rw [hd]
  have a3 : meets d' g' = meets d g := by funext n e; unfold meets; rw [k, a1, a2]
  have e1 : nodeLineE d' g' = nodeLineE d g := by funext n; unfold nodeLineE; rw [k, n1, n2, a1, a2, a3]
  have e2 : crossLineE d' g' = crossLineE d g := by funext c; unfold crossLineE; rw [a2, a3]
  have e3 : (fun s => some (storageLineE d' g' s)) = fun s => some (storageLineE d g s) := by funext s; unfold storageLineE; rw [dd, a1, a2]
  have e4 : (fun v => some (virtualLineE d' g' v)) = fun v => some (virtualLineE d g v) := by funext v; unfold virtualLineE edgeWeights; rw [dd, a3]
  have e5 : ∀ n, n ∈ d'.nonStorages ↔ n ∈ d.nonStorages := fun n => by rw [mem_nonStorages, mem_nonStorages, p1.mem_iff, k]
  have e6 : factorLinesE d' g' = factorLinesE d g := by funext a; unfold factorLinesE; rw [a3]
  have e7 : aggLineE d' g' = aggLineE d g := by funext a; unfold aggLineE; rw [a3]
  have e8 : (fun n => some (balanceLine g' n)) = fun n => some (balanceLine g n) := by funext n; unfold balanceLine; rw [a1, a2]
  unfold edgeLines
  rw [e1, e2, e3, e4, e6, e7, e8, k]
  simp only [List.mem_append, List.mem_map, List.mem_flatMap, e5, List.mem_filter, p1.mem_iff, p2.mem_iff, p3.mem_iff, p4.mem_iff, p5.mem_iff]

/-- **C118 (order of definition, edge solver).** -/
theorem C118_edge_order (d d' : Data) (h : Reordered d d') (g g' : Graph) (hd : g'.domain = g.domain) (y y' : List Rat) (hl : y.length = g.edges.length)
    (hl' : y'.length = g'.edges.length) (hp : (g.edges.zip y).Perm (g'.edges.zip y')) :
    (EdgeFeasible d g y ↔ EdgeFeasible d' g' y') ∧ edgeObjective d' g' y' = edgeObjective d g y ∧ ∀ n, edgeNodeFlow d' g' y' n = edgeNodeFlow d g y n := by
  refine ⟨?_, ?_, fun n => ?_⟩
  · rw [edgeFeasible_iff, edgeFeasible_iff]
    obtain ⟨e1, e2⟩ := nonempty_order h
    have e3 : g.edges ≠ [] ↔ g'.edges ≠ [] := by
      have : ∀ r, r ∈ g.edges ↔ r ∈ g'.edges := fun r => ⟨mem_of_zip_perm hl hp, mem_of_zip_perm hl' hp.symm⟩
      constructor
      · intro hne
        obtain ⟨r, hr⟩ := List.exists_mem_of_ne_nil _ hne
        exact List.ne_nil_of_mem ((this r).1 hr)
      · intro hne
        obtain ⟨r, hr⟩ := List.exists_mem_of_ne_nil _ hne
        exact List.ne_nil_of_mem ((this r).2 hr)
    rw [e1, e2, e3, allHold_perm hl hl' hp fun o => (edgeLines_order h g g' hd o).symm]
    refine and_congr Iff.rfl (and_congr ⟨fun _ => hl', fun _ => hl⟩ (and_congr ⟨?_, ?_⟩ Iff.rfl))
    · exact nonneg_of_zip_perm hl' hp.symm
    · exact nonneg_of_zip_perm hl hp
  · rw [edgeObjective_S, edgeObjective_S, S_perm hp]
    refine S_congr fun e _ => ?_
    have a1 : enters g' = enters g := by funext n e; unfold enters; rw [hd]
    have a2 : leaves g' = leaves g := by funext n e; unfold leaves; rw [hd]
    unfold eCost
    rw [h.kind, h.cost, a1, a2]
    exact (h.nodes.map _).sum_eq
  · rw [edgeNodeFlow_S, edgeNodeFlow_S, S_perm hp]
    unfold share
    rw [h.kind]

/-! ## Examples -/

/-- Two supplies that are not connected: `0 → 1` and `2 → 4` by the link `3`. -/
def twoSupplies : Data where
  kind := fun n => match n with | 0 | 2 => .input | 3 => .link | 1 | 4 => .output | _ => .other
  nodes := [0, 1, 2, 3, 4]
  minFlow := fun _ => .fin 0
  maxFlow := fun n => match n with | 0 => .fin 5 | 1 => .fin 3 | 2 => .fin 7 | _ => .posInf
  cost := fun n => match n with | 1 | 4 => -10 | _ => 1
  storages := []
  virtuals := []
  aggs := [⟨[2, 3], none, some [1, 1], .negInf, .posInf⟩]
  cross := []
  days := 1

example : Separate (fun n => decide (2 ≤ n)) twoSupplies ∧ RoutesApart (fun n => decide (2 ≤ n)) [[0, 1], [2, 3, 4]] ∧ EdgesApart (fun n => decide (2 ≤ n)) [(0, 1), (2, 3), (3, 4)] := by
  refine ⟨⟨by simp [twoSupplies], by simp [twoSupplies], ?_, by simp [twoSupplies], ?_⟩, ?_, ?_⟩
  · intro a ha
    simp only [twoSupplies, List.mem_singleton] at ha
    subst ha
    exact ⟨true, by decide⟩
  · intro b
    cases b
    · exact ⟨0, by decide, by decide, by decide⟩
    · exact ⟨2, by decide, by decide, by decide⟩
  · intro r hr
    simp only [List.mem_cons, List.not_mem_nil, or_false] at hr
    rcases hr with rfl | rfl
    · exact ⟨by simp, false, by decide⟩
    · exact ⟨by simp, true, by decide⟩
  · unfold EdgesApart; decide

example : routesOf (fun n => decide (2 ≤ n)) true [[0, 1], [2, 3, 4]] = [[2, 3, 4]] ∧ pick (onSide (fun n => decide (2 ≤ n)) true) [[0, 1], [2, 3, 4]] [3, 7] = [7] ∧
    (part (fun n => decide (2 ≤ n)) true twoSupplies).nodes = [2, 3, 4] ∧ (part (fun n => decide (2 ≤ n)) false twoSupplies).aggs.length = 0 := by
  refine ⟨by decide, by decide +kernel, by decide, by decide⟩

example : Reordered twoSupplies { twoSupplies with nodes := [4, 2, 0, 1, 3] } ∧ (([[0, 1], [2, 3, 4]] : List (List Nat)).zip [(3 : Rat), 7]).Perm ([[2, 3, 4], [0, 1]].zip [7, 3]) := by
  refine ⟨⟨rfl, rfl, rfl, rfl, rfl, by decide, .refl _, .refl _, .refl _, .refl _⟩, List.Perm.swap _ _ _⟩

end Verif.Lp

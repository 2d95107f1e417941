import Verif.Props.SolverEquivalence
import Verif.Props.PiecewiseEdge
/-! # C24: the two solvers, with any number of domains -/

namespace Verif.Lp

open Verif Verif.Bounds

theorem alike_domains {d : Data} {g : Graph} {routes : List (List Nat)} (h : ComparableDomains d g routes) : Alike d (inner g) routes := by
  have one := inner_one h.connects
  have wf : Digraph.WF ⟨d.nodes, g.edges⟩ := ⟨h.nodes, h.edges, fun _ _ he => ⟨(h.connects _ he).1, (h.connects _ he).2.1⟩⟩
  have hsub : ∀ e, e ∈ (inner g).edges ↔ e ∈ g.edges ∧ g.domain e.1 = g.domain e.2 := by
    intro e; simp [inner, inside]
  obtain ⟨info, hd, hf⟩ := h.found
  have hw := wellRouted_of_findAllRoutes d _ wf info routes (fun n hn => hn) hf
  obtain ⟨hn, hex⟩ := Routes.C26_routes_exact _ wf info _ _ _ _ _ routes hf
  refine ⟨one, h.nodes, h.edges.filter _, h.cross, ⟨hn, fun r => ?_⟩, hw, h.storages, h.acyclic, h.virtuals, h.aggs⟩
  rw [hex]
  constructor
  · rintro ⟨s, t, hs, ht, -, ⟨hp1, hp2, hp3, hp4⟩, -, -, hdom'⟩
    obtain ⟨hs1, hs2⟩ := hs
    obtain ⟨ht1, ht2⟩ := ht
    simp only [beq_iff_eq] at hs2 ht2
    refine ⟨hp4, ?_, ⟨s, hp1, hs2⟩, ⟨t, hp2, ht2⟩⟩
    have hdom : ∀ x ∈ r, ∀ y ∈ r, g.domain x = g.domain y := by rw [← hd]; exact hdom'
    clear hp1 hp2 hp4 hdom'
    induction r with
    | nil => exact .nil
    | cons a l ih =>
      cases l with
      | nil => exact .singleton _
      | cons b l =>
        rw [List.isChain_cons_cons] at hp3 ⊢
        exact ⟨(hsub _).2 ⟨hp3.1, hdom a (by simp) b (by simp)⟩, ih hp3.2 fun x hx y hy => hdom x (List.mem_cons_of_mem _ hx) y (List.mem_cons_of_mem _ hy)⟩
  · rintro ⟨hnd, hc, ⟨s, hs, hsk⟩, ⟨t, ht, htk⟩⟩
    have hne : s ≠ t := by rintro rfl; rw [hsk] at htk; cases htk
    have hmem : ∀ n ∈ r, n ∈ d.nodes ∧ d.kind n ≠ .other := by
      match r, hs, ht, hc with
      | [a], hs, ht, _ => simp at hs ht; exact absurd (hs.symm.trans ht) hne
      | a :: b :: l, _, _, hc =>
        have key : ∀ (l : List Nat) (a b : Nat), (a :: b :: l).IsChain (fun a b => (a, b) ∈ (inner g).edges) →
            ∀ n ∈ a :: b :: l, n ∈ d.nodes ∧ d.kind n ≠ .other := by
          intro l
          induction l with
          | nil =>
            intro a b hc n hn
            simp at hc
            obtain ⟨-, m1, m2, m3, m4⟩ := one _ hc
            simp at hn
            rcases hn with rfl | rfl
            · exact ⟨m1, m3⟩
            · exact ⟨m2, m4⟩
          | cons c l ih =>
            intro a b hc n hn
            rw [List.isChain_cons_cons] at hc
            obtain ⟨-, m1, m2, m3, m4⟩ := one _ hc.1
            rcases List.mem_cons.1 hn with rfl | hn
            · exact ⟨m1, m3⟩
            · exact ih b c hc.2 n hn
        exact key l a b hc
    have hsm : s ∈ r := List.mem_of_head? hs
    have htm : t ∈ r := List.mem_of_getLast? ht
    refine ⟨s, t, ⟨(hmem s hsm).1, by simp [hsk]⟩, ⟨(hmem t htm).1, by simp [htk]⟩, hne,
      ⟨hs, ht, hc.imp fun a b hab => ((hsub _).1 hab).1, hnd⟩, ?_, by simp, ?_⟩
    · rintro test ⟨⟩ x hx _ _
      simpa using (hmem x hx).2
    · intro x hx y hy
      rw [hd]
      exact sameDomain one hc x hx y hy

/-- **C24 (route to edge, any number of domains).** Every feasible solution of the route problem is matched by a feasible solution of the edge problem with the same flow at
every node, and no value on the columns between domains. Missing: models outside `ComparableDomains` (`C24_fails`). -/
theorem C24_domains_route_to_edge_partial (d : Data) (g : Graph) (routes : List (List Nat)) (hC : ComparableDomains d g routes)
    (hE : ∃ rows, edgeRows d g = .ok rows) (x : List Rat) (hx : RouteFeasible d routes x) :
    ∃ y, EdgeFeasible d g y ∧ Idle g y ∧ ∀ n ∈ d.nodes, d.kind n ≠ .other → edgeNodeFlow d g y n = routeNodeFlow d routes x n := by
  obtain ⟨z, hz, hf⟩ := route_to_edge d (inner g) routes (alike_domains hC) ((setup_inner d g).1 hE) x hx
  obtain ⟨_, _, hlen, hpos, _⟩ := id hz
  obtain ⟨y, h1, h2, h3, h4⟩ := exists_lift g z hlen hpos
  refine ⟨y, (feasible_inner d g y).2 ⟨by rw [h3]; exact hz, h1, h2⟩, h4, fun n hn hk => ?_⟩
  rw [flow_inner d h4, h3]
  exact hf n hn hk

/-- **C24 (edge to route, any number of domains).** Every feasible solution of the edge problem with no value on the columns between domains (as in every basic solution,
`C22_idle`) is matched by a feasible solution of the route problem with the same flow at every node. -/
theorem C24_domains_edge_to_route_partial (d : Data) (g : Graph) (routes : List (List Nat)) (hC : ComparableDomains d g routes)
    (hR : ∃ rows, routeRows d routes = .ok rows) (y : List Rat) (hy : EdgeFeasible d g y) (h0 : Idle g y) :
    ∃ x, RouteFeasible d routes x ∧ ∀ n ∈ d.nodes, d.kind n ≠ .other → routeNodeFlow d routes x n = edgeNodeFlow d g y n := by
  obtain ⟨x, hx, hf⟩ := edge_to_route d (inner g) routes (alike_domains hC) hR _ ((feasible_inner d g y).1 hy).1
  exact ⟨x, hx, fun n hn hk => by rw [flow_inner d h0]; exact hf n hn hk⟩

/-- **C24 (objective, any number of domains).** Solutions of the two problems with the same flow at every node have the same objective. -/
theorem C24_domains_objective (d : Data) (g : Graph) (routes : List (List Nat)) (hC : ComparableDomains d g routes)
    (hcost : ∀ r ∈ routes, |routeCost d r| < e8 → routeCost d r = 0) (x : List Rat) (hx : RouteFeasible d routes x) (y : List Rat) (h0 : Idle g y)
    (hflow : ∀ n ∈ d.nodes, d.kind n ≠ .other → edgeNodeFlow d g y n = routeNodeFlow d routes x n) : edgeObjective d g y = routeObjective d routes x := by
  rw [objective_inner]
  exact objectives_alike (alike_domains hC) hcost hx fun n hn hk => by rw [← flow_inner d h0]; exact hflow n hn hk

/-- **C24 (any number of domains).** Both solvers attain the same optimum (for models both can set up, with no route cost below the rounding threshold). -/
theorem C24_domains_same_optimum_partial (d : Data) (g : Graph) (routes : List (List Nat)) (hC : ComparableDomains d g routes)
    (hE : ∃ rows, edgeRows d g = .ok rows) (hR : ∃ rows, routeRows d routes = .ok rows)
    (hcost : ∀ r ∈ routes, |routeCost d r| < e8 → routeCost d r = 0) (v : Rat) :
    ((∃ x, RouteFeasible d routes x ∧ routeObjective d routes x = v) ∧ ∀ x, RouteFeasible d routes x → v ≤ routeObjective d routes x) ↔
    ((∃ y, EdgeFeasible d g y ∧ edgeObjective d g y = v) ∧ ∀ y, EdgeFeasible d g y → v ≤ edgeObjective d g y) := by
  have f1 : ∀ x, RouteFeasible d routes x → ∃ y, EdgeFeasible d g y ∧ edgeObjective d g y = routeObjective d routes x := by
    intro x hx
    obtain ⟨z, hz, hf⟩ := route_to_edge d (inner g) routes (alike_domains hC) ((setup_inner d g).1 hE) x hx
    obtain ⟨_, _, hlen, hpos, _⟩ := id hz
    obtain ⟨y, h1, h2, h3, -⟩ := exists_lift g z hlen hpos
    exact ⟨y, (feasible_inner d g y).2 ⟨by rw [h3]; exact hz, h1, h2⟩, by rw [objective_inner, h3]; exact objectives_alike (alike_domains hC) hcost hx hf⟩
  have f2 : ∀ y, EdgeFeasible d g y → ∃ x, RouteFeasible d routes x ∧ edgeObjective d g y = routeObjective d routes x := by
    intro y hy
    obtain ⟨x, hx, hf⟩ := edge_to_route d (inner g) routes (alike_domains hC) hR _ ((feasible_inner d g y).1 hy).1
    exact ⟨x, hx, by rw [objective_inner]; exact objectives_alike (alike_domains hC) hcost hx fun n hn hk => (hf n hn hk).symm⟩
  constructor
  · rintro ⟨⟨x, hx, hv⟩, hmin⟩
    obtain ⟨y, hy, he⟩ := f1 x hx
    refine ⟨⟨y, hy, he.trans hv⟩, fun y hy => ?_⟩
    obtain ⟨x, hx, he⟩ := f2 y hy
    rw [he]; exact hmin x hx
  · rintro ⟨⟨y, hy, hv⟩, hmin⟩
    obtain ⟨x, hx, he⟩ := f2 y hy
    refine ⟨⟨x, hx, he.symm.trans hv⟩, fun x hx => ?_⟩
    obtain ⟨y, hy, he⟩ := f1 x hx
    rw [← he]; exact hmin y hy

/-! ## Instance: a piecewise link with two segments in a domain of its own -/

open Verif.Composite

private def info : Routes.NodeInfo := ⟨fun n => toString n, fun n => toString n, twoSegmentGraph.domain⟩

private theorem found : Routes.findAllRoutes ⟨twoSegmentModel.nodes, twoSegmentGraph.edges⟩ info (.cls fun n => twoSegmentModel.kind n == .input)
    (.cls fun n => twoSegmentModel.kind n == .output) (some fun n => twoSegmentModel.kind n != .other) none .strict = .ok twoSegmentRoutes := by
  have h1 : twoSegmentModel.nodes.mergeSort (fun a b => decide (info.name a ≤ info.name b)) = twoSegmentModel.nodes :=
    List.mergeSort_of_pairwise (by decide +kernel)
  have h2 : twoSegmentRoutes.mergeSort (fun a b => decide (a.map info.fqn ≤ b.map info.fqn)) = twoSegmentRoutes :=
    List.mergeSort_of_pairwise (by decide +kernel)
  have h3 : Routes.filterM (Routes.routeOk info (some fun n => twoSegmentModel.kind n != .other) none .strict)
      ((twoSegmentModel.nodes.filter fun n => twoSegmentModel.kind n == .input).flatMap fun s =>
        (twoSegmentModel.nodes.filter fun n => twoSegmentModel.kind n == .output).flatMap fun t =>
          Digraph.allSimplePaths ⟨twoSegmentModel.nodes, twoSegmentGraph.edges⟩ s t none) = .ok twoSegmentRoutes := by decide +kernel
  unfold Routes.findAllRoutes Routes.candidatePaths Routes.selectNodes
  simp only [h1, h3, h2]

example : ComparableDomains twoSegmentModel twoSegmentGraph twoSegmentRoutes ∧ EdgeFeasible twoSegmentModel twoSegmentGraph [0, 5, 0, 3, 0, 8, 8] ∧
    Idle twoSegmentGraph [0, 5, 0, 3, 0, 8, 8] ∧ RouteFeasible twoSegmentModel twoSegmentRoutes [8, 5, 3, 8] ∧
    (∀ r ∈ twoSegmentRoutes, |routeCost twoSegmentModel r| < e8 → routeCost twoSegmentModel r = 0) ∧
    routeObjective twoSegmentModel twoSegmentRoutes [8, 5, 3, 8] = edgeObjective twoSegmentModel twoSegmentGraph [0, 5, 0, 3, 0, 8, 8] := by
  refine ⟨⟨by unfold Connects; decide +kernel, by decide, by decide +kernel, by decide +kernel, ⟨_, rfl, found⟩, by decide +kernel, ?_, by decide +kernel, by decide +kernel⟩,
    by decide +kernel, by unfold Idle; decide +kernel, by decide +kernel, by decide +kernel, by decide +kernel⟩
  rintro ⟨u, hu⟩
  have key : ∀ a b, (a, b) ∈ twoSegmentGraph.within → a < b := by
    have : ∀ e ∈ twoSegmentGraph.within, e.1 < e.2 := by decide +kernel
    exact fun a b h => this _ h
  have : ∀ a b, Relation.TransGen (Digraph.Edge ⟨twoSegmentModel.nodes, twoSegmentGraph.within⟩) a b → a < b := by
    intro a b h
    induction h with
    | single h => exact key _ _ h
    | tail _ h ih => exact lt_trans ih (key _ _ h)
  exact lt_irrefl _ (this u u hu)

end Verif.Lp

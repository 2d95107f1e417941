import Verif.Proof.Equivalence
/-!
# C24: the route solver and the edge solver solve the same problem

For models both solvers can set up (`Comparable`, and both constructors succeed) the feasible solutions correspond: same node flows, same
cost. One direction superposes routes, the other decomposes edge flows into routes.
-/

namespace Verif.Lp

open Verif Verif.Bounds

/-- Superposing routes. -/
theorem route_to_edge (d : Data) (g : Graph) (routes : List (List Nat)) (hC : Alike d g routes)
    (hE : ∃ rows, edgeRows d g = .ok rows) (x : List Rat) (hx : RouteFeasible d routes x) :
    ∃ y, EdgeFeasible d g y ∧ ∀ n ∈ d.nodes, d.kind n ≠ .other → edgeNodeFlow d g y n = routeNodeFlow d routes x n := by
  obtain ⟨rowsE, hE⟩ := hE
  obtain ⟨rowsR, hR, hlen, hpos, hsat⟩ := hx
  obtain ⟨hrn, hex⟩ := hC.exact
  have hends := edge_ends hC.one hE
  have hsup : ∀ r ∈ routes, IsSupply d.kind g.edges r := fun r hr => (hex r).1 hr
  obtain ⟨X, rfl⟩ := exists_fn hrn hlen
  let Y : Nat × Nat → Rat := fun e => (routes.map fun r => (if e ∈ pairs r then 1 else 0) * X r).sum
  have hdec : Decomposes g.edges routes X Y := fun e _ => rfl
  have hflow : ∀ n ∈ d.nodes, d.kind n ≠ .other → thru d g (g.edges.map Y) n = routeNodeFlow d routes (routes.map X) n :=
    fun n _ hk => flows_thru hends hC.edges hsup hdec hC.wellRouted hk
  have hfe : EdgeFeasible d g (g.edges.map Y) := by
    refine ⟨rowsE, hE, by simp, ?_, (rows_transfer hC hR hE hflow fun n hk => flows_balance hends hC.edges hsup hdec hk).1 hsat⟩
    intro v hv
    obtain ⟨e, -, rfl⟩ := List.mem_map.1 hv
    apply List.sum_nonneg
    intro w hw
    obtain ⟨r, hr, rfl⟩ := List.mem_map.1 hw
    exact mul_nonneg (by split_ifs <;> norm_num) (hpos _ (List.mem_map.2 ⟨r, hr, rfl⟩))
  exact ⟨_, hfe, fun n hn hk => (edgeNodeFlow_thru hC.one hfe hn hk).trans (hflow n hn hk)⟩

/-- Decomposing edge flows into routes. -/
theorem edge_to_route (d : Data) (g : Graph) (routes : List (List Nat)) (hC : Alike d g routes)
    (hR : ∃ rows, routeRows d routes = .ok rows) (y : List Rat) (hy : EdgeFeasible d g y) :
    ∃ x, RouteFeasible d routes x ∧ ∀ n ∈ d.nodes, d.kind n ≠ .other → routeNodeFlow d routes x n = edgeNodeFlow d g y n := by
  obtain ⟨rowsR, hR⟩ := hR
  have hy' := hy
  obtain ⟨rowsE, hE, hlen, hpos, hsat⟩ := hy
  obtain ⟨hrn, hex⟩ := hC.exact
  have hends := edge_ends hC.one hE
  have hsup : ∀ r ∈ routes, IsSupply d.kind g.edges r := fun r hr => (hex r).1 hr
  obtain ⟨rank, hrank⟩ := exists_rank hC.acyclic hC.wf
  obtain ⟨Y, rfl⟩ := exists_fn hC.edges hlen
  have hbal : ∀ n, d.kind n = .link → inFlow g (g.edges.map Y) n = outFlow g (g.edges.map Y) n := by
    intro n hk
    by_cases hn : n ∈ d.nodes
    · exact (edge_structure hC.one hy').2.2 n hn hk
    · unfold inFlow outFlow
      apply S_congr
      intro e he
      obtain ⟨-, m1, m2, -, -⟩ := hC.one e he
      rw [if_neg (fun h => hn (by rw [← h]; exact m2)), if_neg (fun h => hn (by rw [← h]; exact m1))]
  obtain ⟨X, hX, hdec⟩ := decompose (kind := d.kind) (rank := rank) hC.edges (fun e he => hrank e.1 e.2 he) (fun e he => (hends e he).2)
    (fun e he => (hends e he).1) hrn (fun r hr => (hex r).2 hr) _ Y (le_refl _)
    (fun e he => hpos _ (List.mem_map.2 ⟨e, he, rfl⟩)) (by
      intro n hk
      have := hbal n hk
      unfold inFlow outFlow at this
      rwa [S_map, S_map] at this)
  have hflow : ∀ n ∈ d.nodes, d.kind n ≠ .other → thru d g (g.edges.map Y) n = routeNodeFlow d routes (routes.map X) n :=
    fun n _ hk => flows_thru hends hC.edges hsup hdec hC.wellRouted hk
  refine ⟨routes.map X, ⟨rowsR, hR, by simp, ?_, (rows_transfer hC hR hE hflow hbal).2 hsat⟩, fun n hn hk => ?_⟩
  · intro v hv
    obtain ⟨r, -, rfl⟩ := List.mem_map.1 hv
    exact hX r
  · rw [← hflow n hn hk, edgeNodeFlow_thru hC.one hy' hn hk]

/-- **C24 (route to edge, partial).** Every feasible solution of the route problem is matched by a feasible solution of the edge problem with the same
flow at every node. Missing: models outside `Comparable` (`C24_fails`). -/
theorem C24_route_to_edge_partial (d : Data) (g : Graph) (routes : List (List Nat)) (hC : Comparable d g routes)
    (hE : ∃ rows, edgeRows d g = .ok rows) (x : List Rat) (hx : RouteFeasible d routes x) :
    ∃ y, EdgeFeasible d g y ∧ ∀ n ∈ d.nodes, d.kind n ≠ .other → edgeNodeFlow d g y n = routeNodeFlow d routes x n := route_to_edge d g routes hC.alike hE x hx

/-- **C24 (edge to route, partial).** Every feasible solution of the edge problem is matched by a feasible solution of the route problem with the same
flow at every node. -/
theorem C24_edge_to_route_partial (d : Data) (g : Graph) (routes : List (List Nat)) (hC : Comparable d g routes)
    (hR : ∃ rows, routeRows d routes = .ok rows) (y : List Rat) (hy : EdgeFeasible d g y) :
    ∃ x, RouteFeasible d routes x ∧ ∀ n ∈ d.nodes, d.kind n ≠ .other → routeNodeFlow d routes x n = edgeNodeFlow d g y n := edge_to_route d g routes hC.alike hR y hy

/-- Equal node flows mean equal objective (no route with a cost that is rounded away). -/
theorem objectives_alike {d : Data} {g : Graph} {routes : List (List Nat)} (hC : Alike d g routes)
    (hcost : ∀ r ∈ routes, |routeCost d r| < e8 → routeCost d r = 0) {x y : List Rat} (hx : RouteFeasible d routes x)
    (hflow : ∀ n ∈ d.nodes, d.kind n ≠ .other → edgeNodeFlow d g y n = routeNodeFlow d routes x n) :
    edgeObjective d g y = routeObjective d routes x := by
  obtain ⟨rowsR, hR, hlen, hpos, hsat⟩ := hx
  rw [C23_edge_partial d g hC.one y, (C23_route d hC.nodes routes hC.wellRouted x hlen hpos).2 hcost]
  congr 1
  apply List.map_congr_left
  intro n hn
  by_cases hk : d.kind n = .other
  · have z : ∀ (f : Nat × Nat → Nat), (∀ e ∈ g.edges, d.kind (f e) ≠ .other) → S g.edges y (fun e => if f e = n then 1 else 0) = 0 := by
      intro f hf
      refine (S_congr (g := fun _ => 0) ?_).trans (S_zero g.edges y)
      intro e he
      rw [if_neg]
      intro h
      exact hf e he (h ▸ hk)
    have z1 : outFlow g y n = 0 := z (·.1) fun e he => (hC.one e he).2.2.2.1
    have z2 : inFlow g y n = 0 := z (·.2) fun e he => (hC.one e he).2.2.2.2
    rw [edgeNodeFlow_eq, z1, z2, routeNodeFlow_eq hC.wellRouted]
    have : S routes x (fun r => if Carries d r n then 1 else 0) = 0 := by
      refine (S_congr (g := fun _ => 0) ?_).trans (S_zero routes x)
      intro r _
      rw [if_neg]
      unfold Carries
      rw [hk]
      exact id
    rw [this]; simp
  · rw [hflow n hn hk]

/-- **C24 (partial).** Both solvers attain the same optimum: a value is the least cost of a feasible route solution exactly when it is the least
cost of a feasible edge solution (for models both can set up, with no route cost below the rounding threshold). -/
theorem C24_same_optimum_partial (d : Data) (g : Graph) (routes : List (List Nat)) (hC : Comparable d g routes)
    (hE : ∃ rows, edgeRows d g = .ok rows) (hR : ∃ rows, routeRows d routes = .ok rows)
    (hcost : ∀ r ∈ routes, |routeCost d r| < e8 → routeCost d r = 0) (v : Rat) :
    ((∃ x, RouteFeasible d routes x ∧ routeObjective d routes x = v) ∧ ∀ x, RouteFeasible d routes x → v ≤ routeObjective d routes x) ↔
    ((∃ y, EdgeFeasible d g y ∧ edgeObjective d g y = v) ∧ ∀ y, EdgeFeasible d g y → v ≤ edgeObjective d g y) := by
  have f1 : ∀ x, RouteFeasible d routes x → ∃ y, EdgeFeasible d g y ∧ edgeObjective d g y = routeObjective d routes x := by
    intro x hx
    obtain ⟨y, hy, hf⟩ := C24_route_to_edge_partial d g routes hC hE x hx
    exact ⟨y, hy, objectives_alike hC.alike hcost hx hf⟩
  have f2 : ∀ y, EdgeFeasible d g y → ∃ x, RouteFeasible d routes x ∧ edgeObjective d g y = routeObjective d routes x := by
    intro y hy
    obtain ⟨x, hx, hf⟩ := C24_edge_to_route_partial d g routes hC hR y hy
    exact ⟨x, hx, objectives_alike hC.alike hcost hx fun n hn hk => (hf n hn hk).symm⟩
  constructor
  · rintro ⟨⟨x, hx, hv⟩, hmin⟩
    obtain ⟨y, hy, he⟩ := f1 x hx
    refine ⟨⟨y, hy, he.trans hv⟩, fun y hy => ?_⟩
    obtain ⟨x, hx, he⟩ := f2 y hy
    rw [he]; exact hmin x hx
  · rintro ⟨⟨y, hy, hv⟩, hmin⟩
    obtain ⟨x, hx, he⟩ := f2 y hy
    refine ⟨⟨x, hx, he.symm.trans hv⟩, fun x hx => ?_⟩
    obtain ⟨y, hy, he⟩ := f1 x hx
    rw [← he]; exact hmin y hy

/-! ## Instance and counterexample -/

/-- A supply (0), two links (1, 2), a demand (3) and a reservoir (release 4, inflow 5); a virtual storage and an aggregated node. -/
private def sample : Data where
  kind := fun n => match n with | 0 => .input | 1 => .link | 2 => .link | 3 => .output | 4 => .input | 5 => .output | _ => .other
  nodes := [0, 1, 2, 3, 4, 5, 6]
  minFlow := fun _ => .fin 0
  maxFlow := fun n => if n = 0 then .fin 10 else .posInf
  cost := fun n => if n = 3 then -10 else 1
  storages := [⟨[4], [5], 50, 100, 0⟩]
  virtuals := [⟨[2], [2], true, 20, 40, 0⟩]
  aggs := [⟨[3, 5], some [1, 1], none, .negInf, .fin 12⟩]
  cross := []
  days := 1

private def sampleGraph : Graph := ⟨[(0, 1), (1, 2), (2, 3), (1, 5), (4, 2)], fun _ => 0⟩

private def sampleRoutes : List (List Nat) := [[0, 1, 2, 3], [0, 1, 5], [4, 2, 3]]

private def sampleInfo : Routes.NodeInfo := ⟨fun n => toString n, fun n => toString n, fun _ => 0⟩

private theorem sample_routes : Routes.findAllRoutes ⟨sample.nodes, sampleGraph.edges⟩ sampleInfo (.cls fun n => sample.kind n == .input)
    (.cls fun n => sample.kind n == .output) (some fun n => sample.kind n != .other) none .strict = .ok sampleRoutes := by
  have h1 : sample.nodes.mergeSort (fun a b => decide (sampleInfo.name a ≤ sampleInfo.name b)) = sample.nodes :=
    List.mergeSort_of_pairwise (by decide +kernel)
  have h2 : sampleRoutes.mergeSort (fun a b => decide (a.map sampleInfo.fqn ≤ b.map sampleInfo.fqn)) = sampleRoutes :=
    List.mergeSort_of_pairwise (by decide +kernel)
  have h3 : Routes.filterM (Routes.routeOk sampleInfo (some fun n => sample.kind n != .other) none .strict)
      ((sample.nodes.filter fun n => sample.kind n == .input).flatMap fun s =>
        (sample.nodes.filter fun n => sample.kind n == .output).flatMap fun t =>
          Digraph.allSimplePaths ⟨sample.nodes, sampleGraph.edges⟩ s t none) = .ok sampleRoutes := by decide +kernel
  unfold Routes.findAllRoutes Routes.candidatePaths Routes.selectNodes
  simp only [h1, h3, h2]

private theorem sample_comparable : Comparable sample sampleGraph sampleRoutes := by
  refine ⟨by decide +kernel, by decide, by decide, rfl, ⟨_, rfl, sample_routes⟩, by decide +kernel, ?_, by decide +kernel, by decide +kernel⟩
  rintro ⟨u, hu⟩
  have key : ∀ a b, (a, b) ∈ sampleGraph.edges → (if a = 4 then 1 else a) < (if b = 4 then 1 else b) := by
    intro a b h
    simp [sampleGraph] at h
    rcases h with ⟨rfl, rfl⟩ | ⟨rfl, rfl⟩ | ⟨rfl, rfl⟩ | ⟨rfl, rfl⟩ | ⟨rfl, rfl⟩ <;> simp
  have : ∀ a b, Relation.TransGen (Digraph.Edge ⟨sample.nodes, sampleGraph.edges⟩) a b →
      (if a = 4 then 1 else a) < (if b = 4 then 1 else b) := by
    intro a b h
    induction h with
    | single h => exact key _ _ h
    | tail _ h ih => exact lt_trans ih (key _ _ h)
  exact lt_irrefl _ (this u u hu)

example : Comparable sample sampleGraph sampleRoutes ∧ EdgeFeasible sample sampleGraph [8, 5, 7, 3, 2] ∧
    RouteFeasible sample sampleRoutes [5, 3, 2] ∧
    (∀ r ∈ sampleRoutes, |routeCost sample r| < e8 → routeCost sample r = 0) ∧
    routeObjective sample sampleRoutes [5, 3, 2] = edgeObjective sample sampleGraph [8, 5, 7, 3, 2] :=
  ⟨sample_comparable, by decide +kernel, by decide +kernel, by decide +kernel, by decide +kernel⟩

/-- **C24 fails** when members of an aggregated node follow each other on a route: the route problem counts the water once, the edge problem
once per member. Here the limit is 10; the route solver may send 10, the edge solver at most 5. -/
theorem C24_fails : ∃ (d : Data) (g : Graph) (routes : List (List Nat)), OneDomain d g ∧ WellRouted d routes ∧
    RouteFeasible d routes [10] ∧ ∀ a b c, EdgeFeasible d g [a, b, c] → a ≤ 5 := by
  refine ⟨⟨fun n => match n with | 0 => .input | 1 => .link | 2 => .link | 3 => .output | _ => .other, [0, 1, 2, 3],
    fun _ => .fin 0, fun _ => .posInf, fun _ => 0, [], [], [⟨[1, 2], none, none, .fin 0, .fin 10⟩], [], 1⟩,
    ⟨[(0, 1), (1, 2), (2, 3)], fun _ => 0⟩, [[0, 1, 2, 3]], by decide +kernel, by decide +kernel, by decide +kernel, ?_⟩
  intro a b c hy
  have hone : OneDomain ⟨fun n => match n with | 0 => .input | 1 => .link | 2 => .link | 3 => .output | _ => .other, [0, 1, 2, 3],
    fun _ => .fin 0, fun _ => .posInf, fun _ => 0, [], [], [⟨[1, 2], none, none, .fin 0, .fin 10⟩], [], 1⟩
    ⟨[(0, 1), (1, 2), (2, 3)], fun _ => 0⟩ := by decide +kernel
  obtain ⟨-, -, s3⟩ := edge_structure hone hy
  have b1 := s3 1 (by simp) rfl
  have b2 := s3 2 (by simp) rfl
  have h := C20_edge_partial _ _ hone _ hy ⟨[1, 2], none, none, .fin 0, .fin 10⟩ (by simp) (by decide +kernel) (by decide +kernel)
    (.inr ⟨0, rfl, by unfold OrdinaryDouble; decide +kernel⟩) (.inr ⟨10, rfl, by unfold OrdinaryDouble; decide +kernel⟩)
  have f1 := edgeNodeFlow_thru hone hy (n := 1) (by simp) (by simp)
  have f2 := edgeNodeFlow_thru hone hy (n := 2) (by simp) (by simp)
  simp [inFlow, outFlow, S] at b1 b2
  rw [thru_other (by simp)] at f1 f2
  simp [outFlow, S] at f1 f2
  have e : ∀ q : Rat, q = 0 ∨ q = 10 → (F.fin q).effective = .fin q := by rintro q (rfl | rfl) <;> decide +kernel
  unfold Limited at h
  rw [e 0 (.inl rfl), e 10 (.inr rfl)] at h
  simp only [aggFlow, AggData.weightList] at h
  simp [f1, f2] at h
  rcases h with ⟨-, h⟩ | ⟨h, -⟩
  · simp [F.AtMost] at h; linarith
  · exact absurd h (by simp [Close]; decide +kernel)

end Verif.Lp

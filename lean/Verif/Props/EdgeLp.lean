import Verif.Proof.EdgeLp
import Verif.Props.RouteLp
/-!
# The edge-based solver: C20, C21, C22, C23, C53, C54

All theorems quantify over every assignment `y` of the columns that satisfies the rows built by the code. They are about models with
one domain (`OneDomain`); `C22_edge_fails` shows why.
-/

namespace Verif.Lp

open Verif Verif.Bounds

/-- Feasibility can be computed. -/
instance (d : Data) (g : Graph) (y : List Rat) : Decidable (EdgeFeasible d g y) :=
  match h : edgeRows d g with
  | .error e => isFalse (by rintro ⟨rows, h1, _⟩; rw [h] at h1; cases h1)
  | .ok rows =>
    have : Decidable (Satisfies rows g.edges.length y) := by unfold Satisfies; infer_instance
    if hs : Satisfies rows g.edges.length y then isTrue ⟨rows, h, hs⟩
    else isFalse (by rintro ⟨rows', h1, h2⟩; rw [h] at h1; cases h1; exact hs h2)

instance (d : Data) (g : Graph) : Decidable (OneDomain d g) := by unfold OneDomain; infer_instance

/-- **C22 (edge solver, partial).** In every solution of the constraints of a one-domain model the flow reported for a node is
within its limits. Missing: models with several domains (see `C22_edge_fails`). -/
theorem C22_edge_partial (d : Data) (g : Graph) (h1 : OneDomain d g) (y : List Rat) (hy : EdgeFeasible d g y)
    (n : Nat) (hn : n ∈ d.nodes) (hk : d.kind n ≠ .other)
    (hmin : LowerLimit (d.minFlow n)) (hmax : UpperLimit (d.maxFlow n)) :
    Limited (d.minFlow n) (d.maxFlow n) (edgeNodeFlow d g y n) := by
  rw [edgeNodeFlow_thru h1 hy hn hk]
  obtain ⟨rows, hrows, -, -, hsat⟩ := hy
  obtain ⟨row, hrow, hr⟩ := (edgeRows_parts hrows).1 n (mem_nonStorages.2 ⟨hn, hk⟩)
  obtain ⟨-, -, -, he, hb⟩ := nodeRowE_ok hr
  have h := hsat row hrow
  rw [he, rowVal_flowEdges h1, one_mul] at h
  exact limited_of_admits hmin hmax hb h

/-- **C23 (edge solver, partial: one domain).** In a one-domain model the minimised quantity is exactly the sum of node flow times node cost. -/
theorem C23_edge_partial (d : Data) (g : Graph) (h1 : OneDomain d g) (y : List Rat) :
    edgeObjective d g y = (d.nodes.map fun n => edgeNodeFlow d g y n * d.cost n).sum := by
  unfold edgeObjective
  rw [sum_range_S y g.edges (edgeCost d g) (fun e => (d.nodes.map fun n => share d n * d.cost n *
      ((if e.2 = n then 1 else 0) + (if e.1 = n then 1 else 0))).sum) (fun c hc => edgeCost_eq h1 hc), S_sum]
  congr 1
  apply List.map_congr_left
  intro n _
  rw [S_mul, S_add, edgeNodeFlow_eq]
  unfold inFlow outFlow
  ring

theorem inputs_eq_outputs {d : Data} (hd : d.nodes.Nodup) {g : Graph} (h1 : OneDomain d g) {y : List Rat}
    (hy : EdgeFeasible d g y) :
    ((d.nodes.filter fun n => d.kind n == .input).map (edgeNodeFlow d g y)).sum =
      ((d.nodes.filter fun n => d.kind n == .output).map (edgeNodeFlow d g y)).sum := by
  obtain ⟨s1, s2, s3⟩ := edge_structure h1 hy
  -- total outflow minus total inflow over all nodes is zero
  have tot : (d.nodes.map fun n => outFlow g y n - inFlow g y n).sum = 0 := by
    have e : (d.nodes.map fun n => outFlow g y n - inFlow g y n) =
        d.nodes.map fun n => S g.edges y (fun e => (if e.1 = n then 1 else 0) - (if e.2 = n then 1 else 0)) := by
      apply List.map_congr_left; intro n _; rw [S_sub]; rfl
    rw [e, ← S_sum]
    refine (S_congr (g := fun _ => 0) ?_).trans (S_zero g.edges y)
    intro e he
    obtain ⟨-, m1, m2, -, -⟩ := h1 e he
    have a1 := sum_eq_ite hd e.1 1
    have a2 := sum_eq_ite hd e.2 1
    rw [if_pos m1] at a1
    rw [if_pos m2] at a2
    have : (d.nodes.map fun n => (if e.1 = n then (1 : Rat) else 0) - (if e.2 = n then 1 else 0)).sum =
        (d.nodes.map fun n => (if e.1 = n then (1 : Rat) else 0)).sum - (d.nodes.map fun n => (if e.2 = n then (1 : Rat) else 0)).sum := by
      induction d.nodes with
      | nil => simp
      | cons a l ih => simp only [List.map_cons, List.sum_cons, ih]; ring
    rw [this, a1, a2, sub_self]
  have each : ∀ n ∈ d.nodes, outFlow g y n - inFlow g y n =
      (if (d.kind n == .input) = true then edgeNodeFlow d g y n else 0) - (if (d.kind n == .output) = true then edgeNodeFlow d g y n else 0) := by
    intro n hn
    cases hk : d.kind n with
    | input => rw [edgeNodeFlow_eq, s1 n hn hk]; simp [share, hk]
    | output => rw [edgeNodeFlow_eq, s2 n hn hk]; simp [share, hk]
    | link => rw [s3 n hn hk]; simp
    | other =>
      have z : ∀ (f : Nat × Nat → Nat), (∀ e ∈ g.edges, d.kind (f e) ≠ .other) → S g.edges y (fun e => if f e = n then 1 else 0) = 0 := by
        intro f hf
        refine (S_congr (g := fun _ => 0) ?_).trans (S_zero g.edges y)
        intro e he
        rw [if_neg]
        intro h
        exact hf e he (h ▸ hk)
      have z1 : outFlow g y n = 0 := z (·.1) fun e he => (h1 e he).2.2.2.1
      have z2 : inFlow g y n = 0 := z (·.2) fun e he => (h1 e he).2.2.2.2
      rw [z1, z2]; simp
  rw [List.map_congr_left each] at tot
  rw [sum_map_filter, sum_map_filter]
  have : (d.nodes.map fun n => (if (d.kind n == .input) = true then edgeNodeFlow d g y n else 0) -
      (if (d.kind n == .output) = true then edgeNodeFlow d g y n else 0)).sum =
      (d.nodes.map fun n => (if (d.kind n == .input) = true then edgeNodeFlow d g y n else 0)).sum -
      (d.nodes.map fun n => (if (d.kind n == .output) = true then edgeNodeFlow d g y n else 0)).sum := by
    clear tot each
    induction d.nodes with
    | nil => simp
    | cons a l ih => simp only [List.map_cons, List.sum_cons, ih]; ring
  rw [this] at tot
  linarith

/-- **C53 (edge solver, partial).** Water entering through inputs equals water leaving through outputs plus the net flow into
all storages, in one-domain models. -/
theorem C53_edge_partial (d : Data) (hd : d.nodes.Nodup) (hs : StoragesOk d) (g : Graph) (h1 : OneDomain d g) (y : List Rat)
    (hy : EdgeFeasible d g y) :
    ((d.nodes.filter fun n => d.kind n == .input && !(d.storages.flatMap (·.inputs)).contains n).map (edgeNodeFlow d g y)).sum =
      ((d.nodes.filter fun n => d.kind n == .output && !(d.storages.flatMap (·.outputs)).contains n).map (edgeNodeFlow d g y)).sum +
      (d.storages.map fun s => storageFlow (edgeNodeFlow d g y) s).sum :=
  balance_core hd hs _ (inputs_eq_outputs hd h1 hy)

/-- **C53 (storages, edge solver).** The volume of a storage after the timestep stays within its limits in every solution. -/
theorem C53_edge_storage (d : Data) (g : Graph) (h1 : OneDomain d g) (y : List Rat) (hy : EdgeFeasible d g y)
    (s : StorageData) (hs : s ∈ d.storages)
    (hik : ∀ n ∈ s.inputs, n ∈ d.nodes ∧ d.kind n = .input) (hok : ∀ n ∈ s.outputs, n ∈ d.nodes ∧ d.kind n = .output)
    (hv1 : s.mn ≤ s.volume) (hv2 : s.volume ≤ s.mx) (hdays : 0 < d.days) (hbig : (s.mx - s.mn) / d.days < dblMax) :
    s.mn ≤ s.volume + storageFlow (edgeNodeFlow d g y) s * d.days ∧
    s.volume + storageFlow (edgeNodeFlow d g y) s * d.days ≤ s.mx := by
  have hy' := hy
  obtain ⟨rows, hrows, -, -, hsat⟩ := hy
  obtain ⟨row, hrow, hr⟩ := (edgeRows_parts hrows).2.2.2.1 s hs
  obtain ⟨e, hb⟩ := storage_valueE h1 y (fun n hn => (hik n hn).2) (fun n hn => (hok n hn).2) hr
  have h := hsat row hrow
  have e' : storageFlow (thru d g y) s = storageFlow (edgeNodeFlow d g y) s := by
    unfold storageFlow
    congr 2
    · exact List.map_congr_left fun n hn => (edgeNodeFlow_thru h1 hy' (hok n hn).1 (by rw [(hok n hn).2]; simp)).symm
    · exact List.map_congr_left fun n hn => (edgeNodeFlow_thru h1 hy' (hik n hn).1 (by rw [(hik n hn).2]; simp)).symm
  rw [e, hb, e'] at h
  exact Storage.storageRow_admits hv1 hv2 hdays hbig h

/-- **C54 (edge solver, partial: one domain).** The change of volume of a virtual storage respects its row in every solution (repeated nodes
included). -/
theorem C54_edge_partial (d : Data) (g : Graph) (h1 : OneDomain d g) (y : List Rat) (hy : EdgeFeasible d g y)
    (v : VirtualData) (hv : v ∈ d.virtuals) (hn : ∀ n ∈ v.nodes, n ∈ d.nodes ∧ d.kind n ≠ .other) :
    (VirtualStorage.vRow v.active v.volume v.mx v.mn d.days).Admits (VirtualStorage.depletion (uses (edgeNodeFlow d g y) v)) := by
  have hy' := hy
  obtain ⟨rows, hrows, -, -, hsat⟩ := hy
  obtain ⟨row, hrow, hr⟩ := (edgeRows_parts hrows).2.2.2.2.1 v hv
  obtain ⟨e, hb⟩ := virtual_valueE h1 y hr
  have h := hsat row hrow
  have e' : uses (thru d g y) v = uses (edgeNodeFlow d g y) v := by
    unfold uses
    apply List.map_congr_left
    intro p hp
    obtain ⟨m1, m2⟩ := hn p.1 (List.of_mem_zip hp).1
    rw [edgeNodeFlow_thru h1 hy' m1 m2]
  rwa [e, hb, e'] at h

/-- **C20 (edge solver, partial).** The limits of an aggregated node bound its reported flow, provided no edge is counted for two
members (an edge from one member straight into an output that is also a member). -/
theorem C20_edge_partial (d : Data) (g : Graph) (h1 : OneDomain d g) (y : List Rat) (hy : EdgeFeasible d g y)
    (a : AggData) (ha : a ∈ d.aggs) (hn : ∀ n ∈ a.nodes, n ∈ d.nodes ∧ d.kind n ≠ .other)
    (hone : ∀ e ∈ g.edges, ((a.nodes.zip a.weightList).filter fun p => counts d p.1 e).length ≤ 1)
    (hmin : LowerLimit a.minFlow) (hmax : UpperLimit a.maxFlow) :
    Limited a.minFlow a.maxFlow (aggFlow (edgeNodeFlow d g y) a) := by
  have hy' := hy
  obtain ⟨rows, hrows, -, -, hsat⟩ := hy
  obtain ⟨row, hrow, hr⟩ := (edgeRows_parts hrows).2.2.2.2.2.2 a ha
  obtain ⟨e, hb⟩ := agg_valueE h1 y hone hr
  have h := hsat row hrow
  have e' : aggFlow (thru d g y) a = aggFlow (edgeNodeFlow d g y) a := by
    unfold aggFlow
    congr 1
    apply List.map_congr_left
    intro p hp
    obtain ⟨m1, m2⟩ := hn p.1 (List.of_mem_zip hp).1
    rw [edgeNodeFlow_thru h1 hy' m1 m2]
  rw [e, e'] at h
  exact limited_of_admits hmin hmax hb h

/-- **C21 (edge solver, partial: one domain).** The flows of the members of an aggregated node with factors are proportional to the factors. -/
theorem C21_edge_partial (d : Data) (g : Graph) (h1 : OneDomain d g) (y : List Rat) (hy : EdgeFeasible d g y)
    (a : AggData) (ha : a ∈ d.aggs) (hn : ∀ n ∈ a.nodes, n ∈ d.nodes ∧ d.kind n ≠ .other) (fs : List Rat)
    (hf : a.factors = some fs) (hlen : a.nodes.length = fs.length) :
    ∃ c, ∀ p ∈ a.nodes.zip fs, p.2 ≠ 0 ∧ edgeNodeFlow d g y p.1 = c * p.2 := by
  have hy' := hy
  obtain ⟨rows, hrows, -, -, hsat⟩ := hy
  obtain ⟨l, hl, hmem⟩ := (edgeRows_parts hrows).2.2.2.2.2.1 a ha
  obtain ⟨hok, -⟩ := factorRows_ok hl
  obtain ⟨hnz, hrow⟩ := hok fs hf
  refine proportional _ hnz hlen fun n0 rest hN p hp => ?_
  obtain ⟨row, hm, hr⟩ := hrow n0 rest hN p hp
  obtain ⟨m1, m2⟩ := hn n0 (by rw [hN]; simp)
  obtain ⟨m3, m4⟩ := hn p.1 (List.mem_of_mem_tail (List.of_mem_zip hp).1)
  obtain ⟨e, hb⟩ := factor_valueE h1 y hr
  rw [edgeNodeFlow_thru h1 hy' m1 m2, edgeNodeFlow_thru h1 hy' m3 m4, ← e]
  exact admits_zero hb (hsat row (hmem row hm))

/-! ## Instances and counterexamples -/

/-- The network of `RouteLp`'s sample: a catchment (0), a reservoir (release 6, inflow 7) and two demands (3, 5). -/
private def sample : Data where
  kind := fun n => match n with
    | 0 => .input | 1 => .link | 2 => .link | 3 => .output | 4 => .link | 5 => .output | 6 => .input | 7 => .output | _ => .other
  nodes := [0, 1, 2, 3, 4, 5, 6, 7, 8]
  minFlow := fun _ => .fin 0
  maxFlow := fun n => if n = 0 then .fin 10 else .posInf
  cost := fun n => if n = 3 then -10 else if n = 5 then -20 else 1
  storages := [⟨[6], [7], 50, 100, 0⟩]
  virtuals := [⟨[2], [2], true, 20, 40, 0⟩]
  aggs := [⟨[3, 5], some [1, 1], some [1, 2], .negInf, .fin 12⟩]
  cross := []
  days := 1

private def sampleGraph : Graph := ⟨[(0, 1), (1, 2), (2, 3), (1, 4), (4, 5), (1, 7), (6, 4)], fun _ => 0⟩

example : OneDomain sample sampleGraph ∧ EdgeFeasible sample sampleGraph [10, 3, 3, 4, 6, 3, 2] ∧ StoragesOk sample ∧
    (∀ e ∈ sampleGraph.edges, ((([3, 5] : List Nat).zip [1, 1]).filter fun p => counts sample p.1 e).length ≤ 1) := by
  refine ⟨by decide +kernel, by decide +kernel, ?_, by decide +kernel⟩
  unfold StoragesOk; decide +kernel

example : (List.range 9).map (edgeNodeFlow sample sampleGraph [10, 3, 3, 4, 6, 3, 2]) = [10, 10, 3, 3, 6, 6, 2, 3, 0] := by decide +kernel

/-- **C22 and C53 fail** for the edge solver with two domains: the column of the edge between the domains is in no row and costs
nothing, yet is added to the flows of both ends. Here the output (1) has maximum 5, and 105 is reported for it although only 5
enter it. -/
theorem C22_edge_fails : ∃ (d : Data) (g : Graph) (y : List Rat) (n : Nat), EdgeFeasible d g y ∧ n ∈ d.nodes ∧
    d.kind n = .output ∧ d.maxFlow n = .fin 5 ∧ edgeNodeFlow d g y n = 105 := by
  refine ⟨⟨fun n => match n with | 0 => .input | 1 => .output | 2 => .input | 3 => .output | _ => .other, [0, 1, 2, 3],
    fun _ => .fin 0, fun n => if n = 1 then .fin 5 else .posInf, fun _ => 0, [], [], [], [(1, [(2, 1)])], 1⟩,
    ⟨[(0, 1), (1, 2), (2, 3)], fun n => n / 2⟩, [5, 100, 5], 1, by decide +kernel, by simp, rfl, rfl, by decide +kernel⟩

/-- **C23 fails** for the edge solver with two domains, for the same reason: all costs are 1, the objective is 20, but the sum of reported flow times
cost is 220. -/
theorem C23_edge_fails : ∃ (d : Data) (g : Graph) (y : List Rat), EdgeFeasible d g y ∧ edgeObjective d g y = 20 ∧
    (d.nodes.map fun n => edgeNodeFlow d g y n * d.cost n).sum = 220 := by
  refine ⟨⟨fun n => match n with | 0 => .input | 1 => .output | 2 => .input | 3 => .output | _ => .other, [0, 1, 2, 3],
    fun _ => .fin 0, fun n => if n = 1 then .fin 5 else .posInf, fun _ => 1, [], [], [], [(1, [(2, 1)])], 1⟩,
    ⟨[(0, 1), (1, 2), (2, 3)], fun n => n / 2⟩, [5, 100, 5], by decide +kernel, by decide +kernel, by decide +kernel⟩

/-- The duplicated node that defeats the route solver (`C54_fails`) is handled by the edge solver. -/
example : ∃ (d : Data) (g : Graph) (y : List Rat) (v : VirtualData), OneDomain d g ∧ EdgeFeasible d g y ∧ v ∈ d.virtuals ∧
    v.nodes = [1, 1] := by
  refine ⟨⟨fun n => match n with | 0 => .input | 1 => .link | 2 => .output | _ => .other, [0, 1, 2],
    fun _ => .fin 0, fun _ => .posInf, fun _ => 0, [], [⟨[1, 1], [1, 2], true, 6, 10, 0⟩], [], [], 1⟩,
    ⟨[(0, 1), (1, 2)], fun _ => 0⟩, [2, 2], ⟨[1, 1], [1, 2], true, 6, 10, 0⟩, by decide +kernel, by decide +kernel, by simp, rfl⟩

/-- **C21 fails** for an aggregated node with factors and fewer than two members: neither solver has any solution, since the problem cannot be set up
(GLPK is asked to add no rows, or a negative number of them). A single member with a factor, trivially proportional, stops the model. -/
theorem C21_few_fails (d : Data) (routes : List (List Nat)) (g : Graph) (a : AggData) (ha : a ∈ d.aggs) (fs : List Rat) (hf : a.factors = some fs)
    (hn : a.nodes.length < 2) : (∀ x, ¬ RouteFeasible d routes x) ∧ ∀ y, ¬ EdgeFeasible d g y := by
  constructor
  · rintro x ⟨rows, hrows, -⟩
    obtain ⟨l, h, -⟩ := (routeRows_parts hrows).2.2.2.2.1 a ha
    unfold factorRowsR at h
    rw [hf] at h
    match hN : a.nodes with
    | [] => rw [hN] at h; cases h
    | [n] => rw [hN] at h; simp only [if_true] at h; cases h
    | _ :: _ :: _ => rw [hN] at hn; simp only [List.length_cons] at hn; omega
  · rintro y ⟨rows, hrows, -⟩
    obtain ⟨l, h, -⟩ := (edgeRows_parts hrows).2.2.2.2.2.1 a ha
    unfold factorRowsE at h
    rw [hf] at h
    match hN : a.nodes with
    | [] => rw [hN] at h; cases h
    | [n] => rw [hN] at h; simp only [if_true] at h; cases h
    | _ :: _ :: _ => rw [hN] at hn; simp only [List.length_cons] at hn; omega

example : ∃ (d : Data) (a : AggData), a ∈ d.aggs ∧ a.factors = some [1] ∧ a.nodes = [1] := by
  refine ⟨{ sample with aggs := [⟨[1], none, some [1], .fin 0, .posInf⟩] }, ⟨[1], none, some [1], .fin 0, .posInf⟩, by simp, rfl, rfl⟩

/-- **C54 fails** for a virtual storage without nodes (nothing to count, so that its volume should stay the same): its row has no entries and is
refused by both solvers, so that no model with such a storage has a solution. -/
theorem C54_empty_fails (d : Data) (routes : List (List Nat)) (g : Graph) (v : VirtualData) (hv : v ∈ d.virtuals) (hn : v.nodes = []) :
    (∀ x, ¬ RouteFeasible d routes x) ∧ ∀ y, ¬ EdgeFeasible d g y := by
  constructor
  · rintro x ⟨rows, hrows, -⟩
    obtain ⟨row, -, h⟩ := (routeRows_parts hrows).2.2.2.1 v hv
    refine boundRow_ne h ?_
    have : ∀ r, routeFactors v r = [] := fun r => by simp [routeFactors, hn]
    simp [this]
  · rintro y ⟨rows, hrows, -⟩
    obtain ⟨row, -, h⟩ := (edgeRows_parts hrows).2.2.2.2.1 v hv
    refine boundRow_ne h ?_
    have : ∀ c, edgeFactors d g v c = [] := fun c => by simp [edgeFactors, hn]
    simp [this]

/-- The same data without the empty storage can be solved. -/
example : ∃ (d : Data) (v : VirtualData), v ∈ d.virtuals ∧ v.nodes = [] ∧ EdgeFeasible { d with virtuals := [] } sampleGraph [10, 3, 3, 4, 6, 3, 2] :=
  ⟨{ sample with virtuals := [⟨[], [], true, 6, 10, 0⟩] }, ⟨[], [], true, 6, 10, 0⟩, by simp, rfl, by decide +kernel⟩

end Verif.Lp

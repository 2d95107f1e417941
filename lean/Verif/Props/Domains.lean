import Verif.Proof.Domains
import Verif.Props.LossLink
import Verif.Props.Aquifer
/-!
# The edge-based solver in models with several domains: C20, C21, C22, C23, C28, C53, C54, C81

The columns of edges between domains are in no row and cost nothing, but are added to the flows of the nodes at both ends (`C22_edge_fails`). The simplex
method returns basic solutions, and in these the columns are zero (`C22_idle`). The theorems below hold for every feasible solution in which they are zero,
hence for every basic solution, whatever the number of domains.
-/

namespace Verif.Lp

open Verif Verif.Bounds Verif.Composite

/-- **C22 (columns between domains).** In every basic solution the columns of edges between domains are zero. -/
theorem C22_idle (d : Data) (g : Graph) (y : List Rat) (hy : BasicSolution d g y) : Idle g y := idle_of_basic hy

/-- **C22 (edge solver).** With any number of domains, the flow reported for a node is within its limits. -/
theorem C22_edge (d : Data) (g : Graph) (hg : Connects d g) (y : List Rat) (hy : EdgeFeasible d g y) (h0 : Idle g y)
    (n : Nat) (hn : n ∈ d.nodes) (hk : d.kind n ≠ .other) (hmin : LowerLimit (d.minFlow n)) (hmax : UpperLimit (d.maxFlow n)) :
    Limited (d.minFlow n) (d.maxFlow n) (edgeNodeFlow d g y n) := by
  rw [flow_inner d h0]
  exact C22_edge_partial d _ (inner_one hg) _ ((feasible_inner d g y).1 hy).1 n hn hk hmin hmax

/-- **C23 (edge solver).** With any number of domains, the minimised quantity is exactly the sum of node flow times node cost. -/
theorem C23_edge (d : Data) (g : Graph) (hg : Connects d g) (y : List Rat) (h0 : Idle g y) :
    edgeObjective d g y = (d.nodes.map fun n => edgeNodeFlow d g y n * d.cost n).sum := by
  rw [objective_inner, C23_edge_partial d _ (inner_one hg)]
  congr 1
  exact List.map_congr_left fun n _ => by rw [flow_inner d h0]

/-- **C53 (edge solver).** With any number of domains, water entering through inputs equals water leaving through outputs plus the net flow into all
storages. -/
theorem C53_edge (d : Data) (hd : d.nodes.Nodup) (hs : StoragesOk d) (g : Graph) (hg : Connects d g) (y : List Rat)
    (hy : EdgeFeasible d g y) (h0 : Idle g y) :
    ((d.nodes.filter fun n => d.kind n == .input && !(d.storages.flatMap (·.inputs)).contains n).map (edgeNodeFlow d g y)).sum =
      ((d.nodes.filter fun n => d.kind n == .output && !(d.storages.flatMap (·.outputs)).contains n).map (edgeNodeFlow d g y)).sum +
      (d.storages.map fun s => storageFlow (edgeNodeFlow d g y) s).sum := by
  have e : edgeNodeFlow d g y = edgeNodeFlow d (inner g) (innerVals g y) := funext fun n => flow_inner d h0 n
  rw [e]
  exact C53_edge_partial d hd hs _ (inner_one hg) _ ((feasible_inner d g y).1 hy).1

/-- **C53 (storages, edge solver).** With any number of domains, the volume of a storage after the timestep stays within its limits. -/
theorem C53_edge_volume (d : Data) (g : Graph) (hg : Connects d g) (y : List Rat) (hy : EdgeFeasible d g y) (h0 : Idle g y)
    (s : StorageData) (hs : s ∈ d.storages)
    (hik : ∀ n ∈ s.inputs, n ∈ d.nodes ∧ d.kind n = .input) (hok : ∀ n ∈ s.outputs, n ∈ d.nodes ∧ d.kind n = .output)
    (hv1 : s.mn ≤ s.volume) (hv2 : s.volume ≤ s.mx) (hdays : 0 < d.days) (hbig : (s.mx - s.mn) / d.days < dblMax) :
    s.mn ≤ s.volume + storageFlow (edgeNodeFlow d g y) s * d.days ∧
    s.volume + storageFlow (edgeNodeFlow d g y) s * d.days ≤ s.mx := by
  have e : edgeNodeFlow d g y = edgeNodeFlow d (inner g) (innerVals g y) := funext fun n => flow_inner d h0 n
  rw [e]
  exact C53_edge_storage d _ (inner_one hg) _ ((feasible_inner d g y).1 hy).1 s hs hik hok hv1 hv2 hdays hbig

/-- **C53 (connections between domains, edge solver).** What enters an output connected to inputs of other domains is the sum of what those inputs supply,
each divided by its conversion factor. -/
theorem C53_edge_cross (d : Data) (g : Graph) (hg : Connects d g) (y : List Rat) (hy : EdgeFeasible d g y) (h0 : Idle g y)
    (o : Nat) (ins : List (Nat × Rat)) (hc : (o, ins) ∈ d.cross) (ho : o ∈ d.nodes ∧ d.kind o = .output)
    (hi : ∀ i ∈ ins, i.1 ∈ d.nodes ∧ d.kind i.1 = .input) :
    edgeNodeFlow d g y o = (ins.map fun i => edgeNodeFlow d g y i.1 / i.2).sum := by
  have e : edgeNodeFlow d g y = edgeNodeFlow d (inner g) (innerVals g y) := funext fun n => flow_inner d h0 n
  rw [e]
  have hf := ((feasible_inner d g y).1 hy).1
  have h1 := inner_one hg
  obtain ⟨rows, hrows, -, -, hsat⟩ := id hf
  obtain ⟨row, hrow, hr⟩ := (edgeRows_parts hrows).2.1 _ hc
  unfold crossRowE at hr
  split at hr
  · cases hr
  · obtain ⟨-, he, hb⟩ := zeroRow_ok hr
    have h := admits_zero hb (hsat row hrow)
    rw [he, rowVal_append, rowVal_flatMap, rowVal_flowEdges h1] at h
    have h2 : (ins.map fun i => rowVal (innerVals g y) (const (1 / i.2) (outEdges (inner g) i.1))) =
        ins.map fun i => edgeNodeFlow d (inner g) (innerVals g y) i.1 / i.2 := by
      apply List.map_congr_left
      intro i hm
      rw [rowVal_out h1, edgeNodeFlow_thru h1 hf (hi i hm).1 (by rw [(hi i hm).2]; simp), thru_other (by rw [(hi i hm).2]; simp)]
      ring
    simp only at h
    rw [h2] at h
    rw [edgeNodeFlow_thru h1 hf ho.1 (by rw [ho.2]; simp)]
    linarith

/-- **C53 (conversion factors).** A problem is only made when no conversion factor between domains is zero: with either solver, a factor of zero raises, so that no flow is lost between domains by a
division by zero. -/
theorem C53_conversion (d : Data) (g : Graph) (routes : List (List Nat)) (rows : List LpRow) (h : edgeRows d g = .ok rows ∨ routeRows d routes = .ok rows)
    (o : Nat) (ins : List (Nat × Rat)) (hc : (o, ins) ∈ d.cross) : ∀ i ∈ ins, i.2 ≠ 0 := by
  intro i hi h0
  have hany : ins.any (fun i => i.2 == 0) = true := List.any_eq_true.2 ⟨i, hi, by simp [h0]⟩
  rcases h with h | h
  · obtain ⟨row, -, hr⟩ := (edgeRows_parts h).2.1 _ hc
    unfold crossRowE at hr
    rw [if_pos hany] at hr
    cases hr
  · obtain ⟨row, -, hr⟩ := (routeRows_parts h).2.1 _ hc
    unfold crossRow at hr
    rw [if_pos hany] at hr
    cases hr

/-- **C54 (edge solver).** With any number of domains, the change of volume of a virtual storage respects its row. -/
theorem C54_edge (d : Data) (g : Graph) (hg : Connects d g) (y : List Rat) (hy : EdgeFeasible d g y) (h0 : Idle g y)
    (v : VirtualData) (hv : v ∈ d.virtuals) (hn : ∀ n ∈ v.nodes, n ∈ d.nodes ∧ d.kind n ≠ .other) :
    (VirtualStorage.vRow v.active v.volume v.mx v.mn d.days).Admits (VirtualStorage.depletion (uses (edgeNodeFlow d g y) v)) := by
  have e : edgeNodeFlow d g y = edgeNodeFlow d (inner g) (innerVals g y) := funext fun n => flow_inner d h0 n
  rw [e]
  exact C54_edge_partial d _ (inner_one hg) _ ((feasible_inner d g y).1 hy).1 v hv hn

/-- **C20 (edge solver, several domains; partial).** The limits of an aggregated node bound its reported flow, provided no edge inside a domain is counted
for two members. -/
theorem C20_edge_domains_partial (d : Data) (g : Graph) (hg : Connects d g) (y : List Rat) (hy : EdgeFeasible d g y) (h0 : Idle g y)
    (a : AggData) (ha : a ∈ d.aggs) (hn : ∀ n ∈ a.nodes, n ∈ d.nodes ∧ d.kind n ≠ .other)
    (hone : ∀ e ∈ g.edges, g.domain e.1 = g.domain e.2 → ((a.nodes.zip a.weightList).filter fun p => counts d p.1 e).length ≤ 1)
    (hmin : LowerLimit a.minFlow) (hmax : UpperLimit a.maxFlow) :
    Limited a.minFlow a.maxFlow (aggFlow (edgeNodeFlow d g y) a) := by
  have e : edgeNodeFlow d g y = edgeNodeFlow d (inner g) (innerVals g y) := funext fun n => flow_inner d h0 n
  rw [e]
  refine C20_edge_partial d _ (inner_one hg) _ ((feasible_inner d g y).1 hy).1 a ha hn ?_ hmin hmax
  intro e he
  obtain ⟨m1, m2⟩ := List.mem_filter.1 he
  exact hone e m1 (by simpa [inside] using m2)

/-- **C21 (edge solver).** With any number of domains, the flows of the members of an aggregated node with factors are proportional to the factors. -/
theorem C21_edge (d : Data) (g : Graph) (hg : Connects d g) (y : List Rat) (hy : EdgeFeasible d g y) (h0 : Idle g y)
    (a : AggData) (ha : a ∈ d.aggs) (hn : ∀ n ∈ a.nodes, n ∈ d.nodes ∧ d.kind n ≠ .other) (fs : List Rat)
    (hf : a.factors = some fs) (hlen : a.nodes.length = fs.length) :
    ∃ c, ∀ p ∈ a.nodes.zip fs, p.2 ≠ 0 ∧ edgeNodeFlow d g y p.1 = c * p.2 := by
  have e : edgeNodeFlow d g y = edgeNodeFlow d (inner g) (innerVals g y) := funext fun n => flow_inner d h0 n
  rw [e]
  exact C21_edge_partial d _ (inner_one hg) _ ((feasible_inner d g y).1 hy).1 a ha hn fs hf hlen

/-- **C28 (edge solver).** The rule of a loss link holds with any number of domains. -/
theorem C28_edge (d : Data) (g : Graph) (gross net out : Nat) (s0 s : LossState) (f : Factor)
    (t : LossType) (p : Rat) (y : List Rat) (hs : s0.setup f t = .ok s) (hl : HasLossLink d gross net out s p)
    (hwire : Wired g.edges gross net out) (hg : Connects d g) (hmin : LowerLimit (d.minFlow net)) (hy : EdgeFeasible d g y) (h0 : Idle g y) :
    LossRule t (f.value p) (edgeNodeFlow d g y gross) (edgeNodeFlow d g y net) := by
  rw [flow_inner d h0, flow_inner d h0]
  refine C28_edge_partial d _ gross net out s0 s f t p _ hs hl ?_ (inner_one hg) hmin ((feasible_inner d g y).1 hy).1
  intro e he
  exact hwire e (List.mem_filter.1 he).1

/-- **C81 (edge solver).** The stream of a Keating aquifer takes its flow with any number of domains. -/
theorem C81_forced_edge (d : Data) (g : Graph) (hg : Connects d g) (y : List Rat) (hy : EdgeFeasible d g y) (h0 : Idle g y) (n : Nat)
    (hn : n ∈ d.nodes) (hk : d.kind n = .input) (q : Groundwater.Aquifer) (stream : Nat) (volume flow : Rat)
    (hq : q.stream stream volume = some flow) (ho : OrdinaryDouble flow)
    (hmin : (q.stream stream volume).map F.fin = some (d.minFlow n)) (hmax : (q.stream stream volume).map F.fin = some (d.maxFlow n)) :
    edgeNodeFlow d g y n = if |flow| < e8 then 0 else flow := by
  rw [flow_inner d h0]
  exact Groundwater.C81_forced_edge_partial d _ (inner_one hg) _ ((feasible_inner d g y).1 hy).1 n hn hk q stream volume flow hq ho hmin hmax

/-! ## Instance -/

/-- Two domains, `0 → 1` and `2 → 3`; the output 1 feeds the input 2, both with maximum flow 5. -/
private def two : Data :=
  ⟨fun n => match n with | 0 => .input | 1 => .output | 2 => .input | 3 => .output | _ => .other, [0, 1, 2, 3],
    fun _ => .fin 0, fun n => if n = 1 ∨ n = 2 then .fin 5 else .posInf, fun n => if n = 3 then -1 else 0, [], [], [], [(1, [(2, 1)])], 1⟩

private def twoGraph : Graph := ⟨[(0, 1), (1, 2), (2, 3)], fun n => n / 2⟩

theorem row_limit {d : Data} {g : Graph} {y : List Rat} (hy : EdgeFeasible d g y) {n c : Nat} (hn : n ∈ d.nonStorages)
    (hc : flowEdges d g n = [c]) {a b : Rat} (hle : a ≤ b) (h1 : d.minFlow n = .fin a) (h2 : d.maxFlow n = .fin b) (o1 : OrdinaryDouble a)
    (o2 : OrdinaryDouble b) (hb : ¬ |b| < e8) : y.getD c 0 ≤ b := by
  obtain ⟨rows, hrows, -, -, hsat⟩ := hy
  obtain ⟨row, hm, hr⟩ := (edgeRows_parts hrows).1 n hn
  obtain ⟨-, -, -, he, hB⟩ := nodeRowE_ok hr
  have := hsat row hm
  rw [he, hc] at this
  have e : rowVal y (const 1 [c]) = y.getD c 0 := by simp [rowVal, const]
  rw [e] at this
  rw [h1, h2] at hB
  have := (C22_between a b _ hle (limited_of_admits (Or.inr ⟨a, rfl, o1⟩) (Or.inr ⟨b, rfl, o2⟩) hB this)).2
  unfold F.effective at this
  simpa [hb, F.AtMost] using this

/-- The hypotheses are met: sending 5 through both domains is a basic solution. -/
example : Connects two twoGraph ∧ BasicSolution two twoGraph [5, 0, 5] ∧ edgeNodeFlow two twoGraph [5, 0, 5] 3 = 5 := by
  refine ⟨by unfold Connects; decide +kernel, ⟨by decide +kernel, ?_⟩, by decide +kernel⟩
  intro y₁ y₂ f1 f2 hm
  have o0 : OrdinaryDouble 0 := by unfold OrdinaryDouble; decide +kernel
  have o5 : OrdinaryDouble 5 := by unfold OrdinaryDouble; decide +kernel
  have hb : ¬ |(5 : Rat)| < e8 := by decide +kernel
  have lim : ∀ y, EdgeFeasible two twoGraph y → ∃ a b c, y = [a, b, c] ∧ 0 ≤ b ∧ a ≤ 5 ∧ c ≤ 5 := by
    intro y hy
    have l1 := row_limit hy (n := 1) (c := 0) (by decide +kernel) (by decide +kernel) (by norm_num : (0 : Rat) ≤ 5) rfl rfl o0 o5 hb
    have l2 := row_limit hy (n := 2) (c := 2) (by decide +kernel) (by decide +kernel) (by norm_num : (0 : Rat) ≤ 5) rfl rfl o0 o5 hb
    obtain ⟨-, -, hlen, hpos, -⟩ := hy
    obtain ⟨a, b, c, rfl⟩ := List.length_eq_three.1 hlen
    exact ⟨a, b, c, rfl, hpos b (by simp), l1, l2⟩
  obtain ⟨a, b, c, rfl, p1, q1, r1⟩ := lim _ f1
  obtain ⟨a', b', c', rfl, p2, q2, r2⟩ := lim _ f2
  have h0 := hm 0
  have h1 := hm 1
  have h2 := hm 2
  simp at h0 h1 h2
  have : a = a' := by linarith
  have : b = b' := by linarith
  have : c = c' := by linarith
  simp_all

/-- A factor of two is accepted by both solvers and a factor of zero by neither. -/
example : (edgeRows { two with cross := [(1, [(2, 2)])] } twoGraph).toOption.isSome ∧ (routeRows { two with cross := [(1, [(2, 2)])] } [[0, 1], [2, 3]]).toOption.isSome ∧
    (edgeRows { two with cross := [(1, [(2, 0)])] } twoGraph).toOption.isSome = false := by
  decide +kernel

end Verif.Lp

import Verif.Props.Simulation
/-! # C88: all scenarios of a simulation -/

namespace Verif.Simulation

open Verif Verif.Lp Verif.Bounds

variable {N : Net} {n : Nat} {params : List (Fin n → Done) → Fin n → Values} {start : Fin n → Moment}

private theorem runs_concat {answer : Data → (Nat → Rat) → Prop} {params : List Done → Values} {m0 : Moment} {l : List Done} {t : Done} {m : Moment}
    (hr : Runs N answer params m0 (l ++ [t]) m) : ∃ m' flow, Runs N answer params m0 l m' ∧ answer (N.data (params l) m') flow ∧ t = ⟨params l, flow⟩ ∧
      m = N.next (params l) flow m' := by
  generalize e : l ++ [t] = k at hr
  cases hr with
  | start => simp at e
  | @step h m' flow hr ha =>
    obtain ⟨rfl, e2⟩ := List.append_inj' e rfl
    exact ⟨m', flow, hr, ha, by simpa using e2, rfl⟩

private theorem runs_nil {answer : Data → (Nat → Rat) → Prop} {params : List Done → Values} {m0 m : Moment} (hr : Runs N answer params m0 [] m) : m = m0 := by
  generalize e : ([] : List Done) = k at hr
  cases hr with
  | start => rfl
  | step _ _ => simp at e

private theorem ensemble_concat {answer : Data → (Nat → Rat) → Prop} {l : List (Fin n → Done)} {t : Fin n → Done} {m : Fin n → Moment}
    (hr : Ensemble N answer params start (l ++ [t]) m) : ∃ (m' : Fin n → Moment) (flow : Fin n → Nat → Rat), Ensemble N answer params start l m' ∧ (∀ i, answer (N.data (params l i) (m' i)) (flow i)) ∧
      (t = fun i => ⟨params l i, flow i⟩) ∧ m = fun i => N.next (params l i) (flow i) (m' i) := by
  generalize e : l ++ [t] = k at hr
  cases hr with
  | start => simp at e
  | @step h m' flow hr ha =>
    obtain ⟨rfl, e2⟩ := List.append_inj' e rfl
    exact ⟨m', flow, hr, ha, by simpa using e2, rfl⟩

private theorem runs_congr {answer : Data → (Nat → Rat) → Prop} {p q : List Done → Values} {m0 : Moment} {h : List Done} {m : Moment} (hr : Runs N answer p m0 h m)
    (hpq : ∀ h', h'.length < h.length → p h' = q h') : Runs N answer q m0 h m := by
  induction hr with
  | start => exact .start
  | @step h m flow hr ha ih =>
    have e := hpq h (by simp)
    rw [e] at ha ⊢
    exact .step (ih fun h' hl => hpq h' (by simp; omega)) ha

/-- **C88 (scenarios).** In a run of several scenarios, what happens in one of them is a run of this scenario, in which the parameters of a timestep say what they said in the ensemble. So everything that holds in all runs of one
scenario holds for all scenarios of an ensemble, whatever else the parameters look at. -/
theorem C88_scenario (answer : Data → (Nat → Rat) → Prop) (h : List (Fin n → Done)) (m : Fin n → Moment) (hr : Ensemble N answer params start h m) (i : Fin n) :
    Runs N answer (fun l => params (h.take l.length) i) (start i) (h.map (· i)) (m i) := by
  induction hr with
  | start => exact .start
  | @step h m flow hr ha ih =>
    have ih' := runs_congr (q := fun l => params ((h ++ [fun i => (⟨params h i, flow i⟩ : Done)]).take l.length) i) ih (by
      intro l hl
      rw [List.length_map] at hl
      show params _ i = params _ i
      rw [List.take_append_of_le_length (by omega)])
    have e : params ((h ++ [fun i => (⟨params h i, flow i⟩ : Done)]).take (h.map (· i)).length) i = params h i := by
      rw [List.length_map, List.take_left]
    have := Runs.step ih' (flow := flow i) (by rw [e]; exact ha i)
    rw [e] at this
    rw [List.map_append]
    exact this

/-- **C88 (flows, scenarios).** -/
theorem C88_ensemble_flows (hN : N.Ok) (answer : Data → (Nat → Rat) → Prop) (ha : answer = routeAnswer N ∨ answer = edgeAnswer N) (h : List (Fin n → Done)) (m : Fin n → Moment)
    (hr : Ensemble N answer params start h m) (t : Fin n → Done) (ht : t ∈ h) (i : Fin n) (k : Nat) (hk : k ∈ N.nodes) (hkind : N.kind k ≠ .other)
    (hmin : LowerLimit ((t i).values.minFlow k)) (hmax : UpperLimit ((t i).values.maxFlow k)) :
    Limited ((t i).values.minFlow k) ((t i).values.maxFlow k) ((t i).flow k) :=
  C88_flows hN answer ha _ _ (C88_scenario answer h m hr i) (t i) (List.mem_map.2 ⟨t, ht, rfl⟩) k hk hkind hmin hmax

/-- **C88 (volumes, scenarios).** -/
theorem C88_ensemble_volumes (hN : N.Ok) (answer : Data → (Nat → Rat) → Prop) (ha : answer = routeAnswer N ∨ answer = edgeAnswer N) (h : List (Fin n → Done)) (m : Fin n → Moment)
    (hr : Ensemble N answer params start h m) (i : Fin n) (k : Nat) (hk : k < N.stores.length) (mx mn : Rat)
    (hfix : ∀ h', (params h' i).limits k = (mx, mn)) (hd : ∀ h', 0 < (params h' i).days ∧ (mx - mn) / (params h' i).days < dblMax)
    (h1 : mn ≤ ((start i).stores k).volume) (h2 : ((start i).stores k).volume ≤ mx) : mn ≤ ((m i).stores k).volume ∧ ((m i).stores k).volume ≤ mx :=
  C88_volumes hN answer ha _ _ (C88_scenario answer h m hr i) k hk mx mn (fun _ => hfix _) (fun _ => hd _) h1 h2

/-- **C88 (balance, scenarios).** Each scenario has its own balance: no water goes from one scenario to another. -/
theorem C88_ensemble_balance (hN : N.Ok) (answer : Data → (Nat → Rat) → Prop) (ha : answer = routeAnswer N ∨ answer = edgeAnswer N) (h : List (Fin n → Done)) (m : Fin n → Moment)
    (hr : Ensemble N answer params start h m) (i : Fin n) :
    |N.stored (m i) - (N.stored (start i) + (h.map fun t => N.inflow (t i)).sum - (h.map fun t => N.outflow (t i)).sum)| ≤
      h.length * (N.stores.length * (2 * Storage.e6)) := by
  have := C88_balance hN answer ha _ _ (C88_scenario answer h m hr i)
  rw [List.map_map, List.map_map, List.length_map] at this
  exact this

/-- **C88 (virtual storages, scenarios).** -/
theorem C88_ensemble_virtual (hN : N.Ok) (answer : Data → (Nat → Rat) → Prop) (ha : answer = routeAnswer N ∨ answer = edgeAnswer N) (h : List (Fin n → Done)) (m : Fin n → Moment)
    (hr : Ensemble N answer params start h m) (i : Fin n) (k : Nat) (s : List Nat × List Rat) (hk : N.virtuals[k]? = some s) (mx mn : Rat)
    (hs : s.1.Nodup ∧ ∀ n ∈ s.1, n ∈ N.nodes ∧ N.kind n ≠ .other ∧
      ∀ r ∈ N.routes, n ∈ r → N.kind n = .link ∨ (N.kind n = .input ∧ r.head? = some n) ∨ (N.kind n = .output ∧ r.getLast? = some n))
    (hfix : ∀ h', (params h' i).vlimits k = (mx, mn)) (hd : ∀ h', 0 < (params h' i).days ∧ (mx - mn) / (params h' i).days < dblMax)
    (hfill : ∀ h' v, (params h' i).refill k = some v → mn ≤ v ∧ v ≤ mx)
    (h1 : mn ≤ ((start i).virtuals k).volume) (h2 : ((start i).virtuals k).volume ≤ mx) : mn ≤ ((m i).virtuals k).volume ∧ ((m i).virtuals k).volume ≤ mx :=
  C88_virtual hN answer ha _ _ (C88_scenario answer h m hr i) k s hk mx mn hs (fun _ => hfix _) (fun _ => hd _) (fun _ => hfill _) h1 h2

/-- **C88 (use of virtual storages, scenarios).** -/
theorem C88_ensemble_use (answer : Data → (Nat → Rat) → Prop) (h : List (Fin n → Done)) (m : Fin n → Moment) (hr : Ensemble N answer params start h m) (i : Fin n) (k : Nat)
    (s : List Nat × List Rat) (hk : N.virtuals[k]? = some s) :
    |((m i).virtuals k).volume - left k s ((start i).virtuals k).volume (h.map (· i))| ≤ h.length * (2 * Storage.e6) := by
  have := C88_use answer _ _ (C88_scenario answer h m hr i) k s hk
  rwa [List.length_map] at this

/-- **C88 (independence).** If the parameters of a scenario look only at what happened in this scenario, the runs of the ensemble are exactly the runs of the scenarios side by side: the other scenarios make no difference to one of them, and every choice of
runs of the same length is a run of the ensemble. -/
theorem C88_independent (answer : Data → (Nat → Rat) → Prop) (own : Fin n → List Done → Values) (hown : ∀ h i, params h i = own i (h.map (· i))) (h : List (Fin n → Done))
    (m : Fin n → Moment) : Ensemble N answer params start h m ↔ ∀ i, Runs N answer (own i) (start i) (h.map (· i)) (m i) := by
  induction h using List.reverseRecOn generalizing m with
  | nil =>
    constructor
    · intro hr i
      generalize e : ([] : List (Fin n → Done)) = k at hr
      cases hr with
      | start => exact .start
      | step _ _ => simp at e
    · intro hr
      have : m = start := by
        funext i
        exact runs_nil (hr i)
      rw [this]
      exact .start
  | append_singleton l t ih =>
    constructor
    · intro hr i
      obtain ⟨m', flow, hr', ha, rfl, rfl⟩ := ensemble_concat hr
      have := Runs.step ((ih m').1 hr' i) (flow := flow i) (by rw [← hown]; exact ha i)
      rw [← hown] at this
      rw [List.map_append]
      exact this
    · intro hr
      have hc : ∀ i, ∃ m' flow, Runs N answer (own i) (start i) (l.map (· i)) m' ∧ answer (N.data (own i (l.map (· i))) m') flow ∧ t i = ⟨own i (l.map (· i)), flow⟩ ∧
          m i = N.next (own i (l.map (· i))) flow m' := fun i => runs_concat (by have := hr i; rw [List.map_append] at this; exact this)
      choose m' flow h1 h2 h3 h4 using hc
      have := Ensemble.step ((ih m').2 h1) (flow := flow) (fun i => by rw [hown]; exact h2 i)
      have e1 : (fun i => (⟨params l i, flow i⟩ : Done)) = t := by funext i; rw [h3, hown]
      have e2 : (fun i => N.next (params l i) (flow i) (m' i)) = m := by funext i; rw [h4, hown]
      rw [e1, e2] at this
      exact this

private theorem one_answer {a b : Data → (Nat → Rat) → Prop} {v : Values} {m : Moment} (h : ∀ l m', Runs N a (fun _ => v) m l m' → Runs N b (fun _ => v) m l m') {flow : Nat → Rat}
    (ha : a (N.data v m) flow) : b (N.data v m) flow := by
  have hr : Runs N a (fun _ => v) m ([] ++ [⟨v, flow⟩]) (N.next v flow m) := .step .start ha
  obtain ⟨m', f, h1, h2, h3, -⟩ := runs_concat (h _ _ hr)
  have : f = flow := by injection h3 with _ h; exact h.symm
  rw [← this, ← runs_nil h1]
  exact h2

private theorem ensemble_mono {a b : Data → (Nat → Rat) → Prop} (hab : ∀ h i m flow, a (N.data (params h i) m) flow → b (N.data (params h i) m) flow) {h : List (Fin n → Done)}
    {m : Fin n → Moment} (hr : Ensemble N a params start h m) : Ensemble N b params start h m := by
  induction hr with
  | start => exact .start
  | step _ hf ih => exact .step ih fun i => hab _ _ _ _ (hf i)

private theorem alike_any {v : Values} {m m' : Moment} (h : Alike N (fun _ => v) m) : Alike N (fun _ => v) m' :=
  ⟨fun l => comparable_any (h.comparable l), fun l => route_any (h.route l), fun l => edge_any (h.edge l)⟩

/-- **C88 (solvers, scenarios).** The possible runs of an ensemble are the same with both solvers. -/
theorem C88_ensemble_solvers_partial (hA : ∀ h i, Alike N (fun _ => params h i) (start i)) (h : List (Fin n → Done)) (m : Fin n → Moment) :
    Ensemble N (routeAnswer N) params start h m ↔ Ensemble N (edgeAnswer N) params start h m :=
  ⟨ensemble_mono fun h i _ _ => one_answer fun l m' => (C88_solvers_partial (alike_any (hA h i)) l m').1,
    ensemble_mono fun h i _ _ => one_answer fun l m' => (C88_solvers_partial (alike_any (hA h i)) l m').2⟩

/-- **C88 (solvers, least cost, scenarios).** -/
theorem C88_ensemble_best_partial (hA : ∀ h i, Alike N (fun _ => params h i) (start i))
    (hcost : ∀ h i, ∀ r ∈ N.routes, |routeCost (N.data (params h i) (start i)) r| < e8 → routeCost (N.data (params h i) (start i)) r = 0) (h : List (Fin n → Done))
    (m : Fin n → Moment) : Ensemble N (routeBest N) params start h m ↔ Ensemble N (edgeBest N) params start h m :=
  ⟨ensemble_mono fun h i m _ => one_answer fun l m' => (C88_best_partial (m0 := m) (alike_any (hA h i)) (fun _ => hcost h i) l m').1,
    ensemble_mono fun h i m _ => one_answer fun l m' => (C88_best_partial (m0 := m) (alike_any (hA h i)) (fun _ => hcost h i) l m').2⟩

/-! ## Instance: two scenarios of a reservoir between an input and an output; the limit of the output in the second follows the flow of the first. -/

private def pairNet : Net where
  kind n := match n with | 0 => .input | 1 => .output | 2 => .input | 3 => .output | _ => .other
  nodes := [0, 1, 2, 3]
  stores := [([2], [1])]
  virtuals := []
  routes := [[0, 1], [2, 3]]
  graph := ⟨[(0, 1), (2, 3)], fun _ => 0⟩

def pairValues (x : Rat) : Values where
  minFlow _ := .fin 0
  maxFlow n := if n = 3 then .fin x else .fin 10
  cost _ := 0
  limits _ := (100, 0)
  vlimits _ := (0, 0)
  active _ := true
  refill _ := none
  aggs := []
  cross := []
  days := 1

private def pairParams (h : List (Fin 2 → Done)) (i : Fin 2) : Values := pairValues (if i = 0 then 5 else match h with | [] => 6 | t :: _ => (t 0).flow 3)

def pairStart : Fin 2 → Moment := fun i => ⟨fun _ => ⟨if i = 0 then 50 else 20, 0, 0, none⟩, fun _ => ⟨0, 0, 0, none⟩⟩

private theorem pair_ok : pairNet.Ok := ⟨by decide, by decide, by decide, by decide, by decide, by
  intro r hr
  simp only [pairNet, List.mem_cons, List.not_mem_nil, or_false] at hr
  rcases hr with rfl | rfl
  · exact ⟨by decide, ⟨0, rfl, rfl⟩, ⟨1, rfl, rfl⟩, by decide⟩
  · exact ⟨by decide, ⟨2, rfl, rfl⟩, ⟨3, rfl, rfl⟩, by decide⟩, by decide⟩

private def pairFlow (a b : Rat) : Nat → Rat := pairNet.commit (routeNodeFlow (pairNet.data (pairValues 5) (pairStart 0)) pairNet.routes [a, b])

/-- Two timesteps of two scenarios: in the second timestep the output of the second scenario may take 3, as much as it took in the first scenario in the first. -/
example : pairNet.Ok ∧ ∃ h m, Ensemble pairNet (routeAnswer pairNet) pairParams pairStart h m ∧ h.length = 2 ∧ ((m 0).stores 0).volume = 50 + (4 - 3) + (2 - 5) ∧
    ((m 1).stores 0).volume = 20 + (1 - 6) + (4 - 3) := by
  refine ⟨pair_ok, _, _, Ensemble.step (flow := fun i => if i = 0 then pairFlow 2 5 else pairFlow 4 3) (Ensemble.step (flow := fun i => if i = 0 then pairFlow 4 3 else pairFlow 1 6) .start
    ?_) ?_, rfl, by decide +kernel, by decide +kernel⟩
  · intro i
    match i with
    | 0 => exact ⟨[4, 3], by decide +kernel, rfl⟩
    | 1 => exact ⟨[1, 6], by decide +kernel, rfl⟩
  · intro i
    match i with
    | 0 => exact ⟨[2, 5], by decide +kernel, rfl⟩
    | 1 => exact ⟨[4, 3], by decide +kernel, rfl⟩

/-- Two scenarios of the network of `Props/Simulation` that look only at themselves, with different solutions. -/
example : (∀ (h : List (Fin 2 → Done)) (i : Fin 2), Alike sampleNet (fun _ => sampleParams (h.map (· i))) sampleStart) ∧
    (∀ (h : List (Fin 2 → Done)) (i : Fin 2), ∀ r ∈ sampleNet.routes, |routeCost (sampleNet.data (sampleParams (h.map (· i))) sampleStart) r| < e8 →
      routeCost (sampleNet.data (sampleParams (h.map (· i))) sampleStart) r = 0) ∧
    ∃ h m, Ensemble sampleNet (routeAnswer sampleNet) (fun h (i : Fin 2) => sampleParams (h.map (· i))) (fun _ => sampleStart) h m ∧ h.length = 1 ∧
      ((m 0).stores 0).volume = 51 ∧ ((m 1).stores 0).volume = 49 := by
  refine ⟨fun h i => ⟨fun _ => sample_alike.comparable _, fun _ => sample_alike.route _, fun _ => sample_alike.edge _⟩, fun h i => ?_, _, _,
    .step (flow := fun i => sampleNet.commit (routeNodeFlow (sampleNet.data (sampleParams []) sampleStart) sampleNet.routes (if i = 0 then [5, 3, 2] else [5, 1, 2]))) .start
      fun i => ?_, rfl, by decide +kernel, by decide +kernel⟩
  · rcases sample_cases (h.map (· i)) with e | e <;> rw [e] <;> decide +kernel
  · match i with
    | 0 => exact ⟨[5, 3, 2], by decide +kernel, rfl⟩
    | 1 => exact ⟨[5, 1, 2], by decide +kernel, rfl⟩

/-- An input, two links that lead to each other, an output. -/
def cycleNet : Net where
  kind n := match n with | 0 => .input | 1 => .link | 2 => .output | 3 => .link | _ => .other
  nodes := [0, 1, 2, 3]
  stores := []
  virtuals := []
  routes := [[0, 1, 2]]
  graph := ⟨[(0, 1), (1, 2), (1, 3), (3, 1)], fun _ => 0⟩

/-- **C88 fails** (same runs with both solvers) for networks with cycles: the edge solver may let water go round between two links, which no route does. -/
theorem C88_cycle_fails : cycleNet.Ok ∧ (∃ h m, Runs cycleNet (edgeAnswer cycleNet) (fun _ => pairValues 5) (pairStart 0) h m ∧ h.length = 1 ∧ ∃ t ∈ h, t.flow 3 = 4) ∧
    ∀ h m, Runs cycleNet (routeAnswer cycleNet) (fun _ => pairValues 5) (pairStart 0) h m → ∀ t ∈ h, t.flow 3 = 0 := by
  refine ⟨⟨by decide, by decide, by decide, by decide, by decide, ?_, by decide⟩, ⟨_, _, .step .start ⟨[2, 2, 4, 4], by decide +kernel, ?_, rfl⟩, rfl, _, List.mem_singleton.2 rfl,
    by decide +kernel⟩, ?_⟩
  rotate_left
  · unfold Idle
    decide +kernel
  rotate_left
  · intro r hr
    rw [List.mem_singleton.1 hr]
    exact ⟨by decide, ⟨0, rfl, rfl⟩, ⟨2, rfl, rfl⟩, by decide⟩
  · intro h m hr
    induction hr with
    | start => simp
    | @step h m flow hr ha ih =>
      intro t ht
      rcases List.mem_append.1 ht with ht | ht
      · exact ih t ht
      · rw [List.mem_singleton.1 ht]
        obtain ⟨x, hx, rfl⟩ := ha
        show cycleNet.commit (routeNodeFlow (cycleNet.data (pairValues 5) m) cycleNet.routes x) 3 = 0
        rw [show cycleNet.commit (routeNodeFlow (cycleNet.data (pairValues 5) m) cycleNet.routes x) 3 = routeNodeFlow (cycleNet.data (pairValues 5) m) cycleNet.routes x 3 from
          if_pos (by decide), routeNodeFlow_eq_S]
        have h0 : nodeCoef (cycleNet.data (pairValues 5) m) [0, 1, 2] 3 = 0 := by simp [nodeCoef]
        rcases x with _ | ⟨a, l⟩ <;> simp [S, cycleNet]
        left
        exact h0

end Verif.Simulation

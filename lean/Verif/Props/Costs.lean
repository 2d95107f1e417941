import Verif.Props.Units
import Verif.Props.Domains
import Verif.Props.RouteLp
import Verif.Spec.Costs
/-!
# C121: changes of costs
-/

namespace Verif.Lp

open Verif Verif.Bounds Verif.Composite

private theorem route_feasible_costs (d : Data) (cost : Nat → Rat) (routes : List (List Nat)) (x : List Rat) : RouteFeasible (withCosts d cost) routes x ↔ RouteFeasible d routes x := by
  rw [routeFeasible_iff, routeFeasible_iff]; rfl

private theorem edge_feasible_costs (d : Data) (cost : Nat → Rat) (g : Graph) (y : List Rat) : EdgeFeasible (withCosts d cost) g y ↔ EdgeFeasible d g y := by
  rw [edgeFeasible_iff, edgeFeasible_iff]; rfl

private theorem sum_diff (l : List Nat) (f f' c c' : Nat → Rat) :
    (l.map fun n => (c' n - c n) * (f' n - f n)).sum = ((l.map fun n => f' n * c' n).sum - (l.map fun n => f n * c' n).sum) + ((l.map fun n => f n * c n).sum - (l.map fun n => f' n * c n).sum) := by
  induction l with
  | nil => simp
  | cons a l ih => simp only [List.map_cons, List.sum_cons, ih]; ring

private theorem sum_single {l : List Nat} (hl : l.Nodup) {n : Nat} (hn : n ∈ l) (δ : Rat) (c g : Nat → Rat) :
    (l.map fun m => ((if m = n then c m + δ else c m) - c m) * g m).sum = δ * g n := by
  have e : (l.map fun m => ((if m = n then c m + δ else c m) - c m) * g m) = l.map fun m => if m = n then δ * g n else 0 := by
    apply List.map_congr_left
    intro m _
    split
    · rename_i h; rw [h]; ring
    · ring
  rw [e]
  clear e
  induction l with
  | nil => cases hn
  | cons a l ih =>
    rw [List.nodup_cons] at hl
    simp only [List.map_cons, List.sum_cons]
    by_cases ha : a = n
    · subst ha
      have : (l.map fun m => if m = a then δ * g a else 0).sum = 0 := by
        have : (l.map fun m => if m = a then δ * g a else 0) = l.map fun _ => 0 := List.map_congr_left fun m hm => if_neg (by rintro rfl; exact hl.1 hm)
        rw [this]; exact sum_map_zero fun _ _ => rfl
      rw [if_pos rfl, this, add_zero]
    · rw [if_neg ha, zero_add]
      rcases List.mem_cons.1 hn with h | h
      · exact absurd h.symm ha
      · exact ih hl.2 h

/-- **C121 (any change of costs).** Whatever costs are changed, flows move against the changes on the whole: the changes of the costs times the changes of the flows add up to nothing positive, but for the
tolerance of the solver of 1e-8 per unit of flow; exactly so if no route has a cost below 1e-8. -/
theorem C121_change (d : Data) (hd : d.nodes.Nodup) (routes : List (List Nat)) (hw : WellRouted d routes) (cost : Nat → Rat) (x x' : List Rat) (hx : Optimal d routes x) (hx' : Optimal (withCosts d cost) routes x') :
    (d.nodes.map fun n => (cost n - d.cost n) * (routeNodeFlow d routes x' n - routeNodeFlow d routes x n)).sum ≤ 2 / 100000000 * (x.sum + x'.sum) ∧
      (NoTinyCost d routes → NoTinyCost (withCosts d cost) routes → (d.nodes.map fun n => (cost n - d.cost n) * (routeNodeFlow d routes x' n - routeNodeFlow d routes x n)).sum ≤ 0) := by
  have hw' : WellRouted (withCosts d cost) routes := hw
  have feas : ∀ z, RouteFeasible d routes z → z.length = routes.length ∧ ∀ v ∈ z, 0 ≤ v := fun z hz => by
    obtain ⟨rows, -, h1, h2, -⟩ := hz; exact ⟨h1, h2⟩
  have hf' := (route_feasible_costs d cost routes x').1 hx'.1
  obtain ⟨l1, p1⟩ := feas x hx.1
  obtain ⟨l2, p2⟩ := feas x' hf'
  have a1 := C23_route d hd routes hw x l1 p1
  have a2 := C23_route d hd routes hw x' l2 p2
  have b1 := C23_route (withCosts d cost) hd routes hw' x l1 p1
  have b2 := C23_route (withCosts d cost) hd routes hw' x' l2 p2
  have o1 := hx.2 x' hf'
  have o2 := hx'.2 x ((route_feasible_costs d cost routes x).2 hx.1)
  have hfl : ∀ z n, routeNodeFlow (withCosts d cost) routes z n = routeNodeFlow d routes z n := fun _ _ => rfl
  have hc : ∀ n, (withCosts d cost).cost n = cost n := fun _ => rfl
  have hn : (withCosts d cost).nodes = d.nodes := rfl
  simp only [hfl, hc, hn] at b1 b2
  rw [sum_diff]
  constructor
  · have e : e8 = 1 / 100000000 := rfl
    have a1 := abs_le.1 a1.1
    have a2 := abs_le.1 a2.1
    have b1 := abs_le.1 b1.1
    have b2 := abs_le.1 b2.1
    rw [e] at a1 a2 b1 b2
    linarith [a1.1, a1.2, a2.1, a2.2, b1.1, b1.2, b2.1, b2.2]
  · intro t t'
    have a1 := a1.2 t
    have a2 := a2.2 t
    have b1 := b1.2 t'
    have b2 := b2.2 t'
    linarith

/-- **C121 (a dearer node is not used more).** When the cost of one node is raised, its flow does not rise (for a demand: raising its priority does not lower its supply). Up to the tolerance of the solver;
exactly if no route has a cost below 1e-8. -/
theorem C121_dearer_partial (d : Data) (hd : d.nodes.Nodup) (routes : List (List Nat)) (hw : WellRouted d routes) (n : Nat) (hn : n ∈ d.nodes) (δ : Rat) (hδ : 0 < δ) (x x' : List Rat) (hx : Optimal d routes x)
    (hx' : Optimal (dearer d n δ) routes x') :
    routeNodeFlow d routes x' n ≤ routeNodeFlow d routes x n + 2 / 100000000 * (x.sum + x'.sum) / δ ∧
      (NoTinyCost d routes → NoTinyCost (dearer d n δ) routes → routeNodeFlow d routes x' n ≤ routeNodeFlow d routes x n) := by
  have h := C121_change d hd routes hw _ x x' hx hx'
  rw [sum_single hd hn δ d.cost fun m => routeNodeFlow d routes x' m - routeNodeFlow d routes x m] at h
  refine ⟨?_, fun t t' => ?_⟩
  · have h1 := h.1
    rw [mul_comm] at h1
    have := (le_div_iff₀ hδ).2 h1
    linarith
  · have := nonpos_of_mul_nonpos_right (h.2 t t') hδ
    linarith

/-- **C121 (any change of costs, edge solver).** -/
theorem C121_edge_change_partial (d : Data) (g : Graph) (hg : Connects d g) (cost : Nat → Rat) (y y' : List Rat) (hy : EdgeOptimal d g y) (hy' : EdgeOptimal (withCosts d cost) g y') (h0 : Idle g y) (h0' : Idle g y') :
    (d.nodes.map fun n => (cost n - d.cost n) * (edgeNodeFlow d g y' n - edgeNodeFlow d g y n)).sum ≤ 0 := by
  have hf' := (edge_feasible_costs d cost g y').1 hy'.1
  have o1 := hy.2 y' hf'
  have o2 := hy'.2 y ((edge_feasible_costs d cost g y).2 hy.1)
  have hg' : Connects (withCosts d cost) g := hg
  rw [C23_edge d g hg y h0, C23_edge d g hg y' h0'] at o1
  rw [C23_edge _ g hg' y h0, C23_edge _ g hg' y' h0'] at o2
  have hfl : ∀ z n, edgeNodeFlow (withCosts d cost) g z n = edgeNodeFlow d g z n := fun _ _ => rfl
  have hc : ∀ n, (withCosts d cost).cost n = cost n := fun _ => rfl
  have hn : (withCosts d cost).nodes = d.nodes := rfl
  simp only [hfl, hc, hn] at o2
  rw [sum_diff]
  linarith

/-- **C121 (a dearer node is not used more, edge solver).** -/
theorem C121_edge_dearer_partial (d : Data) (hd : d.nodes.Nodup) (g : Graph) (hg : Connects d g) (n : Nat) (hn : n ∈ d.nodes) (δ : Rat) (hδ : 0 < δ) (y y' : List Rat) (hy : EdgeOptimal d g y)
    (hy' : EdgeOptimal (dearer d n δ) g y') (h0 : Idle g y) (h0' : Idle g y') : edgeNodeFlow d g y' n ≤ edgeNodeFlow d g y n := by
  have h := C121_edge_change_partial d g hg _ y y' hy hy' h0 h0'
  rw [sum_single hd hn δ d.cost fun m => edgeNodeFlow d g y' m - edgeNodeFlow d g y m] at h
  have := nonpos_of_mul_nonpos_right h hδ
  linarith

/-- **C121 (only differences count).** Adding the same to the costs of all inputs and taking it off the costs of all outputs changes neither the cost nor the optimality of any allocation. -/
theorem C121_shift (d : Data) (routes : List (List Nat)) (hw : WellRouted d routes) (c : Rat) (x : List Rat) :
    (RouteFeasible (shifted d c) routes x ↔ RouteFeasible d routes x) ∧ routeObjective (shifted d c) routes x = routeObjective d routes x ∧ (Optimal (shifted d c) routes x ↔ Optimal d routes x) := by
  have hc : ∀ r ∈ routes, routeCost (shifted d c) r = routeCost d r := by
    intro r hm
    obtain ⟨-, ⟨s, hs, ks⟩, ⟨t, ht, kt⟩, -⟩ := hw r hm
    unfold routeCost
    have e1 : (shifted d c).cost s = d.cost s + c := by simp [shifted, withCosts, ks]
    have e2 : (shifted d c).cost t = d.cost t - c := by simp [shifted, withCosts, kt]
    have e3 : ((r.tail.dropLast.filter fun n => (shifted d c).kind n == .link).map (shifted d c).cost) = ((r.tail.dropLast.filter fun n => d.kind n == .link).map d.cost) := by
      apply List.map_congr_left
      intro n hn
      have := (List.mem_filter.1 hn).2
      have hk : d.kind n = .link := by simpa [shifted, withCosts] using this
      simp [shifted, withCosts, hk]
    rw [hs, ht]
    simp only [Option.toList_some, List.map_append, List.map_cons, List.map_nil, List.sum_append, List.sum_cons, List.sum_nil]
    rw [e1, e2, e3]
    ring
  have ho : ∀ x, routeObjective (shifted d c) routes x = routeObjective d routes x := fun x => by
    rw [routeObjective_S, routeObjective_S]
    exact S_congr fun r hm => by rw [hc r hm]
  have hf : ∀ x, RouteFeasible (shifted d c) routes x ↔ RouteFeasible d routes x := fun x => route_feasible_costs d _ routes x
  exact ⟨hf x, ho x, and_congr (hf x) (forall_congr' fun z => by rw [ho, ho, hf])⟩

/-- **C121 (only differences count, edge solver).** -/
theorem C121_edge_shift (d : Data) (hd : d.nodes.Nodup) (g : Graph) (hg : Connects d g) (c : Rat) (y : List Rat) :
    (EdgeFeasible (shifted d c) g y ↔ EdgeFeasible d g y) ∧ (EdgeFeasible d g y → edgeObjective (shifted d c) g y = edgeObjective d g y) ∧ (EdgeOptimal (shifted d c) g y ↔ EdgeOptimal d g y) := by
  have hf : ∀ y, EdgeFeasible (shifted d c) g y ↔ EdgeFeasible d g y := fun y => edge_feasible_costs d _ g y
  have ho : ∀ y, EdgeFeasible d g y → edgeObjective (shifted d c) g y = edgeObjective d g y := fun y hy => by
    have hg' : OneDomain (shifted d c) (inner g) := inner_one hg
    rw [objective_inner, objective_inner d g y]
    have hy := ((feasible_inner d g y).1 hy).1
    generalize innerVals g y = y at hy ⊢
    rw [C23_edge_partial _ _ hg' y, C23_edge_partial d _ (inner_one hg) y]
    have hb := inputs_eq_outputs hd (inner_one hg) hy
    have key : ∀ l : List Nat, (l.map fun n => edgeNodeFlow (shifted d c) (inner g) y n * (shifted d c).cost n).sum =
        (l.map fun n => edgeNodeFlow d (inner g) y n * d.cost n).sum + c * (((l.filter fun n => d.kind n == .input).map (edgeNodeFlow d (inner g) y)).sum - ((l.filter fun n => d.kind n == .output).map (edgeNodeFlow d (inner g) y)).sum) := by
      intro l
      induction l with
      | nil => simp
      | cons n l ih =>
        have hfl : edgeNodeFlow (shifted d c) (inner g) y n = edgeNodeFlow d (inner g) y n := rfl
        rw [List.map_cons, List.sum_cons, ih, List.map_cons, List.sum_cons, hfl]
        cases hk : d.kind n <;> simp [hk, shifted, withCosts] <;> ring
    have hn : (shifted d c).nodes = d.nodes := rfl
    rw [hn, key, hb]; ring
  refine ⟨hf y, ho y, ?_⟩
  constructor
  · rintro ⟨h1, h2⟩
    have h1 := (hf y).1 h1
    exact ⟨h1, fun z hz => by rw [← ho y h1, ← ho z hz]; exact h2 z ((hf z).2 hz)⟩
  · rintro ⟨h1, h2⟩
    exact ⟨(hf y).2 h1, fun z hz => by have hz := (hf z).1 hz; rw [ho y h1, ho z hz]; exact h2 z hz⟩

/-- **C121 fails below 1e-8.** A supply that costs nothing and is not used is used fully when its cost is raised to 5e-9: both allocations are optimal for the route solver, for which both costs are zero. -/
theorem C121_dearer_fails : Optimal (supplyPair (.fin 0) (.fin 5) 0) [[0, 1]] [0] ∧ Optimal (dearer (supplyPair (.fin 0) (.fin 5) 0) 0 (1 / 200000000)) [[0, 1]] [5] ∧
    routeNodeFlow (supplyPair (.fin 0) (.fin 5) 0) [[0, 1]] [0] 0 < routeNodeFlow (supplyPair (.fin 0) (.fin 5) 0) [[0, 1]] [5] 0 := by
  have hE := e8_pos
  have hD := dblMax_gt
  have hbig : (5 : Rat) < dblMax := by
    unfold dblMax
    exact_mod_cast (by decide +kernel : (5 : Int) < 2 ^ 1024 - 2 ^ 971)
  have h1 : flowRow true (.fin 0) (.fin 5) = .stored ⟨.db, 0, 5⟩ := by
    have e1 : |(0 : Rat)| < e8 := by rw [abs_zero]; exact hE
    have e2 : ¬|(5 : Rat)| < e8 := by rw [abs_of_pos (by norm_num)]; unfold e8; norm_num
    have e3 : ¬|(0 : Rat) - 5| < e8 := by rw [zero_sub, abs_neg]; exact e2
    have e4 : ¬(0 : Rat) = -dblMax := by intro h; linarith
    have e5 : ¬(5 : Rat) = dblMax := by intro h; linarith
    simp only [flowRow, infToDblMax, roundTiny, e1, e2, if_false, setRowBnds, constraintType, e3, e4, e5, if_true]
  have f0 : RouteFeasible (supplyPair (.fin 0) (.fin 5) 0) [[0, 1]] [0] := (pair_feasible h1 0).2 ⟨le_refl _, le_refl _, by norm_num⟩
  have f5 : RouteFeasible (supplyPair (.fin 0) (.fin 5) 0) [[0, 1]] [5] := (pair_feasible h1 5).2 ⟨by norm_num, by norm_num, le_refl _⟩
  have o1 : ∀ x, routeObjective (supplyPair (.fin 0) (.fin 5) 0) [[0, 1]] x = 0 := fun x => by
    have : roundCost 0 = 0 := by unfold roundCost; split <;> rfl
    have hc : routeCost (supplyPair (.fin 0) (.fin 5) 0) [0, 1] = 0 := by simp [routeCost, supplyPair]
    unfold routeObjective
    simp only [List.zipIdx_cons, List.zipIdx_nil, List.map_cons, List.map_nil, hc, this]
    simp
  have o2 : ∀ x, routeObjective (dearer (supplyPair (.fin 0) (.fin 5) 0) 0 (1 / 200000000)) [[0, 1]] x = 0 := fun x => by
    have : roundCost (1 / 200000000) = 0 := by unfold roundCost; rw [if_pos]; rw [abs_of_pos (by norm_num)]; unfold e8; norm_num
    have hc : routeCost (dearer (supplyPair (.fin 0) (.fin 5) 0) 0 (1 / 200000000)) [0, 1] = 1 / 200000000 := by simp [routeCost, dearer, withCosts, supplyPair]
    unfold routeObjective
    simp only [List.zipIdx_cons, List.zipIdx_nil, List.map_cons, List.map_nil, hc, this]
    simp
  refine ⟨⟨f0, fun z _ => by rw [o1, o1]⟩, ⟨(route_feasible_costs _ _ _ _).2 f5, fun z _ => by rw [o2, o2]⟩, ?_⟩
  decide +kernel

/-! ## Examples -/

/-- A supply at cost 2 and a demand worth 10; raised by 20, the supply is not used any more. -/
example : WellRouted (withCosts (supplyPair (.fin 0) (.fin 5) 2) fun n => if n = 1 then -10 else 2) [[0, 1]] ∧ NoTinyCost (withCosts (supplyPair (.fin 0) (.fin 5) 2) fun n => if n = 1 then -10 else 2) [[0, 1]] ∧
    NoTinyCost (dearer (withCosts (supplyPair (.fin 0) (.fin 5) 2) fun n => if n = 1 then -10 else 2) 0 20) [[0, 1]] ∧ OneDomain (supplyPair (.fin 0) (.fin 5) 2) ⟨[(0, 1)], fun _ => 0⟩ ∧
    (shifted (supplyPair (.fin 0) (.fin 5) 2) 7).cost 0 = 9 := by
  refine ⟨?_, ?_, ?_, ?_, by decide +kernel⟩
  · intro r hr
    simp only [List.mem_singleton] at hr
    subst hr
    exact ⟨by decide, ⟨0, rfl, rfl⟩, ⟨1, rfl, rfl⟩, by decide +kernel⟩
  · unfold NoTinyCost; decide +kernel
  · unfold NoTinyCost; decide +kernel
  · unfold OneDomain; decide +kernel

end Verif.Lp

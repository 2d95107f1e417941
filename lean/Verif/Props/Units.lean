import Verif.Props.Relaxing
import Verif.Spec.Units
/-!
# C120: units of flows, volumes and costs
-/

namespace Verif.Lp

open Verif Verif.Bounds Verif.Composite

/-! ## Values -/

private theorem rnd_plain {k q : Rat} (h : Plain k q) : rnd q = q ∧ rnd (k * q) = k * q := by
  unfold rnd
  rcases h with rfl | ⟨h1, h2⟩
  · simp
  · rw [if_neg (not_lt.2 h1), if_neg (not_lt.2 h2)]; exact ⟨rfl, rfl⟩

private theorem plain_close {k q : Rat} (h : Plain k q) : |k * q| < e8 ↔ |q| < e8 := by
  rcases h with rfl | ⟨h1, h2⟩
  · simp
  · exact ⟨fun h => absurd h (not_lt.2 h2), fun h => absurd h (not_lt.2 h1)⟩

private theorem plain_zero {k q : Rat} (h : Plain k q) (hq : |q| < e8) : q = 0 := by
  rcases h with h | ⟨h1, -⟩
  · exact h
  · exact absurd hq (not_lt.2 h1)

private theorem limit_units {k : Rat} (hk : 0 < k) {a b : F} (h : PlainLimits k a b) :
    ∃ r r', flowRow true a b = .stored r ∧ flowRow true (inUnit k a) (inUnit k b) = .stored r' ∧ ∀ x, r.Admits x ↔ r'.Admits (k * x) := by
  have hE : ∀ q, F.effective (.fin q) = .fin (rnd q) := by intro q; simp only [F.effective, rnd]; split <;> rfl
  obtain ⟨⟨ha, hb⟩, ⟨ha', hb'⟩, hl, hu, hap⟩ := h
  obtain ⟨r, hr, h1⟩ := admits_iff ha hb
  obtain ⟨r', hr', h2⟩ := admits_iff ha' hb'
  refine ⟨r, r', hr, hr', fun x => ?_⟩
  rw [h1, h2]
  have le1 : ∀ p, p ≤ x ↔ k * p ≤ k * x := fun p => (mul_le_mul_iff_right₀ hk).symm
  have le2 : ∀ q, x ≤ q ↔ k * x ≤ k * q := fun q => (mul_le_mul_iff_right₀ hk).symm
  have eq1 : ∀ p, p = x ↔ k * p = k * x := fun p => ⟨fun h => by rw [h], fun h => mul_left_cancel₀ (ne_of_gt hk) h⟩
  rcases ha with rfl | ⟨p, rfl, -⟩ <;> rcases hb with rfl | ⟨q, rfl, -⟩
  · simp [inUnit, F.effective, Close, F.AtLeast, F.AtMost]
  · obtain ⟨e1, e2⟩ := rnd_plain (hu q rfl)
    simp only [inUnit, hE, e1, e2]
    simp [F.effective, Close, F.AtLeast, F.AtMost, le2]
  · obtain ⟨e1, e2⟩ := rnd_plain (hl p rfl)
    simp only [inUnit, hE, e1, e2]
    simp [F.effective, Close, F.AtLeast, F.AtMost, le1]
  · obtain ⟨e1, e2⟩ := rnd_plain (hl p rfl)
    obtain ⟨e3, e4⟩ := rnd_plain (hu q rfl)
    have e5 := plain_close (hap p q rfl rfl)
    simp only [inUnit, hE, e1, e2, e3, e4, Close, F.AtLeast, F.AtMost, F.fin.injEq]
    rw [← mul_sub, e5, ← le1, ← le2, ← eq1]

private theorem storage_units {k : Rat} (hk : 0 < k) {v mx mn days : Rat} (hd : 0 < days) (h : PlainVolume k v mx mn days) (x : Rat) :
    (Storage.storageRow v mx mn days).Admits x ↔ (Storage.storageRow (k * v) (k * mx) (k * mn) days).Admits (k * x) := by
  obtain ⟨h1, h2, ⟨h3, h4⟩, h5, h6⟩ := h
  have m1 : max (k * mx - k * v) 0 = k * max (mx - v) 0 := by rw [← mul_sub, mul_max_of_nonneg _ _ (le_of_lt hk), mul_zero]
  have m2 : max (k * v - k * mn) 0 = k * max (v - mn) 0 := by rw [← mul_sub, mul_max_of_nonneg _ _ (le_of_lt hk), mul_zero]
  rw [storage_admits hd h3 h4, storage_admits hd (by rw [← mul_sub, mul_div_assoc]; exact h5) (by rw [← mul_sub, mul_div_assoc]; exact h6), m1, m2]
  obtain ⟨e1, e2⟩ := rnd_plain h1
  have h2' : Plain k (-max (v - mn) 0 / days) := by
    rw [neg_div]
    unfold Plain at *
    rw [mul_neg, abs_neg, abs_neg, neg_eq_zero]; exact h2
  obtain ⟨e3, e4⟩ := rnd_plain h2'
  rw [e1, e3, show -(k * max (v - mn) 0) / days = k * (-max (v - mn) 0 / days) by ring, e4, mul_div_assoc, e2]
  have e5 : mx = mn ↔ k * mx = k * mn := ⟨fun h => by rw [h], fun h => mul_left_cancel₀ (ne_of_gt hk) h⟩
  by_cases he : mx = mn
  · rw [if_pos he, if_pos (e5.1 he)]
    simp [ne_of_gt hk]
  · rw [if_neg he, if_neg fun h => he (e5.2 h)]
    exact and_congr (mul_le_mul_iff_right₀ hk).symm (mul_le_mul_iff_right₀ hk).symm

private theorem virtual_units {k : Rat} (hk : 0 < k) {act : Bool} {v mx mn days : Rat} (hd : 0 < days) (h : PlainVolume k v mx mn days) (x : Rat) :
    (VirtualStorage.vRow act v mx mn days).Admits x ↔ (VirtualStorage.vRow act (k * v) (k * mx) (k * mn) days).Admits (k * x) := by
  have e5 : mx = mn ↔ k * mx = k * mn := ⟨fun h => by rw [h], fun h => mul_left_cancel₀ (ne_of_gt hk) h⟩
  unfold VirtualStorage.vRow
  by_cases he : mx = mn
  · rw [if_pos he, if_pos (e5.1 he)]
    simp [Row.Admits, ne_of_gt hk]
  · rw [if_neg he, if_neg fun h => he (e5.2 h)]
    by_cases hact : act = false
    · rw [if_pos hact, if_pos hact]; simp [Row.Admits]
    · rw [if_neg hact, if_neg hact]; exact storage_units hk hd h x

/-! ## Rows -/

private theorem S_scale {α : Type} (l : List α) (x : List Rat) (k : Rat) (f : α → Rat) : S l (x.map (k * ·)) f = k * S l x f := by
  unfold S
  rw [← List.sum_map_mul_left]
  congr 1
  apply List.map_congr_left
  intro q _
  have : (x.map (k * ·)).getD q.2 0 = k * x.getD q.2 0 := by
    simp only [List.getD_eq_getElem?_getD, List.getElem?_map]
    cases x[q.2]? <;> simp
  rw [this]; ring

/-- The row can be built and is satisfied. -/
private def Ok {α : Type} (l : List α) (x : List Rat) (o : Option (Line α)) : Prop := ∃ L, o = some L ∧ L.Built l ∧ L.Holds l x

private theorem ok_same {α : Type} {l : List α} {x : List Rat} {k : Rat} {bad : α → Bool} {m : α → Nat} {w : α → Rat} {r r' : Row} (h : ∀ v, r.Admits v ↔ r'.Admits (k * v)) :
    Ok l x (some ⟨bad, m, w, r⟩) ↔ Ok l (x.map (k * ·)) (some ⟨bad, m, w, r'⟩) := by
  unfold Ok
  simp only [Option.some.injEq, exists_eq_left', Line.Built, Line.Holds, S_scale]
  rw [h]

private theorem ok_limit {α : Type} {l : List α} {x : List Rat} {k : Rat} (hk : 0 < k) {bad : α → Bool} {m : α → Nat} {w : α → Rat} {a b : F} (h : PlainLimits k a b) :
    Ok l x (limitLine bad m w a b) ↔ Ok l (x.map (k * ·)) (limitLine bad m w (inUnit k a) (inUnit k b)) := by
  obtain ⟨r, r', h1, h2, h3⟩ := limit_units hk h
  unfold limitLine
  rw [h1, h2]
  exact ok_same h3

private theorem ok_zero {α : Type} {l : List α} {x : List Rat} {k : Rat} (hk : 0 < k) (o : Option (Line α)) (h : ∀ L, o = some L → L.bounds = ⟨.fx, 0, 0⟩) :
    Ok l x o ↔ Ok l (x.map (k * ·)) o := by
  cases o with
  | none => simp [Ok]
  | some L =>
    obtain ⟨bad, m, w, r⟩ := L
    have := h _ rfl
    dsimp only at this
    subst this
    exact ok_same fun v => by simp [Row.Admits, ne_of_gt hk]

private theorem allHold_ok {α : Type} (ls : List (Option (Line α))) (l : List α) (x : List Rat) : AllHold ls l x ↔ ∀ o ∈ ls, Ok l x o := Iff.rfl

private theorem nonneg_scale {k : Rat} (hk : 0 < k) (x : List Rat) : (∀ v ∈ x, 0 ≤ v) ↔ ∀ v ∈ x.map (k * ·), 0 ≤ v := by
  simp only [List.mem_map, forall_exists_index, and_imp, forall_apply_eq_imp_iff₂]
  exact forall₂_congr fun v _ => ⟨fun h => mul_nonneg (le_of_lt hk) h, fun h => nonneg_of_mul_nonneg_right h hk⟩

private theorem undo {k : Rat} (hk : 0 < k) (x : List Rat) : (x.map (k⁻¹ * ·)).map (k * ·) = x := by
  rw [List.map_map]
  conv_rhs => rw [← List.map_id x]
  apply List.map_congr_left
  intro v _
  simp [ne_of_gt hk]

private theorem factor_zero {a : AggData} : ∀ o ∈ factorLines a, ∀ L, o = some L → L.bounds = ⟨.fx, 0, 0⟩ := by
  unfold factorLines
  intro o ho L hL
  subst hL
  split at ho
  · simp at ho
  · split at ho
    · simp at ho
    · split at ho
      · simp at ho
      · split at ho
        · simp at ho
        · simp only [List.mem_map, Option.some.injEq] at ho
          obtain ⟨p, -, rfl⟩ := ho
          rfl

private theorem factor_zeroE {d : Data} {g : Graph} {a : AggData} : ∀ o ∈ factorLinesE d g a, ∀ L, o = some L → L.bounds = ⟨.fx, 0, 0⟩ := by
  unfold factorLinesE
  intro o ho L hL
  subst hL
  split at ho
  · simp at ho
  · split at ho
    · simp at ho
    · split at ho
      · simp at ho
      · split at ho
        · simp at ho
        · simp only [List.mem_map, Option.some.injEq] at ho
          obtain ⟨p, -, rfl⟩ := ho
          rfl

/-! ## The theorems -/

/-- **C120 (flows and volumes, route solver).** The feasible allocations of a model in other units are the feasible allocations converted to those units; cost and flows of all nodes are
converted alike. Excluded: values that are not zero but below 1e-8 in one of the units. -/
theorem C120_units_partial (k : Rat) (d : Data) (h : PlainModel k d) (routes : List (List Nat)) (x : List Rat) :
    (RouteFeasible d routes x ↔ RouteFeasible (inUnits k d) routes (x.map (k * ·))) ∧ routeObjective (inUnits k d) routes (x.map (k * ·)) = k * routeObjective d routes x ∧
      ∀ n, routeNodeFlow (inUnits k d) routes (x.map (k * ·)) n = k * routeNodeFlow d routes x n := by
  obtain ⟨hk, hd, hlim, hst, hvi, hag⟩ := h
  refine ⟨?_, ?_, fun n => ?_⟩
  · rw [routeFeasible_iff, routeFeasible_iff, List.length_map, ← nonneg_scale hk]
    refine and_congr Iff.rfl (and_congr Iff.rfl (and_congr Iff.rfl ?_))
    rw [allHold_ok, allHold_ok]
    unfold routeLines inUnits
    simp only [List.mem_append, List.mem_map, List.mem_flatMap, or_imp, forall_and, forall_exists_index, and_imp, forall_apply_eq_imp_iff₂]
    refine and_congr (and_congr (and_congr (and_congr (and_congr ?_ ?_) ?_) ?_) ?_) ?_
    · refine forall₂_congr fun n hn => ?_
      have hn' := List.mem_filter.1 hn
      exact ok_limit hk (hlim n hn'.1 (by simpa using hn'.2))
    · refine forall₂_congr fun c _ => ok_zero hk _ fun L hL => ?_
      unfold crossLine at hL
      split at hL
      · cases hL
      · cases hL; rfl
    · exact forall₂_congr fun s hs => ok_same (storage_units hk hd (hst s hs))
    · exact forall₂_congr fun v hv => ok_same (virtual_units hk hd (hvi v hv))
    · constructor
      · intro H o a ha ho
        exact (ok_zero hk o (factor_zero (a := a) o ho)).1 (H o a ha ho)
      · intro H o a ha ho
        exact (ok_zero hk o (factor_zero (a := a) o ho)).2 (H o a ha ho)
    · exact forall₂_congr fun a ha => ok_limit hk (hag a ha)
  · rw [routeObjective_S, routeObjective_S, S_scale]; rfl
  · rw [routeNodeFlow_eq_S, routeNodeFlow_eq_S, S_scale]; rfl

/-- **C120 (flows and volumes, edge solver).** -/
theorem C120_edge_units_partial (k : Rat) (d : Data) (h : PlainModel k d) (g : Graph) (y : List Rat) :
    (EdgeFeasible d g y ↔ EdgeFeasible (inUnits k d) g (y.map (k * ·))) ∧ edgeObjective (inUnits k d) g (y.map (k * ·)) = k * edgeObjective d g y ∧
      ∀ n, edgeNodeFlow (inUnits k d) g (y.map (k * ·)) n = k * edgeNodeFlow d g y n := by
  obtain ⟨hk, hd, hlim, hst, hvi, hag⟩ := h
  refine ⟨?_, ?_, fun n => ?_⟩
  · rw [edgeFeasible_iff, edgeFeasible_iff, List.length_map, ← nonneg_scale hk]
    refine and_congr Iff.rfl (and_congr Iff.rfl (and_congr Iff.rfl ?_))
    rw [allHold_ok, allHold_ok]
    unfold edgeLines inUnits
    simp only [List.mem_append, List.mem_map, List.mem_flatMap, or_imp, forall_and, forall_exists_index, and_imp, forall_apply_eq_imp_iff₂]
    refine and_congr (and_congr (and_congr (and_congr (and_congr (and_congr ?_ ?_) ?_) ?_) ?_) ?_) ?_
    · refine forall₂_congr fun n hn => ?_
      have hn' := List.mem_filter.1 hn
      exact ok_limit hk (hlim n hn'.1 (by simpa using hn'.2))
    · refine forall₂_congr fun c _ => ok_zero hk _ fun L hL => ?_
      unfold crossLineE at hL
      split at hL
      · cases hL
      · cases hL; rfl
    · exact forall₂_congr fun n _ => ok_zero hk _ fun L hL => by cases hL; rfl
    · exact forall₂_congr fun s hs => ok_same (storage_units hk hd (hst s hs))
    · exact forall₂_congr fun v hv => ok_same (virtual_units hk hd (hvi v hv))
    · constructor
      · intro H o a ha ho
        exact (ok_zero hk o (factor_zeroE (d := d) (g := g) (a := a) o ho)).1 (H o a ha ho)
      · intro H o a ha ho
        exact (ok_zero hk o (factor_zeroE (d := d) (g := g) (a := a) o ho)).2 (H o a ha ho)
    · exact forall₂_congr fun a ha => ok_limit hk (hag a ha)
  · rw [edgeObjective_S, edgeObjective_S, S_scale]; rfl
  · rw [edgeNodeFlow_S, edgeNodeFlow_S, S_scale]; rfl

/-- **C120 (flows and volumes, optimal allocations).** -/
theorem C120_units_optimal_partial (k : Rat) (d : Data) (h : PlainModel k d) (routes : List (List Nat)) (x : List Rat) :
    Optimal d routes x ↔ Optimal (inUnits k d) routes (x.map (k * ·)) := by
  have hk := h.factor
  obtain ⟨h1, h2, -⟩ := C120_units_partial k d h routes x
  constructor
  · rintro ⟨hf, ho⟩
    refine ⟨h1.1 hf, fun x' hx' => ?_⟩
    obtain ⟨h3, h4, -⟩ := C120_units_partial k d h routes (x'.map (k⁻¹ * ·))
    rw [undo hk] at h3 h4
    rw [h2, h4]
    exact (mul_le_mul_iff_right₀ hk).2 (ho _ (h3.2 hx'))
  · rintro ⟨hf, ho⟩
    refine ⟨h1.2 hf, fun x' hx' => ?_⟩
    obtain ⟨h3, h4, -⟩ := C120_units_partial k d h routes x'
    have := ho _ (h3.1 hx')
    rw [h2, h4] at this
    exact (mul_le_mul_iff_right₀ hk).1 this

/-- **C120 (flows and volumes, optimal allocations of the edge solver).** -/
theorem C120_edge_units_optimal_partial (k : Rat) (d : Data) (h : PlainModel k d) (g : Graph) (y : List Rat) :
    EdgeOptimal d g y ↔ EdgeOptimal (inUnits k d) g (y.map (k * ·)) := by
  have hk := h.factor
  obtain ⟨h1, h2, -⟩ := C120_edge_units_partial k d h g y
  constructor
  · rintro ⟨hf, ho⟩
    refine ⟨h1.1 hf, fun y' hy' => ?_⟩
    obtain ⟨h3, h4, -⟩ := C120_edge_units_partial k d h g (y'.map (k⁻¹ * ·))
    rw [undo hk] at h3 h4
    rw [h2, h4]
    exact (mul_le_mul_iff_right₀ hk).2 (ho _ (h3.2 hy'))
  · rintro ⟨hf, ho⟩
    refine ⟨h1.2 hf, fun y' hy' => ?_⟩
    obtain ⟨h3, h4, -⟩ := C120_edge_units_partial k d h g y'
    have := ho _ (h3.1 hy')
    rw [h2, h4] at this
    exact (mul_le_mul_iff_right₀ hk).1 this

private theorem routeCost_currency (k : Rat) (d : Data) (r : List Nat) : routeCost (inCurrency k d) r = k * routeCost d r := by
  unfold routeCost inCurrency
  rw [← List.sum_map_mul_left]

/-- **C120 (costs, route solver).** Costs in another currency: the same allocations are feasible, costs are converted, and the same allocations are optimal. Excluded: routes whose cost is not
zero but below 1e-8 in one of the currencies. -/
theorem C120_currency_partial (k : Rat) (d : Data) (hk : 0 < k) (routes : List (List Nat)) (hc : ∀ r ∈ routes, Plain k (routeCost d r)) (x : List Rat) :
    (RouteFeasible d routes x ↔ RouteFeasible (inCurrency k d) routes x) ∧ routeObjective (inCurrency k d) routes x = k * routeObjective d routes x ∧
      (Optimal d routes x ↔ Optimal (inCurrency k d) routes x) := by
  have hf : ∀ x, RouteFeasible d routes x ↔ RouteFeasible (inCurrency k d) routes x := fun x => by rw [routeFeasible_iff, routeFeasible_iff]; rfl
  have ho : ∀ x, routeObjective (inCurrency k d) routes x = k * routeObjective d routes x := fun x => by
    rw [routeObjective_S, routeObjective_S, ← S_mul]
    refine S_congr fun r hr => ?_
    obtain ⟨e1, e2⟩ := rnd_plain (hc r hr)
    rw [routeCost_currency]
    exact e2.trans (by rw [show roundCost (routeCost d r) = routeCost d r from e1])
  refine ⟨hf x, ho x, and_congr (hf x) (forall_congr' fun x' => ?_)⟩
  rw [ho, ho, mul_le_mul_iff_right₀ hk, hf]

/-- **C120 (costs, edge solver).** In full: the edge solver does not round costs. -/
theorem C120_edge_currency (k : Rat) (d : Data) (hk : 0 < k) (g : Graph) (y : List Rat) :
    (EdgeFeasible d g y ↔ EdgeFeasible (inCurrency k d) g y) ∧ edgeObjective (inCurrency k d) g y = k * edgeObjective d g y ∧ (EdgeOptimal d g y ↔ EdgeOptimal (inCurrency k d) g y) := by
  have hf : ∀ y, EdgeFeasible d g y ↔ EdgeFeasible (inCurrency k d) g y := fun y => by rw [edgeFeasible_iff, edgeFeasible_iff]; rfl
  have ho : ∀ y, edgeObjective (inCurrency k d) g y = k * edgeObjective d g y := fun y => by
    rw [edgeObjective_S, edgeObjective_S, ← S_mul]
    refine S_congr fun e _ => ?_
    unfold eCost inCurrency
    rw [← List.sum_map_mul_left]
    congr 1
    apply List.map_congr_left
    intro n _
    dsimp only
    split <;> ring
  refine ⟨hf y, ho y, and_congr (hf y) (forall_congr' fun y' => ?_)⟩
  rw [ho, ho, mul_le_mul_iff_right₀ hk, hf]

/-! ## Below 1e-8 -/

/-- An input connected to an output, with the same limits and with a cost of the input. -/
def supplyPair (mn mx : F) (c : Rat) : Data where
  kind := fun n => match n with | 0 => .input | 1 => .output | _ => .other
  nodes := [0, 1]
  minFlow := fun _ => mn
  maxFlow := fun _ => mx
  cost := fun n => match n with | 0 => c | _ => 0
  storages := []
  virtuals := []
  aggs := []
  cross := []
  days := 1

theorem pair_feasible {mn mx : F} {c : Rat} {r : Row} (hf : flowRow true mn mx = .stored r) (v : Rat) : RouteFeasible (supplyPair mn mx c) [[0, 1]] [v] ↔ 0 ≤ v ∧ r.Admits v := by
  have h0 : nodeLine (supplyPair mn mx c) 0 = some ⟨fun _ => false, fun r => one (r.head? == some 0), fun r => term (r.head? == some 0) 1, r⟩ := by
    unfold nodeLine limitLine supplyPair; dsimp only; rw [hf]; rfl
  have h1 : nodeLine (supplyPair mn mx c) 1 = some ⟨fun _ => false, fun r => one (r.getLast? == some 1), fun r => term (r.getLast? == some 1) 1, r⟩ := by
    unfold nodeLine limitLine supplyPair; dsimp only; rw [hf]; rfl
  have hl : routeLines (supplyPair mn mx c) = [nodeLine (supplyPair mn mx c) 0, nodeLine (supplyPair mn mx c) 1] := by simp [routeLines, Data.nonStorages, supplyPair]
  rw [routeFeasible_iff, allHold_ok, hl, h0, h1]
  simp [Ok, Line.Built, Line.Holds, S, one, term, supplyPair, Data.nonStorages]

/-- **C120 fails below 1e-8 (flows).** A flow fixed at 5e-8 is supplied; in units ten times as large, the flow of 5e-9 is not feasible: the limits count as zero. -/
theorem C120_units_fails : RouteFeasible (supplyPair (.fin (1 / 20000000)) (.fin (1 / 20000000)) 0) [[0, 1]] [1 / 20000000] ∧
    ¬RouteFeasible (inUnits (1 / 10) (supplyPair (.fin (1 / 20000000)) (.fin (1 / 20000000)) 0)) [[0, 1]] [1 / 10 * (1 / 20000000)] := by
  have hE := e8_pos
  have h1 : flowRow true (.fin (1 / 20000000)) (.fin (1 / 20000000)) = .stored ⟨.fx, 1 / 20000000, 1 / 20000000⟩ := by
    have e1 : ¬|(1 / 20000000 : Rat)| < e8 := by rw [abs_of_pos (by norm_num)]; unfold e8; norm_num
    have e3 : |(1 / 20000000 : Rat) - 1 / 20000000| < e8 := by rw [sub_self, abs_zero]; exact hE
    simp only [flowRow, infToDblMax, roundTiny, e1, if_false, setRowBnds, constraintType, e3, if_true]
  have h2 : flowRow true (.fin (1 / 10 * (1 / 20000000))) (.fin (1 / 10 * (1 / 20000000))) = .stored ⟨.fx, 0, 0⟩ := by
    have e1 : |(1 / 10 * (1 / 20000000) : Rat)| < e8 := by rw [abs_of_pos (by norm_num)]; unfold e8; norm_num
    have e3 : |(0 : Rat) - 0| < e8 := by rw [sub_self, abs_zero]; exact hE
    simp only [flowRow, infToDblMax, roundTiny, e1, setRowBnds, constraintType, e3, if_true]
  constructor
  · rw [pair_feasible h1]
    exact ⟨by norm_num, rfl⟩
  · have := pair_feasible (c := 0) h2 (1 / 10 * (1 / 20000000))
    intro h
    have := (this.1 h).2
    simp [Row.Admits] at this

/-- **C120 fails below 1e-8 (costs).** A supply that costs 1 and is not needed is not used; in a currency in which it costs 1e-9, using it is optimal for the route solver. -/
theorem C120_currency_fails : ¬Optimal (supplyPair (.fin 0) .posInf 1) [[0, 1]] [5] ∧ Optimal (inCurrency (1 / 1000000000) (supplyPair (.fin 0) .posInf 1)) [[0, 1]] [5] := by
  have hE := e8_pos
  have hD := dblMax_gt
  have he := e8_lt_one
  have h1 : flowRow true (.fin 0) .posInf = .stored ⟨.lo, 0, dblMax⟩ := by
    have e1 : |(0 : Rat)| < e8 := by rw [abs_zero]; exact hE
    have e2 : ¬|dblMax| < e8 := by rw [abs_of_pos (by linarith)]; linarith
    have e3 : ¬|0 - dblMax| < e8 := by rw [zero_sub, abs_neg]; exact e2
    have e4 : ¬(0 : Rat) = -dblMax := by intro h; linarith
    simp only [flowRow, infToDblMax, roundTiny, e1, e2, if_false, setRowBnds, constraintType, e3, e4, if_true]
  have o1 : ∀ v, routeObjective (supplyPair (.fin 0) .posInf 1) [[0, 1]] [v] = v := fun v => by
    have : roundCost 1 = 1 := by unfold roundCost; rw [if_neg]; rw [abs_of_pos (by norm_num)]; linarith
    simp [routeObjective, routeCost, supplyPair, this]
  have o2 : ∀ x, routeObjective (inCurrency (1 / 1000000000) (supplyPair (.fin 0) .posInf 1)) [[0, 1]] x = 0 := fun x => by
    have : roundCost (1 / 1000000000) = 0 := by unfold roundCost; rw [if_pos]; rw [abs_of_pos (by norm_num)]; unfold e8; norm_num
    have hc : routeCost (inCurrency (1 / 1000000000) (supplyPair (.fin 0) .posInf 1)) [0, 1] = 1 / 1000000000 := by simp [routeCost, inCurrency, supplyPair]
    unfold routeObjective
    simp only [List.zipIdx_cons, List.zipIdx_nil, List.map_cons, List.map_nil, hc, this]
    simp
  constructor
  · intro h
    have := h.2 [0] ((pair_feasible h1 0).2 ⟨le_refl _, le_refl _⟩)
    rw [o1, o1] at this
    norm_num at this
  · refine ⟨?_, fun x' _ => by rw [o2, o2]⟩
    have : RouteFeasible (supplyPair (.fin 0) .posInf 1) [[0, 1]] [5] := (pair_feasible h1 5).2 ⟨by norm_num, by simp [Row.Admits]⟩
    rw [routeFeasible_iff] at this ⊢
    exact this

/-! ## Examples -/

/-- An input, an output with limits, and a storage (its input 2, its output 3), in Ml. -/
def withReservoir : Data where
  kind := fun n => match n with | 0 | 2 => .input | 1 | 3 => .output | _ => .other
  nodes := [0, 1, 2, 3]
  minFlow := fun _ => .fin 0
  maxFlow := fun n => match n with | 1 => .fin 3 | _ => .posInf
  cost := fun n => match n with | 1 => -10 | _ => 1
  storages := [⟨[2], [3], 4, 10, 0⟩]
  virtuals := []
  aggs := []
  cross := []
  days := 1

example : PlainModel 1000 withReservoir ∧ (inUnits 1000 withReservoir).storages.map (fun s => (s.volume, s.mx)) = [(4000, 10000)] ∧
    ∀ r ∈ ([[0, 1], [2, 1], [0, 3]] : List (List Nat)), Plain (1 / 100) (routeCost withReservoir r) := by
  have hbig : (10000 : Rat) < dblMax - 1 := by
    unfold dblMax
    exact_mod_cast (by decide +kernel : (10000 : Int) < 2 ^ 1024 - 2 ^ 971 - 1)
  have z : LowerLimit (.fin 0) := .inr ⟨0, rfl, by constructor <;> linarith⟩
  have z' : LowerLimit (inUnit 1000 (.fin 0)) := .inr ⟨0, by simp [inUnit], by constructor <;> linarith⟩
  have plain : ∀ k q : Rat, 1 / 100 ≤ |q| → 1 / 100 ≤ |k * q| → Plain k q := fun k q h1 h2 => .inr ⟨le_trans (by unfold e8; norm_num) h1, le_trans (by unfold e8; norm_num) h2⟩
  have inf : PlainLimits 1000 (.fin 0) .posInf := ⟨⟨z, .inl rfl⟩, ⟨z', .inl rfl⟩, fun p hp => (by cases hp; exact .inl rfl), fun q hq => (by cases hq), fun p q _ hq => (by cases hq)⟩
  refine ⟨⟨by norm_num, by norm_num [withReservoir], ?_, ?_, by simp [withReservoir], by simp [withReservoir]⟩, by simp [inUnits, withReservoir]; norm_num, ?_⟩
  · intro n hn _
    simp only [withReservoir, List.mem_cons, List.not_mem_nil, or_false] at hn
    rcases hn with rfl | rfl | rfl | rfl
    · exact inf
    · refine ⟨⟨z, .inr ⟨3, rfl, by constructor <;> linarith⟩⟩, ⟨z', .inr ⟨1000 * 3, rfl, by constructor <;> linarith⟩⟩, fun p hp => ?_, fun q hq => ?_, fun p q hp hq => ?_⟩
      · cases hp; exact .inl rfl
      · cases hq; exact plain _ _ (by norm_num) (by norm_num)
      · cases hp; cases hq; exact plain _ _ (by norm_num) (by norm_num)
    · exact inf
    · exact inf
  · intro s hs
    simp only [withReservoir, List.mem_singleton] at hs
    subst hs
    refine ⟨plain _ _ (by norm_num [withReservoir]) (by norm_num [withReservoir]), plain _ _ (by norm_num [withReservoir]) (by norm_num [withReservoir]), ?_, ?_⟩ <;>
    · constructor <;> norm_num [withReservoir] <;> linarith
  · intro r hr
    simp only [List.mem_cons, List.not_mem_nil, or_false] at hr
    rcases hr with rfl | rfl | rfl <;> exact plain _ _ (by norm_num [routeCost, withReservoir]) (by norm_num [routeCost, withReservoir])

end Verif.Lp

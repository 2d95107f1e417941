import Verif.Props.Annual
import Verif.Props.Counting
import Verif.Props.RollingRecorders
import Verif.Props.Ensemble
/-! # C129: the recorders of one run agree with each other and with the balance of the water -/

namespace Verif.Recorders

open Verif.Run Verif.Bounds

/-! ## Helpers -/

private theorem grid {O V : Type} (zero : V) (row : O → List V) (ncomb : Nat) (os : List O) (cur : Option Nat) :
    (arrayRecorder zero row os.length ncomb).result os cur = some (os.map row) := by
  obtain ⟨v, h1, h2, h3, -⟩ := C40_array zero row os.length ncomb os (le_refl _) cur
  rw [h1]
  congr 1
  refine List.ext_getElem? fun k => ?_
  by_cases hk : k < os.length
  · rw [h3 k hk, List.getElem?_map, List.getElem?_eq_getElem hk]; rfl
  · rw [List.getElem?_eq_none (by omega), List.getElem?_eq_none (by simp; omega)]

theorem zipIdx_map_sum {O V : Type} (os : List O) (f : O → V) (g : V → Nat → Rat) (k : Nat) :
    (((os.map f).zipIdx k).map fun r => g r.1 r.2).sum = ((os.zipIdx k).map fun x => g (f x.1) x.2).sum := by
  induction os generalizing k with
  | nil => rfl
  | cons o os ih => simp only [List.map_cons, List.zipIdx_cons, List.sum_cons, ih]

private theorem getD_scaled (l : List Rat) (c : Rat) (i : Nat) : (l.map (· * c)).getD i 0 = l.getD i 0 * c := by
  rw [List.getD_eq_getElem?_getD, List.getD_eq_getElem?_getD, List.getElem?_map]
  cases l[i]? <;> simp

private theorem getD_zip {f : Rat → Rat → Rat} {a b : List Rat} {i : Nat} (ha : i < a.length) (hb : i < b.length) : (List.zipWith f a b).getD i 0 = f (a.getD i 0) (b.getD i 0) := by
  rw [List.getD_eq_getElem?_getD, List.getD_eq_getElem?_getD, List.getD_eq_getElem?_getD, List.getElem?_zipWith, List.getElem?_eq_getElem ha, List.getElem?_eq_getElem hb]
  rfl

private theorem plain_sum {O : Type} (os : List O) (f : O → Rat) (k : Nat) : ((os.zipIdx k).map fun x => f x.1).sum = (os.map f).sum := by
  induction os generalizing k with
  | nil => rfl
  | cons o os ih => simp only [List.zipIdx_cons, List.map_cons, List.sum_cons, ih]

private theorem sum_scaled {α : Type} (l : List α) (f : α → Rat) (c : Rat) : (l.map fun a => f a * c).sum = (l.map f).sum * c := by
  induction l with
  | nil => simp
  | cons a l ih => simp only [List.map_cons, List.sum_cons, ih]; ring

private theorem sum_plus {α : Type} (l : List α) (f g : α → Rat) : (l.map fun a => f a + g a).sum = (l.map f).sum + (l.map g).sum := by
  induction l with
  | nil => simp
  | cons a l ih => simp only [List.map_cons, List.sum_cons, ih]; ring

/-! ## Flows -/

/-- **C129 (total and array).** The value of a `TotalFlowNodeRecorder` is the sum of the entries of a `NumpyArrayNodeRecorder` with the same factor, each times the days of its timestep. -/
theorem C129_total_array (factor : Rat) (days : Nat → Rat) (ncomb : Nat) (os : List NodeView) (h : ∀ o ∈ os, o.flow.length = ncomb) (cur : Option Nat) :
    ∃ v D, (totalFlow factor days ncomb).result os cur = some v ∧ (arrayNode factor os.length ncomb).result os cur = some D ∧
      ∀ i < ncomb, v.getD i 0 = (D.zipIdx.map fun r => r.1.getD i 0 * days r.2).sum := by
  obtain ⟨v, h1, -, h3⟩ := C40_total_flow factor days ncomb os h cur
  refine ⟨v, _, h1, grid 0 _ ncomb os cur, fun i hi => ?_⟩
  rw [h3 i hi, zipIdx_map_sum os (fun o => o.flow.map (· * factor)) (fun l k => l.getD i 0 * days k)]
  congr 1
  exact List.map_congr_left fun x _ => by rw [getD_scaled]

/-- **C129 (mean, total and array).** The value of a `MeanFlowNodeRecorder` is the mean of the entries of the array, and, if all timesteps are `days` long, the total divided by the length of the run. -/
theorem C129_mean (factor days : Rat) (ncomb : Nat) (os : List NodeView) (hpos : os ≠ []) (h : ∀ o ∈ os, o.flow.length = ncomb) :
    ∃ m v D, (meanFlow factor ncomb).result os (some os.length) = some m ∧ (totalFlow factor (fun _ => days) ncomb).result os (some os.length) = some v ∧
      (arrayNode factor os.length ncomb).result os (some os.length) = some D ∧
      ∀ i < ncomb, m.getD i 0 * D.length = (D.map fun r => r.getD i 0).sum ∧ m.getD i 0 * (os.length * days) = v.getD i 0 := by
  obtain ⟨m, m1, -, m3⟩ := C40_mean_flow_partial factor ncomb os hpos h
  obtain ⟨v, v1, -, v3⟩ := C40_total_flow factor (fun _ => days) ncomb os h (some os.length)
  refine ⟨m, v, _, m1, v1, grid 0 _ ncomb os _, fun i hi => ⟨?_, ?_⟩⟩
  · rw [List.length_map, m3 i hi, List.map_map]
    congr 1
    exact List.map_congr_left fun o _ => (getD_scaled _ _ _).symm
  · rw [v3 i hi, plain_sum os (fun o => o.flow.getD i 0 * factor * days), sum_scaled os (fun o => o.flow.getD i 0 * factor), ← m3 i hi]
    ring

/-- **C129 (parameters).** An array recorder of a parameter holds the values of the parameter, timestep by timestep and scenario by scenario; `TotalParameterRecorder` and `MeanParameterRecorder` report the
sums and means of its entries. -/
theorem C129_parameter (factor : Rat) (integrate : Bool) (days : Nat → Rat) (ncomb : Nat) (os : List (List Rat)) (hpos : os ≠ []) (h : ∀ o ∈ os, o.length = ncomb) :
    ∃ D v m, (arrayParameter 0 os.length ncomb).result os (some os.length) = some D ∧ (totalParameter factor integrate days ncomb).result os (some os.length) = some v ∧
      (meanParameter factor ncomb).result os (some os.length) = some m ∧
      (∀ (k i : Nat) (o : List Rat) (x : Rat), os[k]? = some o → o[i]? = some x → ∃ r, D[k]? = some r ∧ r[i]? = some x) ∧
      ∀ i < ncomb, v.getD i 0 = (D.zipIdx.map fun r => r.1.getD i 0 * factor * if integrate then days r.2 else 1).sum ∧ m.getD i 0 * D.length = (D.map fun r => r.getD i 0 * factor).sum := by
  obtain ⟨v, v1, -, v3⟩ := C40_total_parameter factor integrate days ncomb os h (some os.length)
  obtain ⟨m, m1, -, m3⟩ := C40_mean_parameter_partial factor ncomb os hpos h
  refine ⟨os.map id, v, m, grid 0 _ ncomb os _, v1, m1, fun k i o x h1 h2 => ⟨o, by rw [List.map_id]; exact h1, h2⟩, fun i hi => ⟨?_, ?_⟩⟩
  · rw [List.map_id, v3 i hi]
  · rw [List.map_id, m3 i hi]

/-- **C129 (deficit, supply and demand).** The total deficit and the total flow of a node add up to the total of the parameter that is its maximum flow (`TotalParameterRecorder` with `integrate`). -/
theorem C129_demand (days : Nat → Rat) (ncomb : Nat) (os : List NodeView) (h : ∀ o ∈ os, o.flow.length = ncomb ∧ o.maxFlow.length = ncomb) (cur : Option Nat) :
    ∃ d v p, (totalDeficit days ncomb).result os cur = some d ∧ (totalFlow 1 days ncomb).result os cur = some v ∧
      (totalParameter 1 true days ncomb).result (os.map NodeView.maxFlow) cur = some p ∧ ∀ i < ncomb, d.getD i 0 + v.getD i 0 = p.getD i 0 := by
  obtain ⟨d, d1, -, d3⟩ := C40_total_deficit days ncomb os h cur
  obtain ⟨v, v1, -, v3⟩ := C40_total_flow 1 days ncomb os (fun o ho => (h o ho).1) cur
  obtain ⟨p, p1, -, p3⟩ := C40_total_parameter 1 true days ncomb (os.map NodeView.maxFlow) (fun l hl => by
    obtain ⟨o, ho, rfl⟩ := List.mem_map.1 hl; exact (h o ho).2) cur
  refine ⟨d, v, p, d1, v1, p1, fun i hi => ?_⟩
  rw [d3 i hi, v3 i hi, p3 i hi, zipIdx_map_sum os NodeView.maxFlow (fun l k => l.getD i 0 * 1 * if true = true then days k else 1), ← sum_plus]
  congr 1
  exact List.map_congr_left fun x _ => by simp; ring

/-- **C129 (deficits).** The total deficit is the sum of the recorded deficits times the days of their timesteps; the deficit frequency is the share of the recorded deficits that are above 1e-6 in magnitude. -/
theorem C129_deficits (days : Nat → Rat) (ncomb : Nat) (os : List NodeView) (hpos : os ≠ []) (h : ∀ o ∈ os, o.flow.length = ncomb ∧ o.maxFlow.length = ncomb) :
    ∃ d q D, (totalDeficit days ncomb).result os (some os.length) = some d ∧ (deficitFrequency ncomb).result os (some os.length) = some q ∧
      (arrayDeficit os.length ncomb).result os (some os.length) = some D ∧
      ∀ i < ncomb, d.getD i 0 = (D.zipIdx.map fun r => r.1.getD i 0 * days r.2).sum ∧ q.getD i 0 * D.length = (D.countP fun r => decide (1 / 1000000 < |r.getD i 0|) : Nat) := by
  obtain ⟨d, d1, -, d3⟩ := C40_total_deficit days ncomb os h (some os.length)
  obtain ⟨q, q1, -, q3⟩ := C41_deficit_frequency_partial ncomb os hpos h
  refine ⟨d, q, _, d1, q1, grid 0 _ ncomb os _, fun i hi => ⟨?_, ?_⟩⟩
  · rw [d3 i hi, zipIdx_map_sum os (fun o => List.zipWith deficitOf o.maxFlow o.flow) (fun l k => l.getD i 0 * days k)]
    congr 1
    refine List.map_congr_left fun x hx => ?_
    obtain ⟨h4, h5⟩ := h x.1 (by obtain ⟨a, k⟩ := x; exact (List.mem_zipIdx' hx).2 ▸ List.getElem_mem _)
    rw [getD_zip (by omega) (by omega)]; rfl
  · rw [List.length_map, q3 i hi, List.countP_map]
    congr 1
    refine List.countP_congr fun o ho => ?_
    obtain ⟨h4, h5⟩ := h o ho
    simp only [Function.comp_apply]
    rw [getD_zip (by omega) (by omega)]; rfl

/-- **C129 (years).** If no timestep crosses a new year, the annual totals of a node add up to the value of its `TotalFlowNodeRecorder` with the same factor. -/
theorem C129_annual (factor : Rat) (t : Nat → Calendar.YearSplit) (ns : Nat → Int) (startYear : Int) (numYears ncomb : Nat) (os : List NodeView) (h : ∀ o ∈ os, o.flow.length = ncomb)
    (ht : ∀ k < os.length, Calendar.IsTimestep (t k) (ns k)) (hd : ∀ k < os.length, startYear ≤ (t k).year ∧ (t k).year < startYear + numYears ∧ (t k).endYear = (t k).year) (cur : Option Nat) :
    ∃ a v, (annualTotal [factor] (fun k => splitOf (t k)) startYear numYears ncomb).result (os.map fun o => o.flow.map fun q => [q]) cur = some a ∧
      (totalFlow factor (fun k => (t k).days) ncomb).result os cur = some v ∧
      ∀ i < ncomb, ((List.range numYears).map fun j => (a.getD j []).getD i 0).sum = v.getD i 0 := by
  obtain ⟨v, v1, -, v3⟩ := C40_total_flow factor (fun k => (t k).days) ncomb os h cur
  obtain ⟨a, a1, -, a3⟩ := C59_total_partial [factor] t ns startYear numYears ncomb (os.map fun o => o.flow.map fun q => [q]) (fun l hl => by
    obtain ⟨o, ho, rfl⟩ := List.mem_map.1 hl; simp [h o ho]) (fun k hk => ht k (by simpa using hk)) (fun k hk => by
    obtain ⟨h1, h2, h3⟩ := hd k (by simpa using hk)
    exact ⟨h1, by omega, .inl h3⟩) cur
  refine ⟨a, v, a1, v1, fun i hi => ?_⟩
  rw [a3 i hi, v3 i hi, List.length_map]
  have e : os.zipIdx = (List.range os.length).map fun k => (os.getD k ⟨[], []⟩, k) := by
    refine List.ext_getElem? fun k => ?_
    rw [List.getElem?_zipIdx, List.getElem?_map]
    by_cases hk : k < os.length
    · rw [List.getElem?_eq_getElem hk, List.getElem?_range hk]
      simp [hk]
    · rw [List.getElem?_eq_none (by omega), List.getElem?_eq_none (by simp; omega)]; rfl
  rw [e, List.map_map]
  congr 1
  refine List.map_congr_left fun k hk => ?_
  rw [List.mem_range] at hk
  simp only [Function.comp_apply, volume, (hd k hk).2.2, if_true, sub_zero]
  have h4 := h os[k] (List.getElem_mem hk)
  have e2 : (os.map fun o => o.flow.map fun q => [q]).getD k [] = os[k].flow.map fun q => [q] := by
    rw [List.getD_eq_getElem?_getD, List.getElem?_map, List.getElem?_eq_getElem hk]; rfl
  have e3 : (os[k].flow.map fun q => [q]).getD i [] = [os[k].flow.getD i 0] := by
    rw [List.getD_eq_getElem?_getD, List.getElem?_map, List.getD_eq_getElem?_getD, List.getElem?_eq_getElem (by omega)]; rfl
  rw [e2, e3]
  have e4 : os.getD k ⟨[], []⟩ = os[k] := by rw [List.getD_eq_getElem?_getD, List.getElem?_eq_getElem hk]; rfl
  rw [e4]
  simp; ring

/-! ## Volumes and indices -/

/-- **C129 (minimum volumes).** The value of a `MinimumVolumeStorageRecorder` is the least of the volumes in a `NumpyArrayStorageRecorder`; a `MinimumThresholdVolumeStorageRecorder` shows 1 exactly if that is at or below its threshold. -/
theorem C129_minimum (threshold : Rat) (ncomb : Nat) (os : List (List Rat × List Rat)) (hpos : os ≠ []) (hw : ∀ o ∈ os, o.1.length = ncomb) (cur : Option Nat) :
    ∃ v w D, (minimumVolume ncomb).result (os.map Prod.fst) cur = some v ∧ (minimumThreshold threshold ncomb).result (os.map Prod.fst) cur = some w ∧
      (arrayStorage false os.length ncomb).result os cur = some D ∧
      ∀ i < ncomb, ∃ x, v.getD i none = some x ∧ (∃ r ∈ D, r.getD i 0 = x) ∧ (∀ r ∈ D, x ≤ r.getD i 0) ∧ w.getD i 0 = if x ≤ threshold then 1 else 0 := by
  have hw' : ∀ l ∈ os.map Prod.fst, l.length = ncomb := fun l hl => by obtain ⟨o, ho, rfl⟩ := List.mem_map.1 hl; exact hw o ho
  obtain ⟨v, v1, -, v3⟩ := C63_minimum_volume ncomb (os.map Prod.fst) (by simpa using hpos) hw' cur
  obtain ⟨w, w1, -, w3⟩ := C63_minimum_threshold threshold ncomb (os.map Prod.fst) hw' cur
  refine ⟨v, w, os.map Prod.fst, v1, w1, grid 0 _ ncomb os cur, fun i hi => ?_⟩
  obtain ⟨x, x1, x2, x3⟩ := v3 i hi
  refine ⟨x, x1, x2, x3, ?_⟩
  split
  · next hx =>
    obtain ⟨o, ho, e⟩ := x2
    exact (w3 i hi).1 ⟨o, ho, e.trans_le hx⟩
  · next hx => exact (w3 i hi).2 fun o ho => lt_of_lt_of_le (not_le.1 hx) (x3 o ho)

private theorem countP_years (l : List Nat) (year : Nat → Int) (p : Nat → Bool) (start : Int) (n : Nat) (hy : ∀ k ∈ l, start ≤ year k ∧ year k < start + n) :
    ((List.range n).map fun (j : Nat) => l.countP fun k => decide (year k = start + j) && p k).sum = l.countP p := by
  induction l with
  | nil => simp
  | cons a l ih =>
    have e : ((List.range n).map fun (j : Nat) => (a :: l).countP fun k => decide (year k = start + j) && p k) =
        (List.range n).map fun (j : Nat) => (l.countP fun k => decide (year k = start + j) && p k) + if (decide (year a = start + j) && p a) = true then 1 else 0 :=
      List.map_congr_left fun j _ => List.countP_cons
    have hsum : ∀ (L : List Nat) (f g : Nat → Nat), (L.map fun j => f j + g j).sum = (L.map f).sum + (L.map g).sum := by
      intro L f g
      induction L with
      | nil => rfl
      | cons b L ih => simp only [List.map_cons, List.sum_cons, ih]; omega
    rw [e, hsum, ih fun k hk => hy k (by simp [hk]), List.countP_cons]
    congr 1
    obtain ⟨h1, h2⟩ := hy a (by simp)
    cases hp : p a with
    | false => simp
    | true =>
      simp only [Bool.and_true, if_true]
      have key : ∀ (m : Nat), ((List.range m).map fun (j : Nat) => if decide (year a = start + j) = true then 1 else 0).sum = if year a < start + m then 1 else 0 := by
        intro m
        induction m with
        | zero => simp; omega
        | succ m ihm =>
          rw [List.range_succ, List.map_append, List.sum_append, ihm]
          simp only [List.map_cons, List.map_nil, List.sum_cons, List.sum_nil, decide_eq_true_eq]
          push_cast
          split <;> split <;> split <;> omega
      rw [key n, if_pos h2]

private theorem plain_counts (a : AnnualThreshold) (date : Nat → Date) (ncomb : Nat) (hx : a.excludeMonths = none) (hf : ∀ y, a.includeFrom y = some 1) (hto : ∀ y, a.includeTo y = some 366)
    (hm : ∀ k, (date k).year ≤ (date (k + 1)).year) (h0 : 0 ≤ a.startYear) (os : List (List Int)) (hpos : os ≠ []) (hw : ∀ o ∈ os, o.length = ncomb)
    (hd : ∀ k < os.length, a.startYear ≤ (date k).year ∧ (date k).year < a.startYear + a.numYears ∧ 1 ≤ (date k).dayOfYear ∧ (date k).dayOfYear ≤ 366) (cur : Option Nat) :
    ∃ v, (annualThreshold a date ncomb).result (os.map fun o => o.map fun x => [x]) cur = some v ∧ ∀ i < ncomb, ∀ j < a.numYears, (v.data.getD j []).getD i 0 =
      (List.range os.length).countP fun k => decide ((date k).year = a.startYear + j) && decide (a.threshold ≤ (os.getD k []).getD i 0) := by
  obtain ⟨v, v1, -, v3⟩ := C41_exceedances_partial a date (fun _ => true) ncomb hm h0 (os.map fun o => o.map fun x => [x]) (by simpa using hpos) (fun l hl => by
    obtain ⟨o, ho, rfl⟩ := List.mem_map.1 hl; simp [hw o ho]) (fun k hk => by
    obtain ⟨h1, h2, h3, h4⟩ := hd k (by simpa using hk)
    refine ⟨h1, h2, fun h => by simp [hx] at h, fun _ => ⟨1, 366, hf _, hto _, by simp [h3, h4]⟩⟩) cur
  refine ⟨v, v1, fun i hi j hj => ?_⟩
  rw [v3 i hi j hj, List.length_map]
  refine List.countP_congr fun k hk => ?_
  rw [List.mem_range] at hk
  have h4 := hw os[k] (List.getElem_mem hk)
  have e2 : (os.map fun o => o.map fun x => [x]).getD k [] = os[k].map fun x => [x] := by
    rw [List.getD_eq_getElem?_getD, List.getElem?_map, List.getElem?_eq_getElem hk]; rfl
  have e3 : (os[k].map fun x => [x]).getD i [] = [os[k].getD i 0] := by
    rw [List.getD_eq_getElem?_getD, List.getElem?_map, List.getD_eq_getElem?_getD, List.getElem?_eq_getElem (by omega)]; rfl
  have e4 : os.getD k [] = os[k] := by rw [List.getD_eq_getElem?_getD, List.getElem?_eq_getElem hk]; rfl
  rw [e2, e3, e4]
  simp

/-- **C129 (counts).** With no months and no dates excluded, the counts of an `AnnualCountIndexThresholdRecorder` of one parameter, added up over the years, are the count of a `TimestepCountIndexParameterRecorder` with the same
threshold. -/
theorem C129_counts (a : AnnualThreshold) (date : Nat → Date) (ncomb : Nat) (hx : a.excludeMonths = none) (hf : ∀ y, a.includeFrom y = some 1) (hto : ∀ y, a.includeTo y = some 366)
    (hm : ∀ k, (date k).year ≤ (date (k + 1)).year) (h0 : 0 ≤ a.startYear) (os : List (List Int)) (hpos : os ≠ []) (hw : ∀ o ∈ os, o.length = ncomb)
    (hd : ∀ k < os.length, a.startYear ≤ (date k).year ∧ (date k).year < a.startYear + a.numYears ∧ 1 ≤ (date k).dayOfYear ∧ (date k).dayOfYear ≤ 366) (cur : Option Nat) :
    ∃ v c, (annualThreshold a date ncomb).result (os.map fun o => o.map fun x => [x]) cur = some v ∧ (timestepCount a.threshold ncomb).result os cur = some c ∧
      ∀ i < ncomb, ((List.range a.numYears).map fun j => (v.data.getD j []).getD i 0).sum = c.getD i 0 := by
  obtain ⟨v, v1, v3⟩ := plain_counts a date ncomb hx hf hto hm h0 os hpos hw hd cur
  obtain ⟨c, c1, -, c3⟩ := C41_timestep_count a.threshold ncomb os hw cur
  refine ⟨v, c, v1, c1, fun i hi => ?_⟩
  rw [c3 i hi]
  have e1 : ((List.range a.numYears).map fun j => (v.data.getD j []).getD i 0) =
      (List.range a.numYears).map fun (j : Nat) => (List.range os.length).countP fun k => decide ((date k).year = a.startYear + j) && decide (a.threshold ≤ (os.getD k []).getD i 0) :=
    List.map_congr_left fun j hj => v3 i hi j (List.mem_range.1 hj)
  rw [e1, countP_years (List.range os.length) (fun k => (date k).year) (fun k => decide (a.threshold ≤ (os.getD k []).getD i 0)) a.startYear a.numYears
    (fun k hk => ⟨(hd k (List.mem_range.1 hk)).1, (hd k (List.mem_range.1 hk)).2.1⟩)]
  have e5 : os = (List.range os.length).map fun k => os.getD k [] := by
    refine List.ext_getElem? fun k => ?_
    rw [List.getElem?_map]
    by_cases hk : k < os.length
    · rw [List.getElem?_range hk, List.getElem?_eq_getElem hk]; simp [hk]
    · rw [List.getElem?_eq_none (by omega), List.getElem?_eq_none (by simp; omega)]; rfl
  conv_rhs => rw [e5]
  rw [List.countP_map]
  rfl

/-- **C129 (years counted).** If indices are not negative or the threshold is positive, an `AnnualCountIndexParameterRecorder` counts the years for which an `AnnualCountIndexThresholdRecorder` of the same parameter and threshold, with
nothing excluded, has not zero. -/
theorem C129_years (a : AnnualThreshold) (date : Nat → Date) (ncomb : Nat) (hx : a.excludeMonths = none) (hf : ∀ y, a.includeFrom y = some 1) (hto : ∀ y, a.includeTo y = some 366)
    (hm : ∀ k, (date k).year ≤ (date (k + 1)).year) (hy : ∀ k, (date k).year ≠ -1) (h0 : 0 ≤ a.startYear) (os : List (List Int)) (hpos : os ≠ []) (hw : ∀ o ∈ os, o.length = ncomb)
    (hd : ∀ k < os.length, a.startYear ≤ (date k).year ∧ (date k).year < a.startYear + a.numYears ∧ 1 ≤ (date k).dayOfYear ∧ (date k).dayOfYear ≤ 366)
    (ht : 1 ≤ a.threshold ∨ ∀ o ∈ os, ∀ x ∈ o, 0 ≤ x) (cur : Option Nat) :
    ∃ v c, (annualThreshold a date ncomb).result (os.map fun o => o.map fun x => [x]) cur = some v ∧ (annualCount a.threshold (fun k => (date k).year) ncomb).result os cur = some c ∧
      ∀ i < ncomb, c.count.getD i 0 = ((Finset.range a.numYears).filter fun j => 0 < (v.data.getD j []).getD i 0).card := by
  obtain ⟨v, v1, v3⟩ := plain_counts a date ncomb hx hf hto hm h0 os hpos hw hd cur
  obtain ⟨c, c1, -, c3⟩ := C41_annual_partial a.threshold (fun k => (date k).year) ncomb os hw hpos hm hy ht cur
  refine ⟨v, c, v1, c1, fun i hi => ?_⟩
  rw [c3 i hi]
  have inj : Function.Injective fun j : Nat => a.startYear + (j : Int) := fun x y h => by simpa using h
  rw [← Finset.card_image_of_injective _ inj]
  congr 1
  ext y
  simp only [Finset.mem_image, Finset.mem_filter, Finset.mem_range]
  constructor
  · rintro ⟨k, ⟨hk, hk2⟩, rfl⟩
    obtain ⟨h1, h2, -, -⟩ := hd k hk
    refine ⟨((date k).year - a.startYear).toNat, ⟨by omega, ?_⟩, by omega⟩
    rw [v3 i hi _ (by omega), List.countP_pos_iff]
    exact ⟨k, List.mem_range.2 hk, by simp only [Bool.and_eq_true, decide_eq_true_eq]; exact ⟨by omega, hk2⟩⟩
  · rintro ⟨j, ⟨hj, hj2⟩, rfl⟩
    rw [v3 i hi _ hj, List.countP_pos_iff] at hj2
    obtain ⟨k, hk, hk2⟩ := hj2
    simp only [Bool.and_eq_true, decide_eq_true_eq] at hk2
    exact ⟨k, ⟨List.mem_range.1 hk, hk2.2⟩, hk2.1⟩

/-! ## Cases in which the hypotheses hold -/

private def seenSample : List NodeView := [⟨[3, 2], [5, 2]⟩, ⟨[4, 0], [4, 1]⟩, ⟨[1, 6], [2, 6]⟩]

/-- Three timesteps of two scenarios: totals 25 and 22 for timesteps of 2, 4 and 3 days, of demands of 32 and 26. -/
example : (seenSample ≠ [] ∧ ∀ o ∈ seenSample, o.flow.length = 2 ∧ o.maxFlow.length = 2) ∧
    (totalFlow 1 (fun k => [2, 4, 3].getD k 0) 2).result seenSample (some 3) = some [25, 22] ∧
    (totalDeficit (fun k => [2, 4, 3].getD k 0) 2).result seenSample (some 3) = some [7, 4] ∧
    (totalParameter 1 true (fun k => [2, 4, 3].getD k 0) 2).result (seenSample.map NodeView.maxFlow) (some 3) = some [32, 26] := by decide +kernel

/-- The last day of 1970 and the first of 1971. -/
private def lastAndFirst (k : Nat) : Calendar.YearSplit :=
  if k = 0 then ⟨Calendar.newYearNs 1971 - 86400000000000, Calendar.newYearNs 1971 - 1, 1970, 1970, 1⟩ else ⟨Calendar.newYearNs 1971, Calendar.newYearNs 1971 + 86400000000000 - 1, 1971, 1971, 1⟩

example : (∀ k < 2, Calendar.IsTimestep (lastAndFirst k) 86400000000000) ∧ (∀ k < 2, 1970 ≤ (lastAndFirst k).year ∧ (lastAndFirst k).year < 1970 + 2 ∧ (lastAndFirst k).endYear = (lastAndFirst k).year) ∧
    (annualTotal [2] (fun k => splitOf (lastAndFirst k)) 1970 2 1).result [[[3]], [[4]]] (some 2) = some [[6], [8]] := by
  refine ⟨fun k hk => ?_, fun k hk => ?_, by decide +kernel⟩
  · have : k = 0 ∨ k = 1 := by omega
    rcases this with rfl | rfl
    · exact ⟨by norm_num, by norm_num [lastAndFirst], by unfold Calendar.InYear; decide, by unfold Calendar.InYear; decide, by norm_num [lastAndFirst]⟩
    · exact ⟨by norm_num, by norm_num [lastAndFirst], by unfold Calendar.InYear; decide, by unfold Calendar.InYear; decide, by norm_num [lastAndFirst]⟩
  · have : k = 0 ∨ k = 1 := by omega
    rcases this with rfl | rfl <;> decide

/-- Two years, with the threshold reached in two timesteps of the first. -/
example : ∃ a : AnnualThreshold, ∃ date : Nat → Date, a.excludeMonths = none ∧ (∀ y, a.includeFrom y = some 1) ∧ (∀ y, a.includeTo y = some 366) ∧ (∀ k, (date k).year ≤ (date (k + 1)).year) ∧
    (∀ k, (date k).year ≠ -1) ∧ 0 ≤ a.startYear ∧ (∀ k < 3, a.startYear ≤ (date k).year ∧ (date k).year < a.startYear + a.numYears ∧ 1 ≤ (date k).dayOfYear ∧ (date k).dayOfYear ≤ 366) ∧
    (timestepCount a.threshold 1).result [[1], [2], [0]] (some 3) = some [2] := by
  refine ⟨{ threshold := 1, startYear := 2000, numYears := 2, excludeMonths := none, includeFrom := fun _ => some 1, includeTo := fun _ => some 366 },
    fun k => ⟨if k < 2 then 2000 else 2001, 1, k % 2 + 1⟩, rfl, fun _ => rfl, fun _ => rfl, fun k => ?_, fun k => ?_, by decide, fun k hk => ?_, by decide⟩
  · simp only; split <;> split <;> omega
  · simp only; split <;> omega
  · simp only
    have : k = 0 ∨ k = 1 ∨ k = 2 := by omega
    rcases this with rfl | rfl | rfl <;> decide

end Verif.Recorders

namespace Verif.Simulation

open Verif Verif.Lp Verif.Bounds Verif.Recorders

variable {N : Net} {n : Nat} {params : List (Fin n → Done) → Fin n → Values} {start : Fin n → Moment}

private theorem swap (nodes : List Nat) (os : List (Fin n → Done)) (i : Fin n) (days : Nat → Rat) (k : Nat) (hd : ∀ (l : Nat) t, os[l]? = some t → (t i).values.days = days (k + l)) :
    (os.map fun t => (nodes.map (t i).flow).sum * (t i).values.days).sum = (nodes.map fun j => ((os.zipIdx k).map fun x => (x.1 i).flow j * 1 * days x.2).sum).sum := by
  induction os generalizing k with
  | nil => simp
  | cons t os ih =>
    have e := hd 0 t rfl
    rw [List.map_cons, List.sum_cons, ih (k + 1) (fun l t ht => by rw [hd (l + 1) t (by simpa using ht)]; congr 1; omega), e]
    clear ih e hd
    induction nodes with
    | nil => simp
    | cons j nodes ih =>
      simp only [List.map_cons, List.sum_cons, List.zipIdx_cons] at ih ⊢
      rw [add_zero] at ih ⊢
      linarith

/-- **C129 (balance).** Put a `TotalFlowNodeRecorder` on every node of a model. In every scenario the totals of the inputs that belong to no storage, less those of the outputs that belong to no storage, are the change of the water in
the storages, up to 2e-6 for each storage and timestep (what solvers and volumes are rounded by). -/
theorem C129_balance (hN : N.Ok) (answer : Data → (Nat → Rat) → Prop) (ha : answer = routeAnswer N ∨ answer = edgeAnswer N) (h : List (Fin n → Done)) (m : Fin n → Moment)
    (hr : Ensemble N answer params start h m) (days : Nat → Rat) (hd : ∀ (k : Nat) t, h[k]? = some t → ∀ i, (t i).values.days = days k) (seen : Nat → List NodeView)
    (hs : ∀ j, (seen j).map NodeView.flow = h.map fun t => List.ofFn fun i => (t i).flow j) (cur : Option Nat) :
    ∃ total : Nat → List Rat, (∀ j, (totalFlow 1 days n).result (seen j) cur = some (total j)) ∧
      ∀ i : Fin n, |N.stored (m i) - (N.stored (start i) + ((N.nodes.filter fun j => N.kind j == .input && !(N.stores.flatMap (·.1)).contains j).map fun j => (total j).getD i 0).sum -
        ((N.nodes.filter fun j => N.kind j == .output && !(N.stores.flatMap (·.2)).contains j).map fun j => (total j).getD i 0).sum)| ≤ h.length * (N.stores.length * (2 * Storage.e6)) := by
  have hl : ∀ j, ∀ o ∈ seen j, o.flow.length = n := fun j o ho => by
    have : o.flow ∈ (seen j).map NodeView.flow := List.mem_map_of_mem ho
    rw [hs j] at this
    obtain ⟨t, -, e⟩ := List.mem_map.1 this
    rw [← e, List.length_ofFn]
  choose total t1 t2 t3 using fun j => C40_total_flow 1 days n (seen j) (hl j) cur
  refine ⟨total, t1, fun i => ?_⟩
  have key : ∀ j, (total j).getD i 0 = ((h.zipIdx).map fun x => (x.1 i).flow j * 1 * days x.2).sum := by
    intro j
    rw [t3 j i i.2]
    have e1 := zipIdx_map_sum (seen j) NodeView.flow (fun l k => l.getD i 0 * 1 * days k) 0
    have e2 := zipIdx_map_sum h (fun t => List.ofFn fun i => (t i).flow j) (fun l k => l.getD i 0 * 1 * days k) 0
    rw [← e1, hs j, e2]
    congr 1
    refine List.map_congr_left fun x _ => ?_
    rw [List.getD_eq_getElem?_getD, List.getElem?_ofFn]
    simp
  have hb := C88_ensemble_balance hN answer ha h m hr i
  simp only [key]
  rw [← swap _ h i days 0 (fun l t ht => by rw [Nat.zero_add]; exact hd l t ht i), ← swap _ h i days 0 (fun l t ht => by rw [Nat.zero_add]; exact hd l t ht i)]
  exact hb

/-- Two scenarios of the network of `Props/Simulation` with different solutions: in the first the reservoir gains 1 (8 in, 7 out) in a timestep of one day, in the second it loses 1 (6 in, 7 out). -/
example : ∃ h m, sampleNet.Ok ∧ Ensemble sampleNet (routeAnswer sampleNet) (fun h (i : Fin 2) => sampleParams (h.map (· i))) (fun _ => sampleStart) h m ∧
    (∀ (k : Nat) t, h[k]? = some t → ∀ i : Fin 2, (t i).values.days = 1) ∧ (h.map fun t => [(t 0).flow 0, (t 0).flow 3, (t 1).flow 0, (t 1).flow 3]) = [[8, 7, 6, 7]] ∧
    ((m 0).stores 0).volume = 51 ∧ ((m 1).stores 0).volume = 49 := by
  refine ⟨_, _, sample_ok,
    .step (flow := fun i => sampleNet.commit (routeNodeFlow (sampleNet.data (sampleParams []) sampleStart) sampleNet.routes (if i = 0 then [5, 3, 2] else [5, 1, 2]))) .start
      fun i => ?_, ?_, by decide +kernel, by decide +kernel, by decide +kernel⟩
  · match i with
    | 0 => exact ⟨[5, 3, 2], by decide +kernel, rfl⟩
    | 1 => exact ⟨[5, 1, 2], by decide +kernel, rfl⟩
  · intro k t ht i
    match k with
    | 0 => simp only [List.nil_append, List.getElem?_cons_zero, Option.some.injEq] at ht; rw [← ht]; rfl
    | k + 1 => simp at ht

end Verif.Simulation

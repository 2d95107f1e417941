import Verif.Proof.Recorders
import Mathlib.Tactic.FieldSimp
import Mathlib.Tactic.NormNum
import Mathlib.Tactic.FinCases
import Mathlib.Algebra.Order.Field.Basic

/-!
# Recorders: totals, means, arrays, ratios (C40, C58, C63)
-/

namespace Verif.Recorders

open Verif.Run Verif.Timestepper

variable {W Freq S O : Type}

/-! ## C40 -/

/-- **C40 (recorders in a run).** After a run of a model that returns normally every recorder holds the result of its
hooks on what it saw, once per timestep in order, finished with the number of timesteps. -/
theorem C40_run (env : Env W Freq) (m : Mdl Freq) (P : List Period) (comps : List Nat) (h : Ready env m P comps)
    (hf : m.flat = none ∨ m.flat = some comps) (r : Nat) (st : W → S) (obs : W → O) (rec : Rec S O)
    (hO : Observer env m.id r st obs rec) (hn : comps.Nodup) (hr : r ∈ comps) (g : Global W) (t : Timestep)
    (hok : (m.run env g).1 = .ok t) :
    ∃ os : List O, os = seen env m.id r obs g.world (startPlan m comps ++ stepsPlan m comps P.length) ∧
      os.length = P.length ∧ rec.result os (some P.length) = some (st (m.run env g).2.2.world) := by
  obtain ⟨h1, s, h2, h3⟩ := recorder_run h hf hO hn hr g hok
  exact ⟨_, rfl, h1, by simp [Rec.result, h2, h3]⟩

/-- **C40 (recorders of coupled models).** After a coupled run over the same `n` dates that returns normally every
recorder of sub-model number `i` holds the result of its hooks on what it saw, once per timestep in order; but only in the
first sub-model it is finished with the number of timesteps. -/
theorem C40_coupled (env : Env W Freq) (subs : List (Run.Sub Freq)) (h : MultiReady env subs) (n : Nat) (dates : List Int)
    (hd : ∀ s ∈ subs, s.P.map Period.start = dates) (hdn : dates.length = n)
    (hid : (subs.map fun s => s.m.id).Nodup) (i : Nat) (s : Run.Sub Freq) (hi : subs[i]? = some s) (r : Nat)
    (st : W → S) (obs : W → O) (rec : Rec S O) (hO : Observer env s.m.id r st obs rec) (hn : s.comps.Nodup)
    (hr : r ∈ s.comps) (g : Global W) (hok : (multiRun env true (subs.map Run.Sub.m) g).1 = none) :
    ∃ os : List O, os = seen env s.m.id r obs g.world (multiStart subs ++ roundsPlan subs n) ∧ os.length = n ∧
      rec.result os (some (if i = 0 then n else n - 1)) =
        some (st (multiRun env true (subs.map Run.Sub.m) g).2.2.world) := by
  obtain ⟨h1, s1, h2, h3⟩ := recorder_multi h hd hdn hid hi hO hn hr g hok
  exact ⟨_, rfl, h1, by simp [Rec.result, h2, h3]⟩

/-- **C40 (total flow).** The total of a combination is the sum over the timesteps of flow times factor times length. -/
theorem C40_total_flow (factor : Rat) (days : Nat → Rat) (ncomb : Nat) (os : List NodeView)
    (h : ∀ o ∈ os, o.flow.length = ncomb) (cur : Option Nat) :
    ∃ v, (totalFlow factor days ncomb).result os cur = some v ∧ v.length = ncomb ∧
      ∀ i < ncomb, v.getD i 0 = (os.zipIdx.map fun x => x.1.flow.getD i 0 * factor * days x.2).sum := by
  obtain ⟨v, h1, h2, h3⟩ := fold_entries (totalFlow factor days ncomb) (fun k v q => v + q * factor * days k)
    (fun o => o.flow) 0 0 ncomb (fun _ _ _ => rfl) os 0 (zeros ncomb) (by simp [zeros]) h
  refine ⟨v, by simp [Rec.result, totalFlow] at h1 ⊢; simp [h1], h2, fun i hi => ?_⟩
  rw [h3 i hi, zeros, getD_replicate, foldl_add (fun x : NodeView × Nat => x.1.flow.getD i 0 * factor * days x.2), zero_add]

/-- **C40 (total deficit).** -/
theorem C40_total_deficit (days : Nat → Rat) (ncomb : Nat) (os : List NodeView)
    (h : ∀ o ∈ os, o.flow.length = ncomb ∧ o.maxFlow.length = ncomb) (cur : Option Nat) :
    ∃ v, (totalDeficit days ncomb).result os cur = some v ∧ v.length = ncomb ∧
      ∀ i < ncomb, v.getD i 0 =
        (os.zipIdx.map fun x => (x.1.maxFlow.getD i 0 - x.1.flow.getD i 0) * days x.2).sum := by
  obtain ⟨v, h1, h2, h3⟩ := fold_entries (totalDeficit days ncomb) (fun k v d => v + d * days k)
    (fun o => List.zipWith (fun m q => m - q) o.maxFlow o.flow) 0 0 ncomb (fun _ _ _ => rfl) os 0 (zeros ncomb)
    (by simp [zeros]) (fun o ho => by simp [h o ho])
  refine ⟨v, by simp [Rec.result, totalDeficit] at h1 ⊢; simp [h1], h2, fun i hi => ?_⟩
  rw [h3 i hi, zeros, getD_replicate, foldl_add (fun x : NodeView × Nat =>
    (List.zipWith (fun m q => m - q) x.1.maxFlow x.1.flow).getD i 0 * days x.2), zero_add]
  congr 1
  refine List.map_congr_left (fun x hx => ?_)
  obtain ⟨h4, h5⟩ := h x.1 (by
    obtain ⟨a, k⟩ := x
    exact (List.mem_zipIdx' hx).2 ▸ List.getElem_mem _)
  rw [zipWith_getD _ (by omega) (by omega) 0 0]

/-- **C40 (total of a parameter).** The sum of value times factor, times the timestep length if integrating. -/
theorem C40_total_parameter (factor : Rat) (integrate : Bool) (days : Nat → Rat) (ncomb : Nat) (os : List (List Rat))
    (h : ∀ o ∈ os, o.length = ncomb) (cur : Option Nat) :
    ∃ v, (totalParameter factor integrate days ncomb).result os cur = some v ∧ v.length = ncomb ∧
      ∀ i < ncomb, v.getD i 0 =
        (os.zipIdx.map fun x => x.1.getD i 0 * factor * (if integrate then days x.2 else 1)).sum := by
  obtain ⟨v, h1, h2, h3⟩ := fold_entries (totalParameter factor integrate days ncomb)
    (fun k v x => v + x * (if integrate then factor * days k else factor)) id 0 0 ncomb (fun _ _ _ => rfl) os 0
    (zeros ncomb) (by simp [zeros]) h
  refine ⟨v, by simp [Rec.result, totalParameter] at h1 ⊢; simp [h1], h2, fun i hi => ?_⟩
  rw [h3 i hi, zeros, getD_replicate, foldl_add (fun x : List Rat × Nat =>
    (id x.1).getD i 0 * (if integrate then factor * days x.2 else factor)), zero_add]
  congr 1
  refine List.map_congr_left (fun x _ => ?_)
  cases integrate
  · simp
  · simp; ring

private theorem divide_some {cur : Nat} (hc : 0 < cur) (s : List Rat) :
    divideByIndex (some cur) s = some (s.map (· / (cur : Rat))) := by
  unfold divideByIndex
  simp only
  rw [if_neg (fun h => absurd h.1 (by omega))]

private theorem sum_indep {α : Type} (c : α → Rat) (l : List α) (k : Nat) :
    ((l.zipIdx k).map fun x => c x.1) = l.map c := by
  induction l generalizing k with
  | nil => rfl
  | cons a l ih => simp [List.zipIdx_cons, ih]

private theorem map_getD {f : Rat → Rat} (hf : f 0 = 0) (l : List Rat) (i : Nat) : (l.map f).getD i 0 = f (l.getD i 0) := by
  rw [List.getD_eq_getElem?_getD, List.getD_eq_getElem?_getD, List.getElem?_map]
  cases l[i]? <;> simp [hf]

/-- What a mean flow recorder holds when it is finished with the timestepper at index `cur > 0`: the total of flow times
factor, divided by `cur`. -/
private theorem mean_flow_at (factor : Rat) (ncomb : Nat) (os : List NodeView)
    (h : ∀ o ∈ os, o.flow.length = ncomb) (cur : Nat) (hc : 0 < cur) :
    ∃ v, (meanFlow factor ncomb).result os (some cur) = some v ∧ v.length = ncomb ∧
      ∀ i < ncomb, v.getD i 0 = (os.map fun o => o.flow.getD i 0 * factor).sum / cur := by
  obtain ⟨v, h1, h2, h3⟩ := fold_entries (meanFlow factor ncomb) (fun _ v q => v + q * factor)
    (fun o => o.flow) 0 0 ncomb (fun _ _ _ => rfl) os 0 (zeros ncomb) (by simp [zeros]) h
  refine ⟨v.map (· / (cur : Rat)), ?_, by simp [h2], fun i hi => ?_⟩
  · have h1' : (meanFlow factor ncomb).fold 0 os (meanFlow factor ncomb).init = some v := h1
    simp only [Rec.result, h1', Option.bind_some]
    exact divide_some hc v
  · rw [map_getD (f := (· / (cur : Rat))) (zero_div _), h3 i hi, zeros, getD_replicate,
      foldl_add (fun x : NodeView × Nat => x.1.flow.getD i 0 * factor), zero_add,
      sum_indep (fun o : NodeView => o.flow.getD i 0 * factor)]

/-- **C40 (mean flow), partial.** Finished with the number of timesteps (so in every run of a model, `C40_run`, and in the
first of several coupled models, `C40_coupled`) the recorder holds the arithmetic mean of flow times factor. Missing: the
other sub-models of a coupled run, for which it is false (`C40_mean_coupled_fails`). -/
theorem C40_mean_flow_partial (factor : Rat) (ncomb : Nat) (os : List NodeView) (hpos : os ≠ [])
    (h : ∀ o ∈ os, o.flow.length = ncomb) :
    ∃ v, (meanFlow factor ncomb).result os (some os.length) = some v ∧ v.length = ncomb ∧
      ∀ i < ncomb, v.getD i 0 * os.length = (os.map fun o => o.flow.getD i 0 * factor).sum := by
  have hl := List.length_pos_iff.2 hpos
  obtain ⟨v, h1, h2, h3⟩ := mean_flow_at factor ncomb os h os.length hl
  refine ⟨v, h1, h2, fun i hi => ?_⟩
  rw [h3 i hi, div_mul_cancel₀]
  exact_mod_cast hl.ne'

/-- **C40 (mean of a parameter), partial.** As for the mean flow. -/
theorem C40_mean_parameter_partial (factor : Rat) (ncomb : Nat) (os : List (List Rat)) (hpos : os ≠ [])
    (h : ∀ o ∈ os, o.length = ncomb) :
    ∃ v, (meanParameter factor ncomb).result os (some os.length) = some v ∧ v.length = ncomb ∧
      ∀ i < ncomb, v.getD i 0 * os.length = (os.map fun o => o.getD i 0 * factor).sum := by
  have hl := List.length_pos_iff.2 hpos
  obtain ⟨v, h1, h2, h3⟩ := fold_entries (meanParameter factor ncomb) (fun _ v q => v + q * factor)
    id 0 0 ncomb (fun _ _ _ => rfl) os 0 (zeros ncomb) (by simp [zeros]) h
  refine ⟨v.map (· / (os.length : Rat)), ?_, by simp [h2], fun i hi => ?_⟩
  · have h1' : (meanParameter factor ncomb).fold 0 os (meanParameter factor ncomb).init = some v := h1
    simp only [Rec.result, h1', Option.bind_some]
    exact divide_some hl v
  · rw [map_getD (f := (· / (os.length : Rat))) (zero_div _), h3 i hi, zeros, getD_replicate,
      foldl_add (fun x : List Rat × Nat => (id x.1).getD i 0 * factor), zero_add,
      sum_indep (fun o : List Rat => (id o).getD i 0 * factor), div_mul_cancel₀]
    · rfl
    · exact_mod_cast hl.ne'

/-- **C40 fails in coupled runs.** In every coupled run over the same `n` dates that returns normally, a mean flow recorder
of any sub-model but the first holds the total divided by `n - 1`: the mean times `n / (n - 1)`. -/
theorem C40_mean_coupled_fails (env : Env W Freq) (subs : List (Run.Sub Freq)) (h : MultiReady env subs) (n : Nat)
    (dates : List Int) (hd : ∀ s ∈ subs, s.P.map Period.start = dates) (hdn : dates.length = n) (h2 : 2 ≤ n)
    (hid : (subs.map fun s => s.m.id).Nodup) (i : Nat) (s : Run.Sub Freq) (hi : subs[i]? = some s) (h0 : i ≠ 0) (r : Nat)
    (st : W → List Rat) (obs : W → NodeView) (factor : Rat) (ncomb : Nat)
    (hO : Observer env s.m.id r st obs (meanFlow factor ncomb)) (hn : s.comps.Nodup) (hr : r ∈ s.comps)
    (g : Global W) (hok : (multiRun env true (subs.map Run.Sub.m) g).1 = none)
    (hobs : ∀ w, (obs w).flow.length = ncomb) :
    ∃ os : List NodeView, os = seen env s.m.id r obs g.world (multiStart subs ++ roundsPlan subs n) ∧ os.length = n ∧
      ∀ c < ncomb, (st (multiRun env true (subs.map Run.Sub.m) g).2.2.world).getD c 0 * (n - 1 : Nat) =
        (os.map fun o => o.flow.getD c 0 * factor).sum := by
  obtain ⟨os, ho, hl, hres⟩ := C40_coupled env subs h n dates hd hdn hid i s hi r st obs _ hO hn hr g hok
  rw [if_neg h0] at hres
  refine ⟨os, ho, hl, fun c hc => ?_⟩
  have hseen : ∀ (plan : List (Nat × Call)) (w : W), ∀ o ∈ seen env s.m.id r obs w plan, o.flow.length = ncomb := by
    intro plan
    induction plan with
    | nil => intro w o ho; cases ho
    | cons x plan ih =>
      intro w o ho
      obtain ⟨a, b⟩ := x
      rw [seen, List.mem_append] at ho
      rcases ho with ho | ho
      · split at ho
        · obtain rfl := List.mem_singleton.1 ho
          exact hobs w
        · cases ho
      · exact ih _ o ho
  obtain ⟨v, h3, -, h4⟩ := mean_flow_at factor ncomb os (by rw [ho]; exact hseen _ _) (n - 1) (by omega)
  rw [h3] at hres
  rw [← Option.some.inj hres, h4 c hc, div_mul_cancel₀]
  exact_mod_cast (by omega : n - 1 ≠ 0)

/-- **C40 fails in coupled runs of one timestep.** No coupled run over a single date returns normally when some sub-model
but the first has a mean flow recorder: its finish-hook divides by zero. -/
theorem C40_mean_single_fails (env : Env W Freq) (subs : List (Run.Sub Freq)) (h : MultiReady env subs)
    (dates : List Int) (hd : ∀ s ∈ subs, s.P.map Period.start = dates) (hdn : dates.length = 1)
    (hid : (subs.map fun s => s.m.id).Nodup) (i : Nat) (s : Run.Sub Freq) (hi : subs[i]? = some s) (h0 : i ≠ 0) (r : Nat)
    (st : W → List Rat) (obs : W → NodeView) (factor : Rat) (ncomb : Nat) (hcomb : 0 < ncomb)
    (hO : Observer env s.m.id r st obs (meanFlow factor ncomb)) (hn : s.comps.Nodup) (hr : r ∈ s.comps)
    (g : Global W) (hobs : ∀ w, (obs w).flow.length = ncomb) :
    (multiRun env true (subs.map Run.Sub.m) g).1 ≠ none := by
  intro hok
  obtain ⟨os, ho, hl, hres⟩ := C40_coupled env subs h 1 dates hd hdn hid i s hi r st obs _ hO hn hr g hok
  rw [if_neg h0] at hres
  have hseen : ∀ (plan : List (Nat × Call)) (w : W), ∀ o ∈ seen env s.m.id r obs w plan, o.flow.length = ncomb := by
    intro plan
    induction plan with
    | nil => intro w o ho; cases ho
    | cons x plan ih =>
      intro w o ho
      obtain ⟨a, b⟩ := x
      rw [seen, List.mem_append] at ho
      rcases ho with ho | ho
      · split at ho
        · obtain rfl := List.mem_singleton.1 ho
          exact hobs w
        · cases ho
      · exact ih _ o ho
  obtain ⟨v, h1, h2, -⟩ := fold_entries (meanFlow factor ncomb) (fun _ v q => v + q * factor)
    (fun o => o.flow) 0 0 ncomb (fun _ _ _ => rfl) os 0 (zeros ncomb) (by simp [zeros]) (by rw [ho]; exact hseen _ _)
  have h1' : (meanFlow factor ncomb).fold 0 os (meanFlow factor ncomb).init = some v := h1
  simp only [Rec.result, h1', Option.bind_some, Nat.sub_self] at hres
  have hv : v ≠ [] := by
    rintro rfl
    simp at h2
    omega
  simp [meanFlow, divideByIndex, hv] at hres

private theorem array_fold {V : Type} (zero : V) (row : O → List V) (nts ncomb : Nat) : ∀ (os : List O) (k : Nat)
    (s : List (List V)), k + os.length ≤ s.length →
    ∃ v, (arrayRecorder zero row nts ncomb).fold k os s = some v ∧ v.length = s.length ∧
      (∀ j (hj : j < os.length), v[k + j]? = some (row os[j])) ∧
      ∀ j, (j < k ∨ k + os.length ≤ j) → v[j]? = s[j]? := by
  intro os
  induction os with
  | nil => intro k s _; exact ⟨s, rfl, rfl, fun j hj => absurd hj (by simp), fun _ _ => rfl⟩
  | cons o os ih =>
    intro k s hk
    rw [List.length_cons] at hk
    obtain ⟨v, h1, h2, h3, h4⟩ := ih (k + 1) (s.set k (row o)) (by rw [List.length_set]; omega)
    refine ⟨v, ?_, by rw [h2, List.length_set], ?_, ?_⟩
    · simp only [Rec.fold, arrayRecorder, if_pos (show k < s.length by omega), Option.bind_some]
      exact h1
    · intro j hj
      cases j with
      | zero =>
        rw [Nat.add_zero, h4 _ (Or.inl (by omega)), List.getElem?_set_self (by omega)]
        rfl
      | succ j =>
        have := h3 j (by simpa using hj)
        rw [show k + (j + 1) = k + 1 + j by omega, this]
        rfl
    · intro j hj
      rw [h4 j (by simp at hj; omega), List.getElem?_set_ne (by simp at hj; omega)]

/-- **C40 (array recorders).** Row `k` holds what was recorded in timestep `k`; rows of timesteps that did not run hold
zero. (With as many rows as the timestepper has timesteps, every row is filled by a complete run.) -/
theorem C40_array {V : Type} (zero : V) (row : O → List V) (nts ncomb : Nat) (os : List O) (h : os.length ≤ nts)
    (cur : Option Nat) :
    ∃ v, (arrayRecorder zero row nts ncomb).result os cur = some v ∧ v.length = nts ∧
      (∀ k (hk : k < os.length), v[k]? = some (row os[k])) ∧
      ∀ k, os.length ≤ k → k < nts → v[k]? = some (List.replicate ncomb zero) := by
  obtain ⟨v, h1, h2, h3, h4⟩ := array_fold zero row nts ncomb os 0 (List.replicate nts (List.replicate ncomb zero))
    (by simpa using h)
  have h1' : (arrayRecorder zero row nts ncomb).fold 0 os (arrayRecorder zero row nts ncomb).init = some v := h1
  refine ⟨v, by simp [Rec.result, h1']; rfl, by simpa using h2, fun k hk => by simpa using h3 k hk, fun k hk hn => ?_⟩
  rw [h4 k (Or.inr (by omega)), List.getElem?_replicate, if_pos hn]

/-- **C40 (array of flows).** -/
theorem C40_array_flow (factor : Rat) (nts ncomb : Nat) (os : List NodeView) (h : os.length ≤ nts) (cur : Option Nat) :
    ∃ v, (arrayNode factor nts ncomb).result os cur = some v ∧ v.length = nts ∧
      ∀ k (hk : k < os.length), v[k]? = some (os[k].flow.map (· * factor)) := by
  obtain ⟨v, h1, h2, h3, -⟩ := C40_array 0 (fun o : NodeView => o.flow.map (· * factor)) nts ncomb os h cur
  exact ⟨v, h1, h2, h3⟩

/-! ## C58 -/

/-- **C58 (consistency).** Supplied and curtailment ratio add up to one, a zero maximum flow counts as fully supplied, and
the deficit is the curtailment ratio times the maximum flow. -/
theorem C58_consistent (maxFlow flow : Rat) :
    suppliedOf maxFlow flow + curtailmentOf maxFlow flow = 1 ∧
    (maxFlow = 0 → suppliedOf maxFlow flow = 1 ∧ curtailmentOf maxFlow flow = 0) ∧
    deficitOf maxFlow flow + flow = maxFlow ∧
    (maxFlow ≠ 0 → suppliedOf maxFlow flow * maxFlow = flow ∧
      deficitOf maxFlow flow = curtailmentOf maxFlow flow * maxFlow) := by
  unfold suppliedOf curtailmentOf deficitOf
  refine ⟨?_, ?_, by ring, ?_⟩
  · split_ifs <;> ring
  · intro h; simp [h]
  · intro h
    rw [if_neg h, if_neg h]
    constructor
    · field_simp
    · field_simp

/-- **C58 (range).** Both ratios are between zero and one, and the deficit is not negative, when the flow is between zero and
the maximum flow. -/
theorem C58_range (maxFlow flow : Rat) (h0 : 0 ≤ flow) (h1 : flow ≤ maxFlow) :
    0 ≤ suppliedOf maxFlow flow ∧ suppliedOf maxFlow flow ≤ 1 ∧ 0 ≤ curtailmentOf maxFlow flow ∧
      curtailmentOf maxFlow flow ≤ 1 ∧ 0 ≤ deficitOf maxFlow flow := by
  unfold suppliedOf curtailmentOf deficitOf
  by_cases hm : maxFlow = 0
  · simp [hm]; linarith
  · rw [if_neg hm, if_neg hm]
    have hp : 0 < maxFlow := lt_of_le_of_ne (le_trans h0 h1) (Ne.symm hm)
    have ha := div_nonneg h0 hp.le
    have hb := (div_le_one hp).2 h1
    exact ⟨ha, hb, by linarith, by linarith, by linarith⟩

/-- **C58 (what is stored).** At every timestep the three recorders of a node store, for every combination, the deficit, the supplied
ratio and the curtailment ratio of that timestep's flow and maximum flow. -/
theorem C58_stored (nts ncomb : Nat) (os : List NodeView) (h : os.length ≤ nts)
    (hw : ∀ o ∈ os, o.flow.length = ncomb ∧ o.maxFlow.length = ncomb) (cur : Option Nat) :
    ∃ d s c, (arrayDeficit nts ncomb).result os cur = some d ∧ (arraySupplied nts ncomb).result os cur = some s ∧
      (arrayCurtailment nts ncomb).result os cur = some c ∧
      ∀ k (hk : k < os.length) i, i < ncomb → ∀ q m, q = os[k].flow.getD i 0 → m = os[k].maxFlow.getD i 0 →
        (d.getD k []).getD i 0 = m - q ∧
        (s.getD k []).getD i 0 = (if m = 0 then 1 else q / m) ∧
        (c.getD k []).getD i 0 = (if m = 0 then 0 else 1 - q / m) := by
  obtain ⟨d, d1, d2, d3, -⟩ := C40_array 0 (fun o : NodeView => List.zipWith deficitOf o.maxFlow o.flow) nts ncomb os h cur
  obtain ⟨s, s1, s2, s3, -⟩ := C40_array 0 (fun o : NodeView => List.zipWith suppliedOf o.maxFlow o.flow) nts ncomb os h cur
  obtain ⟨c, c1, c2, c3, -⟩ := C40_array 0 (fun o : NodeView => List.zipWith curtailmentOf o.maxFlow o.flow) nts ncomb os h cur
  refine ⟨d, s, c, d1, s1, c1, fun k hk i hi q m hq hm => ?_⟩
  obtain ⟨h4, h5⟩ := hw os[k] (List.getElem_mem _)
  subst hq hm
  rw [List.getD_eq_getElem?_getD (l := d), d3 k hk, List.getD_eq_getElem?_getD (l := s), s3 k hk,
    List.getD_eq_getElem?_getD (l := c), c3 k hk]
  simp only [Option.getD_some]
  rw [zipWith_getD _ (by omega) (by omega) 0 0, zipWith_getD _ (by omega) (by omega) 0 0,
    zipWith_getD _ (by omega) (by omega) 0 0]
  exact ⟨rfl, rfl, rfl⟩

example : (0 : Rat) ≤ 3 ∧ (3 : Rat) ≤ 4 ∧ suppliedOf 4 3 = 3 / 4 ∧ curtailmentOf 4 3 = 1 / 4 := by
  refine ⟨by norm_num, by norm_num, ?_, ?_⟩ <;> norm_num [suppliedOf, curtailmentOf]

/-! ## Examples -/

/-- An environment whose world is the state of one recorder: component 0 of model `id`, which always observes `o`. -/
def oneRecorder (pd : Pandas Freq) (id : Nat) (rec : Rec S O) (o : O) : Env S Freq where
  pd := pd
  behave i c s := match evOf id 0 (i, c) with
    | some .reset => (none, rec.init)
    | some (.after k) => match rec.after k o s with
      | some s' => (none, s')
      | none => (some 1, s)
    | some (.finish cur) => match rec.finish cur s with
      | some s' => (none, s')
      | none => (some 1, s)
    | _ => (none, s)

theorem oneRecorder_observer (pd : Pandas Freq) (id : Nat) (rec : Rec S O) (o : O) :
    Observer (oneRecorder pd id rec o) id 0 (fun s => s) (fun _ => o) rec where
  reset w _ := by simp [oneRecorder, evOf]
  after w k h := by
    simp only [oneRecorder, evOf] at h ⊢
    cases hx : rec.after k o w with
    | none => simp [hx] at h
    | some s => simp [hx]
  finish w cur h := by
    simp only [oneRecorder, evOf] at h ⊢
    cases hx : rec.finish cur w with
    | none => simp [hx] at h
    | some s => simp [hx]
  other i c w h := by simp [oneRecorder, h]

open Run.Example in
/-- Two coupled models over three days; the second has a mean flow recorder on a node whose flow is always one. The
hypotheses of `C40_coupled` and `C40_mean_coupled_fails` are met, and the recorded "mean" is 3/2. -/
theorem C40_mean_fails : ∃ (env : Env (List Rat) Nat) (subs : List (Run.Sub Nat)), MultiReady env subs ∧
    subs.map (fun s => s.m.id) = [0, 1] ∧ (∀ s ∈ subs, s.P.length = 3 ∧ s.comps = [0]) ∧
    Observer env 1 0 (fun s => s) (fun _ => ⟨[1], [1]⟩) (meanFlow 1 1) ∧
    (multiRun env true (subs.map Run.Sub.m) ⟨[], []⟩).1 = none ∧
    (multiRun env true (subs.map Run.Sub.m) ⟨[], []⟩).2.2.world = [3 / 2] := by
  refine ⟨oneRecorder daysPd 1 (meanFlow 1 1) ⟨[1], [1]⟩, [subOf 0 3, subOf 1 3],
    subs_ready rfl 3 3 (by decide) (by decide), rfl, ?_, oneRecorder_observer _ _ _ _, by decide +kernel, by decide +kernel⟩
  intro s hs
  fin_cases hs <;> exact ⟨rfl, rfl⟩

end Verif.Recorders

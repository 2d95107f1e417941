import Verif.Proof.Recorders
import Verif.Props.Calendar
import Mathlib.Data.List.Induction
import Mathlib.Algebra.BigOperators.Ring.List
import Mathlib.Tactic.NormNum

/-!
# Recorders: counts and totals per year (C41, C59)
-/

namespace Verif.Recorders

open Verif.Run

/-! ## C41: exceedances in each year -/

/-- The number of the first `n` timesteps in year `y` that are counted and in which some parameter of the combination was
at or above the threshold. -/
def exceedances (threshold : Int) (date : Nat → Date) (counted : Nat → Bool) (os : List (List (List Int))) (i n : Nat)
    (y : Int) : Nat :=
  (List.range n).countP fun k => decide ((date k).year = y) && counted k &&
    ((os.getD k []).getD i []).any (fun x => decide (x ≥ threshold))

private theorem exceedances_succ (threshold : Int) (date : Nat → Date) (counted : Nat → Bool)
    (os : List (List (List Int))) (i n : Nat) (y : Int) :
    exceedances threshold date counted os i (n + 1) y = exceedances threshold date counted os i n y +
      if (date n).year = y ∧ counted n = true ∧ ((os.getD n []).getD i []).any (fun x => decide (x ≥ threshold)) = true
        then 1 else 0 := by
  unfold exceedances
  rw [List.range_succ, List.countP_append, List.countP_singleton]
  congr 1
  simp only [Bool.and_eq_true, decide_eq_true_eq, and_assoc]

private theorem exceedances_congr (threshold : Int) (date : Nat → Date) (counted : Nat → Bool)
    (os os' : List (List (List Int))) (i n : Nat) (y : Int) (h : ∀ k < n, os.getD k [] = os'.getD k []) :
    exceedances threshold date counted os i n y = exceedances threshold date counted os' i n y := by
  unfold exceedances
  refine List.countP_congr (fun k hk => ?_)
  rw [h k (List.mem_range.1 hk)]

private theorem exceedances_zero (threshold : Int) (date : Nat → Date) (counted : Nat → Bool)
    (os : List (List (List Int))) (i n : Nat) (y : Int) (h : ∀ k < n, (date k).year ≠ y) :
    exceedances threshold date counted os i n y = 0 := by
  unfold exceedances
  rw [List.countP_eq_zero]
  intro k hk
  simp [h k (List.mem_range.1 hk)]

private theorem rowIndex_nat {n : Nat} {i : Int} (h0 : 0 ≤ i) (h1 : i < n) : rowIndex n i = some i.toNat := by
  simp [rowIndex, h0, h1]

private theorem getD_set {α : Type} (l : List α) (a d : α) (i j : Nat) (hi : i < l.length) :
    (l.set i a).getD j d = if i = j then a else l.getD j d := by
  rw [List.getD_eq_getElem?_getD, List.getElem?_set, List.getD_eq_getElem?_getD]
  by_cases h : i = j
  · subst h; simp [hi]
  · simp [h]

private theorem getD_replicate_list {α : Type} (n m i j : Nat) (a : α) :
    ((List.replicate n (List.replicate m a)).getD j []).getD i a = a := by
  rw [List.getD_eq_getElem?_getD (l := List.replicate n _), List.getElem?_replicate]
  split_ifs
  · exact getD_replicate _ _ _
  · rfl

private theorem annual_inv (a : AnnualThreshold) (date : Nat → Date) (counted : Nat → Bool) (ncomb : Nat)
    (hm : ∀ k, (date k).year ≤ (date (k + 1)).year) (h0 : 0 ≤ a.startYear) :
    ∀ os : List (List (List Int)), (∀ o ∈ os, o.length = ncomb) →
    (∀ k < os.length, a.startYear ≤ (date k).year ∧ (date k).year < a.startYear + a.numYears ∧
      a.counts (date k) = some (counted k)) →
    ∃ s, (annualThreshold a date ncomb).fold 0 os (annualThreshold a date ncomb).init = some s ∧
      s.data.length = a.numYears ∧ s.thisYear.length = ncomb ∧
      (s.year = if os = [] then -1 else (date (os.length - 1)).year) ∧
      ∀ i < ncomb, s.thisYear.getD i 0 = exceedances a.threshold date counted os i os.length s.year ∧
        ∀ j < a.numYears, (s.data.getD j []).getD i 0 =
          if a.startYear + j < s.year then exceedances a.threshold date counted os i os.length (a.startYear + j) else 0 := by
  have hmono : ∀ j k, j ≤ k → (date j).year ≤ (date k).year := by
    intro j k h
    induction h with
    | refl => exact le_refl _
    | step _ ih => exact le_trans ih (hm _)
  intro os
  induction os using List.reverseRecOn with
  | nil =>
    intro _ _
    refine ⟨_, rfl, by simp [annualThreshold], by simp [annualThreshold], rfl, fun i hi => ⟨?_, fun j hj => ?_⟩⟩
    · simp only [annualThreshold, getD_replicate]; rfl
    · simp only [annualThreshold, getD_replicate_list]
      split_ifs <;> rfl
  | append_singleton os o ih =>
    intro hw hd
    rw [List.length_append, List.length_singleton] at hd
    obtain ⟨s, h1, h2, h3, h4, h5⟩ := ih (fun x hx => hw x (List.mem_append_left _ hx))
      (fun k hk => hd k (by omega))
    have ho := hw o (by simp)
    obtain ⟨d1, d2, d3⟩ := hd os.length (by omega)
    have hpre : ∀ k < os.length, (os ++ [o]).getD k [] = os.getD k [] := fun k hk => List.getD_append _ _ _ _ hk
    have hlast : (os ++ [o]).getD os.length [] = o := by
      rw [List.getD_eq_getElem?_getD, List.getElem?_append_right (le_refl _)]; simp
    have hne : os ++ [o] ≠ [] := by simp
    rw [fold_snoc, h1, Option.bind_some, Nat.zero_add, List.length_append, List.length_singleton, if_neg hne,
      Nat.add_sub_cancel]
    -- the state after the year change
    have key : ∃ t : AnnualCounts, (if (date os.length).year ≠ s.year then
        (if s.year ≠ -1 then a.flush s else some s).map fun t =>
          { t with thisYear := t.thisYear.map fun _ => 0, year := (date os.length).year }
        else some s) = some t ∧ t.data.length = a.numYears ∧ t.thisYear.length = ncomb ∧
        t.year = (date os.length).year ∧
        ∀ i < ncomb, t.thisYear.getD i 0 = exceedances a.threshold date counted os i os.length (date os.length).year ∧
          ∀ j < a.numYears, (t.data.getD j []).getD i 0 =
            if a.startYear + j < (date os.length).year then
              exceedances a.threshold date counted os i os.length (a.startYear + j) else 0 := by
      by_cases hy : (date os.length).year = s.year
      · rw [if_neg (by simp [hy])]
        exact ⟨s, rfl, h2, h3, hy.symm, by rw [hy]; exact h5⟩
      · rw [if_pos hy]
        by_cases he : os = []
        · subst he
          rw [if_pos rfl] at h4
          rw [if_neg (by simp [h4])]
          refine ⟨_, rfl, h2, by simp [h3], rfl, fun i hi => ⟨?_, fun j hj => ?_⟩⟩
          · simp only
            rw [List.getD_eq_getElem _ _ (by simp; omega), List.getElem_map]
            rfl
          · simp only
            rw [(h5 i hi).2 j hj]
            have e0 : ∀ y, exceedances a.threshold date counted [] i ([] : List (List (List Int))).length y = 0 := fun y => rfl
            simp only [e0, ite_self]
        · rw [if_neg he] at h4
          have hpos := List.length_pos_iff.2 he
          obtain ⟨c1, c2, c3⟩ := hd (os.length - 1) (by omega)
          have hlt : (date (os.length - 1)).year < (date os.length).year :=
            lt_of_le_of_ne (hmono _ _ (by omega)) (fun h => hy (by rw [h4, h]))
          rw [if_pos (by rw [h4]; omega)]
          unfold AnnualThreshold.flush
          rw [rowIndex_nat (by omega) (by rw [h2]; omega)]
          simp only [Option.map_some]
          refine ⟨_, rfl, by simp [h2], by simp [h3], rfl, fun i hi => ⟨?_, fun j hj => ?_⟩⟩
          · simp only
            rw [List.getD_eq_getElem _ _ (by simp; omega), List.getElem_map, exceedances_zero]
            intro k hk
            have := hmono k (os.length - 1) (by omega)
            omega
          · simp only
            rw [getD_set _ _ _ _ _ (by omega)]
            split_ifs with e1 e2 e2
            · rw [(h5 i hi).1]
              congr 1
              omega
            · exfalso; omega
            · rw [(h5 i hi).2 j hj]
              split_ifs with e3
              · rfl
              · rw [exceedances_zero]
                intro k hk
                have := hmono k (os.length - 1) (by omega)
                omega
            · rw [(h5 i hi).2 j hj, if_neg (by omega)]
    obtain ⟨t, k1, k2, k3, k4, k5⟩ := key
    have hafter : (annualThreshold a date ncomb).after os.length o s = some (if counted os.length = true then
        { t with thisYear := List.zipWith (fun (n : Nat) (indices : List Int) =>
          if indices.any (fun i => decide (i ≥ a.threshold)) then n + 1 else n) t.thisYear o } else t) := by
      simp only [annualThreshold, k1, Option.bind_some, d3, Option.map_some]
    rw [hafter]
    have hdata : (if counted os.length = true then
        { t with thisYear := List.zipWith (fun (n : Nat) (indices : List Int) =>
          if indices.any (fun i => decide (i ≥ a.threshold)) then n + 1 else n) t.thisYear o } else t).data = t.data ∧
        (if counted os.length = true then
        { t with thisYear := List.zipWith (fun (n : Nat) (indices : List Int) =>
          if indices.any (fun i => decide (i ≥ a.threshold)) then n + 1 else n) t.thisYear o } else t).year = t.year := by
      split_ifs <;> exact ⟨rfl, rfl⟩
    refine ⟨_, rfl, by rw [hdata.1, k2], by split_ifs <;> simp [k3, ho], by rw [hdata.2, k4], fun i hi => ⟨?_, fun j hj => ?_⟩⟩
    · rw [hdata.2, k4, exceedances_succ, hlast, exceedances_congr _ _ _ _ os _ _ _ hpre]
      by_cases hc : counted os.length = true
      · simp only [hc, if_true, true_and]
        rw [zipWith_getD _ (by omega) (by omega) 0 [], (k5 i hi).1]
        split_ifs <;> rfl
      · simp only [hc, Bool.false_eq_true, if_false, false_and, and_false, Nat.add_zero]
        exact (k5 i hi).1
    · rw [hdata.1, hdata.2, k4, (k5 i hi).2 j hj]
      split_ifs with e1
      · rw [exceedances_succ, if_neg (by rintro ⟨h, -⟩; omega), Nat.add_zero,
          exceedances_congr _ _ _ _ os _ _ _ hpre]
      · rfl

/-- **C41 (exceedances per year), partial.** The row of every year of the run holds, for every combination, the number of
timesteps of that year, outside the excluded months and within the included dates, in which some parameter was at or above
the threshold (a timestep counts once). Assumed: the timesteps lie within the years of the run, and the included dates
exist in every year (a 29th of February raises in other years, `C41_feb29_fails`). -/
theorem C41_exceedances_partial (a : AnnualThreshold) (date : Nat → Date) (counted : Nat → Bool) (ncomb : Nat)
    (hm : ∀ k, (date k).year ≤ (date (k + 1)).year) (h0 : 0 ≤ a.startYear) (os : List (List (List Int))) (hpos : os ≠ [])
    (hw : ∀ o ∈ os, o.length = ncomb)
    (hd : ∀ k < os.length, a.startYear ≤ (date k).year ∧ (date k).year < a.startYear + a.numYears ∧
      ((date k).month ∈ a.excludeMonths.getD [] → counted k = false) ∧
      ((date k).month ∉ a.excludeMonths.getD [] → ∃ lo hi, a.includeFrom (date k).year = some lo ∧
        a.includeTo (date k).year = some hi ∧ counted k = decide (lo ≤ (date k).dayOfYear ∧ (date k).dayOfYear ≤ hi)))
    (cur : Option Nat) :
    ∃ v, (annualThreshold a date ncomb).result os cur = some v ∧ v.data.length = a.numYears ∧
      ∀ i < ncomb, ∀ j < a.numYears, (v.data.getD j []).getD i 0 =
        (List.range os.length).countP fun k => decide ((date k).year = a.startYear + j) && counted k &&
          ((os.getD k []).getD i []).any (fun x => decide (a.threshold ≤ x)) := by
  have hcounts : ∀ k < os.length, a.counts (date k) = some (counted k) := by
    intro k hk
    obtain ⟨-, -, e1, e2⟩ := hd k hk
    unfold AnnualThreshold.counts
    by_cases hx : (date k).month ∈ a.excludeMonths.getD []
    · rw [e1 hx]
      cases hm : a.excludeMonths with
      | none => rw [hm] at hx; cases hx
      | some ms =>
        rw [hm] at hx
        simp only [decide_eq_true_eq]
        rw [if_pos (by simpa using hx)]
    · obtain ⟨lo, hi, l1, l2, l3⟩ := e2 hx
      rw [l3, if_neg, l1, l2]
      cases hm : a.excludeMonths with
      | none => simp
      | some ms => rw [hm] at hx; simpa using hx
  obtain ⟨s, h1, h2, h3, h4, h5⟩ := annual_inv a date counted ncomb hm h0 os hw
    (fun k hk => ⟨(hd k hk).1, (hd k hk).2.1, hcounts k hk⟩)
  rw [if_neg hpos] at h4
  have hl := List.length_pos_iff.2 hpos
  have hmono : ∀ j k, j ≤ k → (date j).year ≤ (date k).year := by
    intro j k h
    induction h with
    | refl => exact le_refl _
    | step _ ih => exact le_trans ih (hm _)
  obtain ⟨c1, c2, -, -⟩ := hd (os.length - 1) (by omega)
  have hfin : (annualThreshold a date ncomb).finish cur s =
      some { s with data := s.data.set (s.year - a.startYear).toNat s.thisYear } := by
    simp only [annualThreshold, AnnualThreshold.flush]
    rw [rowIndex_nat (by omega) (by rw [h2]; omega)]
  refine ⟨_, by simp only [Rec.result, h1, Option.bind_some]; exact hfin, by simp [h2], fun i hi j hj => ?_⟩
  simp only
  rw [getD_set _ _ _ _ _ (by omega)]
  change _ = exceedances a.threshold date counted os i os.length (a.startYear + j)
  split_ifs with e1
  · rw [(h5 i hi).1]
    congr 1
    omega
  · rw [(h5 i hi).2 j hj]
    split_ifs with e2
    · rfl
    · rw [exceedances_zero]
      intro k hk
      have := hmono k (os.length - 1) (by omega)
      omega

/-- The hypotheses can be met: two years, February excluded. -/
example : ∃ v, (annualThreshold ⟨1, some [2], fun _ => some 1, fun _ => some 366, 2000, 2⟩
    (fun k => if k = 0 then ⟨2000, 1, 1⟩ else if k = 1 then ⟨2000, 2, 32⟩ else ⟨2001, 1, 1⟩) 1).result
    [[[0, 1]], [[1, 1]], [[1, 1]]] (some 3) = some v ∧ v.data = [[1], [1]] := ⟨_, rfl, by decide⟩

/-- **C41 fails for the 29th of February.** When the included dates start on a day that a year of the run does not have, the
first timestep of that year raises (`pd.Timestamp(2001, 2, 29)`), whatever the indices are. -/
theorem C41_feb29_fails (a : AnnualThreshold) (date : Nat → Date) (ncomb : Nat) (hx : a.excludeMonths = none)
    (o : List (List Int)) (os : List (List (List Int))) (h : a.includeFrom (date 0).year = none) (cur : Option Nat) :
    (annualThreshold a date ncomb).result (o :: os) cur = none := by
  have : a.counts (date 0) = none := by
    unfold AnnualThreshold.counts
    rw [hx, h]
    rfl
  unfold Rec.result Rec.fold
  have : (annualThreshold a date ncomb).after 0 o (annualThreshold a date ncomb).init = none := by
    simp only [annualThreshold, this, Option.map_none]
    split_ifs <;> simp
  rw [this]
  rfl

/-! ## C59 -/

/-- The volume recorded for a combination for `d` days of timestep `k`. -/
def volume (factors : List Rat) (os : List (List (List Rat))) (i k : Nat) (d : Rat) : Rat :=
  d * (List.zipWith (fun q f => q * f) ((os.getD k []).getD i []) factors).sum

private theorem addAt_entry (rows : List (List Rat)) (ncomb : Nat) (hr : ∀ r ∈ rows, r.length = ncomb) (i : Nat)
    (hi : i < rows.length) (x : List Rat) (hx : x.length = ncomb) :
    (addAt rows i x).length = rows.length ∧ (∀ r ∈ addAt rows i x, r.length = ncomb) ∧
    ∀ j c, c < ncomb → ((addAt rows i x).getD j []).getD c 0 =
      (rows.getD j []).getD c 0 + if i = j then x.getD c 0 else 0 := by
  have hri : (rows.getD i []).length = ncomb := by
    rw [List.getD_eq_getElem _ _ hi]; exact hr _ (List.getElem_mem _)
  unfold addAt
  refine ⟨by simp, fun r h => ?_, fun j c hc => ?_⟩
  · rcases List.mem_or_eq_of_mem_set h with h | rfl
    · exact hr r h
    · rw [List.length_zipWith, hri, hx, Nat.min_self]
  · rw [getD_set _ _ _ _ _ hi]
    split_ifs with h
    · subst h
      rw [zipWith_getD _ (by omega) (by omega) 0 0]
    · rw [add_zero]

private theorem sum_scale (d : Rat) (flows factors : List Rat) :
    (List.zipWith (fun q f => q * d * f) flows factors).sum = d * (List.zipWith (fun q f => q * f) flows factors).sum := by
  induction flows generalizing factors with
  | nil => simp
  | cons q flows ih =>
    cases factors with
    | nil => simp
    | cons f factors =>
      simp only [List.zipWith_cons_cons, List.sum_cons, ih]
      ring

private theorem annualTotal_fold (factors : List Rat) (split : Nat → Split) (startYear : Int) (numYears ncomb : Nat) :
    ∀ os : List (List (List Rat)), (∀ o ∈ os, o.length = ncomb) →
    (∀ k < os.length, startYear ≤ (split k).year ∧ (split k).year < startYear + numYears) →
    ∃ s, (annualTotal factors split startYear numYears ncomb).fold 0 os
        (annualTotal factors split startYear numYears ncomb).init = some s ∧
      s.length = numYears ∧ (∀ r ∈ s, r.length = ncomb) ∧ ∀ i < ncomb, ∀ j < numYears, (s.getD j []).getD i 0 =
        ((List.range os.length).map fun k =>
          (if (split k).year = startYear + j then volume factors os i k (split k).current else 0) +
          (if (split k).current ≠ (split k).days ∧ (split k).year + 1 = startYear + j then
            volume factors os i k (split k).next else 0)).sum := by
  intro os
  induction os using List.reverseRecOn with
  | nil =>
    intro _ _
    refine ⟨_, rfl, by simp [annualTotal], ?_, fun i hi j hj => ?_⟩
    · intro r hr
      rw [(List.mem_replicate.1 hr).2, List.length_replicate]
    · simp only [annualTotal, getD_replicate_list]
      rfl
  | append_singleton os o ih =>
    intro hw hd
    rw [List.length_append, List.length_singleton] at hd
    obtain ⟨s, h1, h2, h3, h4⟩ := ih (fun x hx => hw x (List.mem_append_left _ hx)) (fun k hk => hd k (by omega))
    have ho := hw o (by simp)
    obtain ⟨d1, d2⟩ := hd os.length (by omega)
    have hpre : ∀ k < os.length, (os ++ [o]).getD k [] = os.getD k [] := fun k hk => List.getD_append _ _ _ _ hk
    have hlast : (os ++ [o]).getD os.length [] = o := by
      rw [List.getD_eq_getElem?_getD, List.getElem?_append_right (le_refl _)]; simp
    have hvol : ∀ (i : Nat) (d : Rat), i < ncomb →
        (o.map fun flows => (List.zipWith (fun q f => q * d * f) flows factors).sum).getD i 0 =
          volume factors (os ++ [o]) i os.length d := by
      intro i d hi
      unfold volume
      rw [hlast, List.getD_eq_getElem _ _ (by simp; omega), List.getElem_map, sum_scale,
        List.getD_eq_getElem o [] (by omega)]
    have hprev : ∀ i j, ((List.range os.length).map fun k =>
          (if (split k).year = startYear + j then volume factors (os ++ [o]) i k (split k).current else 0) +
          (if (split k).current ≠ (split k).days ∧ (split k).year + 1 = startYear + j then
            volume factors (os ++ [o]) i k (split k).next else 0)).sum = ((List.range os.length).map fun k =>
          (if (split k).year = startYear + (j : Int) then volume factors os i k (split k).current else 0) +
          (if (split k).current ≠ (split k).days ∧ (split k).year + 1 = startYear + j then
            volume factors os i k (split k).next else 0)).sum := by
      intro i j
      congr 1
      refine List.map_congr_left (fun k hk => ?_)
      unfold volume
      rw [hpre k (List.mem_range.1 hk)]
    rw [fold_snoc, h1, Option.bind_some, Nat.zero_add, List.length_append, List.length_singleton]
    obtain ⟨a1, a2, a3⟩ := addAt_entry s ncomb h3 ((split os.length).year - startYear).toNat (by omega)
      (o.map fun flows => (List.zipWith (fun q f => q * (split os.length).current * f) flows factors).sum) (by simp [ho])
    simp only [annualTotal]
    rw [rowIndex_nat (by omega) (by rw [h2]; omega)]
    simp only
    by_cases hc : (split os.length).current ≠ (split os.length).days ∧
        (split os.length).year - startYear + 1 < numYears
    · rw [if_pos hc, rowIndex_nat (by omega) (by rw [h2]; omega), Option.map_some]
      obtain ⟨b1, b2, b3⟩ := addAt_entry _ ncomb a2 ((split os.length).year - startYear + 1).toNat (by omega)
        (o.map fun flows => (List.zipWith (fun q f => q * (split os.length).next * f) flows factors).sum) (by simp [ho])
      refine ⟨_, rfl, by omega, b2, fun i hi j hj => ?_⟩
      rw [b3 j i hi, a3 j i hi, h4 i hi j hj, List.range_succ, List.map_append, List.sum_append, hprev, hvol _ _ hi,
        hvol _ _ hi]
      simp only [List.map_cons, List.map_nil, List.sum_cons, List.sum_nil, add_zero]
      rw [add_assoc]
      congr 2
      · exact if_congr (by omega) rfl rfl
      · exact if_congr (by constructor <;> intro h <;> [exact ⟨hc.1, by omega⟩; omega]) rfl rfl
    · rw [if_neg hc]
      refine ⟨_, rfl, by omega, a2, fun i hi j hj => ?_⟩
      rw [a3 j i hi, h4 i hi j hj, List.range_succ, List.map_append, List.sum_append, hprev, hvol _ _ hi]
      simp only [List.map_cons, List.map_nil, List.sum_cons, List.sum_nil, add_zero]
      congr 1
      rw [if_neg (c := (split os.length).current ≠ (split os.length).days ∧ _) (by
        rintro ⟨e1, e2⟩; exact hc ⟨e1, by omega⟩), add_zero]
      exact if_congr (by omega) rfl rfl

/-- **C59 (rows).** The row of every year of the run holds, for every combination, the volume of the part in that year of every
timestep that starts in it, plus that of the part in the next year of every timestep that starts in the year before and
reaches into it. -/
theorem C59_rows (factors : List Rat) (split : Nat → Split) (startYear : Int) (numYears ncomb : Nat)
    (os : List (List (List Rat))) (hw : ∀ o ∈ os, o.length = ncomb)
    (hd : ∀ k < os.length, startYear ≤ (split k).year ∧ (split k).year < startYear + numYears) (cur : Option Nat) :
    ∃ v, (annualTotal factors split startYear numYears ncomb).result os cur = some v ∧ v.length = numYears ∧
      ∀ i < ncomb, ∀ j < numYears, (v.getD j []).getD i 0 = ((List.range os.length).map fun k =>
          (if (split k).year = startYear + j then volume factors os i k (split k).current else 0) +
          (if (split k).current ≠ (split k).days ∧ (split k).year + 1 = startYear + j then
            volume factors os i k (split k).next else 0)).sum := by
  obtain ⟨s, h1, h2, -, h4⟩ := annualTotal_fold factors split startYear numYears ncomb os hw hd
  exact ⟨s, by simp only [Rec.result, h1, Option.bind_some]; rfl, h2, h4⟩

private theorem sum_one (n : Nat) (start y : Int) (x : Rat) (h0 : start ≤ y) (h1 : y < start + n) :
    ((List.range n).map fun j : Nat => if y = start + j then x else 0).sum = x := by
  induction n with
  | zero => omega
  | succ n ih =>
    rw [List.range_succ, List.map_append, List.sum_append]
    simp only [List.map_cons, List.map_nil, List.sum_cons, List.sum_nil, add_zero]
    by_cases h : y = start + n
    · rw [if_pos h]
      have : ((List.range n).map fun j : Nat => if y = start + j then x else 0) = (List.range n).map fun _ => 0 := by
        refine List.map_congr_left (fun j hj => ?_)
        have := List.mem_range.1 hj
        rw [if_neg (by omega)]
      rw [this]
      simp
    · rw [if_neg h, ih (by push_cast at h1; omega), add_zero]

private theorem sum_swap (n m : Nat) (f : Nat → Nat → Rat) :
    ((List.range n).map fun j => ((List.range m).map fun k => f k j).sum).sum =
      ((List.range m).map fun k => ((List.range n).map fun j => f k j).sum).sum := by
  induction m with
  | zero => simp
  | succ m ih =>
    simp only [List.range_succ, List.map_append, List.sum_append, List.map_cons, List.map_nil, List.sum_cons,
      List.sum_nil, add_zero]
    rw [List.sum_map_add, ih]

/-- The timestep as the recorder sees it. -/
def splitOf (t : Calendar.YearSplit) : Split :=
  ⟨t.year, t.days, Calendar.daysInCurrentYear Calendar.newYearNs t, Calendar.daysInNextYear Calendar.newYearNs t⟩

/-- **C59, partial.** The yearly totals add up to the volume of the run, less the volume of one nanosecond for every timestep
that crosses a new year. Assumed: no timestep reaches beyond the last year of the run (what does is lost,
`C59_last_year_fails`), and none touches more than two years. -/
theorem C59_total_partial (factors : List Rat) (t : Nat → Calendar.YearSplit) (ns : Nat → Int) (startYear : Int)
    (numYears ncomb : Nat) (os : List (List (List Rat))) (hw : ∀ o ∈ os, o.length = ncomb)
    (ht : ∀ k < os.length, Calendar.IsTimestep (t k) (ns k))
    (hd : ∀ k < os.length, startYear ≤ (t k).year ∧ (t k).endYear < startYear + numYears ∧
      ((t k).endYear = (t k).year ∨ (t k).endYear = (t k).year + 1)) (cur : Option Nat) :
    ∃ v, (annualTotal factors (fun k => splitOf (t k)) startYear numYears ncomb).result os cur = some v ∧
      v.length = numYears ∧ ∀ i < ncomb, ((List.range numYears).map fun j => (v.getD j []).getD i 0).sum =
        ((List.range os.length).map fun k => volume factors os i k
          ((t k).days - if (t k).endYear = (t k).year then 0 else 1 / 86400000000000)).sum := by
  obtain ⟨v, h1, h2, h3⟩ := C59_rows factors (fun k => splitOf (t k)) startYear numYears ncomb os hw (by
    intro k hk
    obtain ⟨e1, e2, e3⟩ := hd k hk
    exact ⟨e1, by simp only [splitOf]; omega⟩) cur
  refine ⟨v, h1, h2, fun i hi => ?_⟩
  have e : ((List.range numYears).map fun j => (v.getD j []).getD i 0) = (List.range numYears).map fun (j : Nat) =>
      ((List.range os.length).map fun k =>
          (if (splitOf (t k)).year = startYear + j then volume factors os i k (splitOf (t k)).current else 0) +
          (if (splitOf (t k)).current ≠ (splitOf (t k)).days ∧ (splitOf (t k)).year + 1 = startYear + j then
            volume factors os i k (splitOf (t k)).next else 0)).sum :=
    List.map_congr_left (fun j hj => h3 i hi j (List.mem_range.1 hj))
  rw [e, sum_swap]
  congr 1
  refine List.map_congr_left (fun k hk => ?_)
  obtain ⟨e1, e2, e3⟩ := hd k (List.mem_range.1 hk)
  obtain ⟨f1, f2, f3, f4⟩ := Calendar.C09_partial (t k) (ns k) (ht k (List.mem_range.1 hk))
  rw [List.sum_map_add, sum_one numYears startYear (splitOf (t k)).year _ e1 (by simp only [splitOf]; omega)]
  by_cases hc : (t k).endYear = (t k).year
  · obtain ⟨g1, g2⟩ := f3 hc.symm
    have : ∀ j : Nat, ¬ ((splitOf (t k)).current ≠ (splitOf (t k)).days ∧ (splitOf (t k)).year + 1 = startYear + j) := by
      intro j h
      exact h.1 g2
    have hz : ((List.range numYears).map fun (j : Nat) =>
        if (splitOf (t k)).current ≠ (splitOf (t k)).days ∧ (splitOf (t k)).year + 1 = startYear + j then
          volume factors os i k (splitOf (t k)).next else 0) = (List.range numYears).map fun _ => 0 :=
      List.map_congr_left (fun j _ => if_neg (this j))
    rw [hz, if_pos hc, sub_zero, splitOf, g2]
    simp
  · have hy : (t k).endYear = (t k).year + 1 := by omega
    have g := f4 (fun h => hc h.symm)
    rw [if_neg hc]
    have hv : volume factors os i k (splitOf (t k)).current + volume factors os i k (splitOf (t k)).next =
        volume factors os i k ((t k).days - 1 / 86400000000000) := by
      unfold volume
      rw [← add_mul, ← g]
      rfl
    rw [← hv]
    congr 1
    by_cases hcd : (splitOf (t k)).current = (splitOf (t k)).days
    · -- then the next part is the (negative) nanosecond: impossible
      exfalso
      simp only [splitOf] at hcd
      rw [hcd] at g
      linarith
    · simp only [ne_eq, hcd, not_false_eq_true, true_and]
      exact sum_one numYears startYear ((splitOf (t k)).year + 1) _ (by simp only [splitOf]; omega)
        (by simp only [splitOf]; omega)

/-- **C59 fails in the last year.** A run of the single year 1970 whose last timestep (two days, flow 1) starts on 31 December: only one of the two days
is recorded. -/
theorem C59_last_year_fails : ∃ (t : Calendar.YearSplit) (n : Int), Calendar.IsTimestep t n ∧ t.days = 2 ∧
    (annualTotal [1] (fun _ => splitOf t) 1970 1 1).result [[[1]]] (some 1) = some [[1]] := by
  refine ⟨⟨Calendar.newYearNs 1971 - 86400000000000, Calendar.newYearNs 1971 + 86400000000000 - 1, 1970, 1971, 2⟩,
    2 * 86400000000000,
    ⟨by norm_num, by norm_num; ring, by unfold Calendar.InYear; decide, by unfold Calendar.InYear; decide, by norm_num⟩,
    rfl, by decide +kernel⟩

end Verif.Recorders

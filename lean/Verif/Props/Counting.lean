import Verif.Proof.Recorders
import Mathlib.Data.Finset.Card
import Mathlib.Data.Finset.Image
import Mathlib.Data.List.Induction
import Mathlib.Algebra.Order.Field.Basic
import Mathlib.Tactic.NormNum

/-!
# Recorders: counts (C41)
-/

namespace Verif.Recorders

open Verif.Run

/-! ## C41: timesteps -/

private theorem foldl_count {α : Type} (p : α → Prop) [DecidablePred p] (l : List α) : ∀ a : Rat,
    l.foldl (fun v x => if p x then v + 1 else v) a = a + (l.countP fun x => decide (p x) : Nat) := by
  induction l with
  | nil => intro a; simp
  | cons x l ih =>
    intro a
    rw [List.foldl_cons, ih, List.countP_cons]
    by_cases h : p x
    · simp only [h, if_true, decide_true]; push_cast; ring
    · simp [h]

private theorem foldl_count_nat {α : Type} (p : α → Prop) [DecidablePred p] (l : List α) : ∀ a : Nat,
    l.foldl (fun v x => if p x then v + 1 else v) a = a + l.countP fun x => decide (p x) := by
  induction l with
  | nil => intro a; simp
  | cons x l ih =>
    intro a
    rw [List.foldl_cons, ih, List.countP_cons]
    by_cases h : p x
    · simp only [h, if_true, decide_true]; omega
    · simp [h]

private theorem countP_zipIdx {α : Type} (p : α → Bool) (l : List α) (k : Nat) :
    (l.zipIdx k).countP (fun x => p x.1) = l.countP p := by
  induction l generalizing k with
  | nil => rfl
  | cons a l ih => simp only [List.zipIdx_cons, List.countP_cons, ih]

/-- **C41 (deficit frequency), partial.** Finished with the number of timesteps (as in every run of a model, see `C40_run`)
the recorder holds the fraction of the timesteps in which the flow missed the maximum flow by more than a millionth.
Missing: sub-models of a coupled run after the first, which divide by one timestep too few (`C40_coupled`). -/
theorem C41_deficit_frequency_partial (ncomb : Nat) (os : List NodeView) (hpos : os ≠ [])
    (h : ∀ o ∈ os, o.flow.length = ncomb ∧ o.maxFlow.length = ncomb) :
    ∃ v, (deficitFrequency ncomb).result os (some os.length) = some v ∧ v.length = ncomb ∧
      ∀ i < ncomb, v.getD i 0 * os.length =
        (os.countP fun o => decide (1 / 1000000 < |o.maxFlow.getD i 0 - o.flow.getD i 0|) : Nat) := by
  have hl := List.length_pos_iff.2 hpos
  obtain ⟨v, h1, h2, h3⟩ := fold_entries (deficitFrequency ncomb)
    (fun _ v d => if |d| > 1 / 1000000 then v + 1 else v)
    (fun o => List.zipWith (fun q m => q - m) o.flow o.maxFlow) 0 0 ncomb (fun _ _ _ => rfl) os 0 (zeros ncomb)
    (by simp [zeros]) (fun o ho => by simp [h o ho])
  have h1' : (deficitFrequency ncomb).fold 0 os (deficitFrequency ncomb).init = some v := h1
  refine ⟨v.map (· / (os.length : Rat)), ?_, by simp [h2], fun i hi => ?_⟩
  · simp only [Rec.result, h1', Option.bind_some]
    simp only [deficitFrequency, divideByIndex]
    rw [if_neg (fun h => absurd h.1 (by omega))]
  · have hx : (v.map (· / (os.length : Rat))).getD i 0 = v.getD i 0 / os.length := by
      rw [List.getD_eq_getElem _ _ (by simp; omega), List.getElem_map, List.getD_eq_getElem _ _ (by omega)]
    rw [hx, h3 i hi, zeros, getD_replicate, foldl_count (fun x : NodeView × Nat =>
      |(List.zipWith (fun q m => q - m) x.1.flow x.1.maxFlow).getD i 0| > 1 / 1000000), zero_add, div_mul_cancel₀]
    · rw [countP_zipIdx (fun x : NodeView =>
        decide (|(List.zipWith (fun q m => q - m) x.flow x.maxFlow).getD i 0| > 1 / 1000000))]
      congr 1
      refine List.countP_congr (fun o ho => ?_)
      obtain ⟨h4, h5⟩ := h o ho
      rw [zipWith_getD _ (by omega) (by omega) 0 0, abs_sub_comm]
    · exact_mod_cast hl.ne'

/-- **C41 (index count).** The number of timesteps in which the index was at or above the threshold. -/
theorem C41_timestep_count (threshold : Int) (ncomb : Nat) (os : List (List Int)) (h : ∀ o ∈ os, o.length = ncomb)
    (cur : Option Nat) :
    ∃ v, (timestepCount threshold ncomb).result os cur = some v ∧ v.length = ncomb ∧
      ∀ i < ncomb, v.getD i 0 = os.countP fun o => decide (threshold ≤ o.getD i 0) := by
  obtain ⟨v, h1, h2, h3⟩ := fold_entries (timestepCount threshold ncomb)
    (fun _ v x => if x ≥ threshold then v + 1 else v) id 0 0 ncomb (fun _ _ _ => rfl) os 0 (List.replicate ncomb 0)
    (by simp) h
  have h1' : (timestepCount threshold ncomb).fold 0 os (timestepCount threshold ncomb).init = some v := h1
  refine ⟨v, by simp only [Rec.result, h1', Option.bind_some]; rfl, h2, fun i hi => ?_⟩
  rw [h3 i hi, getD_replicate, foldl_count_nat (fun x : List Int × Nat => (id x.1).getD i 0 ≥ threshold), zero_add,
    countP_zipIdx (fun x : List Int => decide ((id x).getD i 0 ≥ threshold))]
  rfl

/-! ## C41: years in which an index reached the threshold -/

/-- The years of the first `n` timesteps in which the index `a` reached the threshold. -/
private def reached (threshold : Int) (year : Nat → Int) (a : Nat → Int) (n : Nat) : Finset Int :=
  ((Finset.range n).filter fun k => threshold ≤ a k).image year

/-- The code for one combination. -/
private def scalar (threshold : Int) (year a : Nat → Int) : Nat → Nat × Int × Int
  | 0 => (0, 0, -1)
  | k + 1 =>
    let s := scalar threshold year a k
    if year k ≠ s.2.2 then
      (if s.2.2 ≠ -1 then (if s.2.1 ≥ threshold then s.1 + 1 else s.1) else s.1, if a k > 0 then a k else 0, year k)
    else (s.1, if a k > s.2.1 then a k else s.2.1, s.2.2)

private theorem annual_fold (threshold : Int) (year : Nat → Int) (ncomb : Nat) (os : List (List Int)) :
    (∀ o ∈ os, o.length = ncomb) →
    ∃ s, (annualCount threshold year ncomb).fold 0 os (annualCount threshold year ncomb).init = some s ∧
      s.count.length = ncomb ∧ s.currentMax.length = ncomb ∧
      ∀ i < ncomb, (s.count.getD i 0, s.currentMax.getD i 0, s.year) =
        scalar threshold year (fun k => (os.getD k []).getD i 0) os.length := by
  have hcongr : ∀ (a b : Nat → Int) n, (∀ k < n, a k = b k) → scalar threshold year a n = scalar threshold year b n := by
    intro a b n h
    induction n with
    | zero => rfl
    | succ n ih => simp only [scalar, ih (fun k hk => h k (by omega)), h n (by omega)]
  induction os using List.reverseRecOn with
  | nil =>
    intro _
    refine ⟨_, rfl, by simp [annualCount], by simp [annualCount], fun i hi => ?_⟩
    simp only [annualCount, List.length_nil, scalar, getD_replicate]
  | append_singleton os o ih =>
    intro h
    obtain ⟨s, h1, h2, h3, h5⟩ := ih (fun x hx => h x (List.mem_append_left _ hx))
    have ho := h o (by simp)
    have hpre : ∀ i, ∀ k < os.length, ((os ++ [o]).getD k []).getD i 0 = (os.getD k []).getD i 0 := by
      intro i k hk
      rw [List.getD_append _ _ _ _ hk]
    have hlast : ∀ i, ((os ++ [o]).getD os.length []).getD i 0 = o.getD i 0 := by
      intro i
      rw [List.getD_eq_getElem?_getD (l := os ++ [o]), List.getElem?_append_right (le_refl _)]
      simp
    rw [fold_snoc, h1, Option.bind_some, Nat.zero_add]
    refine ⟨_, rfl, ?_, ?_, fun i hi => ?_⟩
    · simp only
      split_ifs <;> simp [h2, h3]
    · simp only
      split_ifs <;> simp [h3, ho]
    · have h6 := h5 i hi
      rw [List.length_append, List.length_singleton]
      simp only [scalar]
      rw [hcongr _ _ _ (hpre i), ← h6, hlast]
      simp only
      by_cases hy : year os.length = s.year
      · simp only [hy, ne_eq, not_true_eq_false, if_false]
        rw [zipWith_getD _ (by omega) (by omega) 0 0]
      · simp only [ne_eq, hy, not_false_eq_true, if_true]
        rw [zipWith_getD _ (by simp; omega) (by omega) 0 0]
        have hz : (s.currentMax.map fun _ => (0 : Int)).getD i 0 = 0 := by
          rw [List.getD_eq_getElem _ _ (by simp; omega), List.getElem_map]
        rw [hz]
        by_cases h7 : s.year = -1
        · simp [h7]
        · simp only [h7, not_false_eq_true, if_true]
          rw [zipWith_getD _ (by omega) (by omega) 0 0]

private theorem reached_succ (threshold : Int) (year a : Nat → Int) (n : Nat) :
    reached threshold year a (n + 1) =
      if threshold ≤ a n then insert (year n) (reached threshold year a n) else reached threshold year a n := by
  unfold reached
  rw [Finset.range_add_one, Finset.filter_insert]
  split_ifs
  · rw [Finset.image_insert]
  · rfl

/-- What the code has counted after `n > 0` timesteps. -/
private theorem scalar_inv (threshold : Int) (year a : Nat → Int) (hm : ∀ k, year k ≤ year (k + 1))
    (hy : ∀ k, year k ≠ -1) (ht : 1 ≤ threshold ∨ ∀ k, 0 ≤ a k) (n : Nat) :
    (scalar threshold year a (n + 1)).2.2 = year n ∧
    ((reached threshold year a (n + 1)).erase (year n)).card = (scalar threshold year a (n + 1)).1 ∧
    ((scalar threshold year a (n + 1)).2.1 ≥ threshold ↔ year n ∈ reached threshold year a (n + 1)) ∧
    0 ≤ (scalar threshold year a (n + 1)).2.1 := by
  have hmono : ∀ j k, j ≤ k → year j ≤ year k := by
    intro j k h
    induction h with
    | refl => exact le_refl _
    | step _ ih => exact le_trans ih (hm _)
  induction n with
  | zero =>
    have e : scalar threshold year a 1 = (0, if a 0 > 0 then a 0 else 0, year 0) := by
      simp [scalar, hy 0]
    rw [e, reached_succ]
    have e0 : reached threshold year a 0 = ∅ := rfl
    rw [e0]
    refine ⟨rfl, ?_, ?_, ?_⟩
    · split_ifs <;> simp
    · split_ifs with h1 h2 h2
      · simp; omega
      · simp; omega
      · simp only [Finset.mem_insert, true_or, iff_true]
        rcases ht with ht | ht
        · omega
        · have := ht 0; omega
      · simp only [Finset.notMem_empty, iff_false]
        rcases ht with ht | ht
        · omega
        · have := ht 0; omega
    · simp only; split_ifs <;> omega
  | succ n ih =>
    obtain ⟨i1, i2, i3, i4⟩ := ih
    rw [reached_succ threshold year a (n + 1)]
    generalize hR : reached threshold year a (n + 1) = R at *
    generalize hs : scalar threshold year a (n + 1) = s at *
    have e : scalar threshold year a (n + 1 + 1) = if year (n + 1) ≠ s.2.2 then
        (if s.2.2 ≠ -1 then (if s.2.1 ≥ threshold then s.1 + 1 else s.1) else s.1,
          if a (n + 1) > 0 then a (n + 1) else 0, year (n + 1))
        else (s.1, if a (n + 1) > s.2.1 then a (n + 1) else s.2.1, s.2.2) := by
      rw [← hs]; rfl
    rw [e]
    have hRy : ∀ y ∈ R, y ≤ year n := by
      intro y hy
      rw [← hR, reached, Finset.mem_image] at hy
      obtain ⟨k, hk, rfl⟩ := hy
      simp at hk
      exact hmono _ _ (by omega)
    by_cases hc : year (n + 1) = year n
    · rw [if_neg (by rw [i1]; simp [hc])]
      simp only [i1, hc]
      refine ⟨trivial, ?_, ?_, ?_⟩
      · rw [← i2]
        split_ifs
        · rw [Finset.erase_insert_eq_erase]
        · rfl
      · by_cases h1 : threshold ≤ a (n + 1)
        · rw [if_pos h1]
          simp only [Finset.mem_insert, true_or, iff_true]
          split_ifs <;> omega
        · rw [if_neg h1, ← i3]
          split_ifs <;> omega
      · split_ifs <;> omega
    · have hlt : year n < year (n + 1) := lt_of_le_of_ne (hm n) (Ne.symm hc)
      have hnR : year (n + 1) ∉ R := fun h => absurd (hRy _ h) (by omega)
      rw [if_pos (by rw [i1]; exact hc)]
      simp only [i1, ne_eq, hy n, not_false_eq_true, if_true]
      refine ⟨trivial, ?_, ?_, ?_⟩
      · have hx : (if threshold ≤ a (n + 1) then insert (year (n + 1)) R else R).erase (year (n + 1)) = R := by
          split_ifs
          · rw [Finset.erase_insert hnR]
          · rw [Finset.erase_eq_of_notMem hnR]
        rw [hx]
        by_cases h1 : s.2.1 ≥ threshold
        · rw [if_pos h1, ← i2, Finset.card_erase_of_mem (i3.1 h1)]
          have := Finset.card_pos.2 ⟨_, i3.1 h1⟩
          omega
        · rw [if_neg h1, ← i2, Finset.erase_eq_of_notMem (fun h => h1 (i3.2 h))]
      · by_cases h1 : threshold ≤ a (n + 1)
        · rw [if_pos h1]
          simp only [Finset.mem_insert, true_or, iff_true]
          split_ifs
          · omega
          · rcases ht with ht | ht
            · omega
            · have := ht (n + 1); omega
        · rw [if_neg h1]
          simp only [hnR, iff_false]
          split_ifs
          · omega
          · rcases ht with ht | ht
            · omega
            · have := ht (n + 1); omega
      · split_ifs <;> omega

/-- **C41 (years), partial.** The recorder holds the number of years in which the index was at or above the threshold in at
least one timestep, for every threshold when indices are not negative, and for every index when the threshold is
positive. Missing: negative indices with a threshold that is not positive (`C41_annual_fails`). -/
theorem C41_annual_partial (threshold : Int) (year : Nat → Int) (ncomb : Nat) (os : List (List Int))
    (h : ∀ o ∈ os, o.length = ncomb) (hpos : os ≠ []) (hm : ∀ k, year k ≤ year (k + 1)) (hy : ∀ k, year k ≠ -1)
    (ht : 1 ≤ threshold ∨ ∀ o ∈ os, ∀ x ∈ o, 0 ≤ x) (cur : Option Nat) :
    ∃ v, (annualCount threshold year ncomb).result os cur = some v ∧ v.count.length = ncomb ∧
      ∀ i < ncomb, v.count.getD i 0 =
        (((Finset.range os.length).filter fun k => threshold ≤ (os.getD k []).getD i 0).image year).card := by
  obtain ⟨s, h1, h2, h3, h5⟩ := annual_fold threshold year ncomb os h
  refine ⟨⟨List.zipWith (fun c m => if m ≥ threshold then c + 1 else c) s.count s.currentMax, s.currentMax, s.year⟩,
    by simp only [Rec.result, h1, Option.bind_some]; rfl, by simp [h2, h3], fun i hi => ?_⟩
  simp only
  rw [zipWith_getD _ (by omega) (by omega) 0 0]
  have hlen : os.length = (os.length - 1) + 1 := by have := List.length_pos_iff.2 hpos; omega
  have h6 := h5 i hi
  rw [hlen] at h6
  have hnn : 1 ≤ threshold ∨ ∀ k, 0 ≤ (os.getD k []).getD i 0 := by
    rcases ht with ht | ht
    · exact Or.inl ht
    · refine Or.inr (fun k => ?_)
      by_cases hk : k < os.length
      · rw [List.getD_eq_getElem _ _ hk]
        have hw := h os[k] (List.getElem_mem _)
        rw [List.getD_eq_getElem _ _ (by omega)]
        exact ht _ (List.getElem_mem _) _ (List.getElem_mem _)
      · rw [List.getD_eq_default os [] (by omega)]; simp
  obtain ⟨i1, i2, i3, -⟩ := scalar_inv threshold year (fun k => (os.getD k []).getD i 0) hm hy hnn (os.length - 1)
  rw [← h6] at i1 i2 i3
  simp only at i1 i2 i3
  rw [← hlen] at i2 i3
  change _ = (reached threshold year (fun k => (os.getD k []).getD i 0) os.length).card
  by_cases hc : s.currentMax.getD i 0 ≥ threshold
  · rw [if_pos hc, ← i2, Finset.card_erase_of_mem (i3.1 hc)]
    have := Finset.card_pos.2 ⟨_, i3.1 hc⟩
    omega
  · rw [if_neg hc, ← i2, Finset.erase_eq_of_notMem (fun h => hc (i3.2 h))]

/-- The hypotheses can be met: three timesteps in two years, both reaching the threshold. -/
example : ∃ v, (annualCount 1 (fun k => if k < 2 then 2000 else 2001) 1).result [[1], [2], [1]] (some 3) = some v ∧
    v.count = [2] := ⟨_, rfl, by decide⟩

/-- **C41 fails for negative indices.** With threshold 0 a year in which the index was always −1 is counted. -/
theorem C41_annual_fails : ∃ v, (annualCount 0 (fun _ => 2000) 1).result [[-1], [-1]] (some 2) = some v ∧
    v.count = [1] ∧ ∀ o ∈ [[-1], [-1]], ∀ x ∈ o, ¬ (0 : Int) ≤ x := ⟨_, rfl, by decide, by decide⟩

end Verif.Recorders

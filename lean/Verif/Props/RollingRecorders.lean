import Verif.Props.Recorders
import Verif.Model.RollingRecorders
import Verif.Proof.Recorders
import Verif.Props.Constraints
import Mathlib.Data.List.Induction
import Mathlib.Data.List.Perm.Subperm
import Mathlib.Data.List.Range
import Mathlib.Tactic.FieldSimp
import Mathlib.Algebra.Order.Field.Basic

/-!
# Storage recorders (C63), rolling recorders (C64)
-/

namespace Verif.Recorders

open Verif.Run Verif.Constraints

/-! ## Storage recorders -/

/-- **C63 (minimum volume).** For every combination the least volume of the run. -/
theorem C63_minimum_volume (ncomb : Nat) (os : List (List Rat)) (hpos : os ≠ []) (hw : ∀ o ∈ os, o.length = ncomb)
    (cur : Option Nat) : ∃ v, (minimumVolume ncomb).result os cur = some v ∧ v.length = ncomb ∧ ∀ i < ncomb,
      ∃ x, v.getD i none = some x ∧ (∃ o ∈ os, o.getD i 0 = x) ∧ ∀ o ∈ os, x ≤ o.getD i 0 := by
  obtain ⟨s, h1, h2, h3⟩ := fold_entries (minimumVolume ncomb)
    (fun _ v x => match v with | none => some x | some y => some (min x y)) id 0 none ncomb (fun _ _ _ => rfl) os 0
    (minimumVolume ncomb).init (by simp [minimumVolume]) (by simpa using hw)
  refine ⟨s, by simp only [Rec.result, h1, Option.bind_some]; rfl, h2, fun i hi => ?_⟩
  rw [h3 i hi]
  have hinit : (minimumVolume ncomb).init.getD i none = none := by simp only [minimumVolume, getD_replicate]
  rw [hinit]
  simp only [id]
  have key : ∀ (l : List (List Rat)) (k : Nat) (a : Option Rat), (l ≠ [] ∨ a ≠ none) →
      ∃ x, (l.zipIdx k).foldl (fun (v : Option Rat) (y : List Rat × Nat) =>
          match v with | none => some (y.1.getD i 0) | some z => some (min (y.1.getD i 0) z)) a = some x ∧
        ((∃ o ∈ l, o.getD i 0 = x) ∨ a = some x) ∧ (∀ o ∈ l, x ≤ o.getD i 0) ∧ ∀ z, a = some z → x ≤ z := by
    intro l
    induction l with
    | nil =>
      intro k a h
      cases a with
      | none => simp at h
      | some z => exact ⟨z, rfl, Or.inr rfl, by simp, fun y hy => by cases hy; exact le_refl _⟩
    | cons o l ih =>
      intro k a _
      rw [List.zipIdx_cons, List.foldl_cons]
      cases a with
      | none =>
        obtain ⟨x, e1, e2, e3, e4⟩ := ih (k + 1) (some (o.getD i 0)) (Or.inr (by simp))
        refine ⟨x, e1, ?_, ?_, by simp⟩
        · rcases e2 with ⟨o', ho', e⟩ | e
          · exact Or.inl ⟨o', by simp [ho'], e⟩
          · exact Or.inl ⟨o, by simp, by simpa using e⟩
        · intro o' ho'
          rcases List.mem_cons.1 ho' with rfl | ho'
          · exact e4 _ rfl
          · exact e3 _ ho'
      | some z =>
        obtain ⟨x, e1, e2, e3, e4⟩ := ih (k + 1) (some (min (o.getD i 0) z)) (Or.inr (by simp))
        have := e4 _ rfl
        refine ⟨x, e1, ?_, ?_, fun y hy => ?_⟩
        · rcases e2 with ⟨o', ho', e⟩ | e
          · exact Or.inl ⟨o', by simp [ho'], e⟩
          · simp only [Option.some.injEq] at e
            rcases min_choice (o.getD i 0) z with hm | hm
            · exact Or.inl ⟨o, by simp, by rw [← hm, e]⟩
            · exact Or.inr (by rw [← e, hm])
        · intro o' ho'
          rcases List.mem_cons.1 ho' with rfl | ho'
          · exact le_trans this (min_le_left _ _)
          · exact e3 _ ho'
        · cases hy; exact le_trans this (min_le_right _ _)
  obtain ⟨x, e1, e2, e3, -⟩ := key os 0 none (Or.inl hpos)
  exact ⟨x, e1, by simpa using e2, e3⟩

/-- **C63 (minimum threshold).** For every combination 1 if the volume was at or below the threshold in some timestep, else 0. -/
theorem C63_minimum_threshold (threshold : Rat) (ncomb : Nat) (os : List (List Rat)) (hw : ∀ o ∈ os, o.length = ncomb)
    (cur : Option Nat) : ∃ v, (minimumThreshold threshold ncomb).result os cur = some v ∧ v.length = ncomb ∧ ∀ i < ncomb,
      ((∃ o ∈ os, o.getD i 0 ≤ threshold) → v.getD i 0 = 1) ∧ ((∀ o ∈ os, threshold < o.getD i 0) → v.getD i 0 = 0) := by
  obtain ⟨s, h1, h2, h3⟩ := fold_entries (minimumThreshold threshold ncomb)
    (fun _ v x => if x ≤ threshold then 1 else v) id 0 0 ncomb (fun _ _ _ => rfl) os 0
    (minimumThreshold threshold ncomb).init (by simp [minimumThreshold, zeros]) (by simpa using hw)
  refine ⟨s, by simp only [Rec.result, h1, Option.bind_some]; rfl, h2, fun i hi => ?_⟩
  rw [h3 i hi]
  have hinit : (minimumThreshold threshold ncomb).init.getD i 0 = 0 := by simp only [minimumThreshold, zeros, getD_replicate]
  rw [hinit]
  simp only [id]
  clear h1 h2 h3 hinit s hw
  have key : ∀ (l : List (List Rat)) (k : Nat) (a : Rat),
      ((∃ o ∈ l, o.getD i 0 ≤ threshold) ∨ a = 1 → (l.zipIdx k).foldl (fun (v : Rat) (y : List Rat × Nat) =>
          if y.1.getD i 0 ≤ threshold then 1 else v) a = 1) ∧
      ((∀ o ∈ l, threshold < o.getD i 0) → (l.zipIdx k).foldl (fun (v : Rat) (y : List Rat × Nat) =>
          if y.1.getD i 0 ≤ threshold then 1 else v) a = a) := by
    intro l
    induction l with
    | nil => intro k a; simp
    | cons o l ih =>
      intro k a
      rw [List.zipIdx_cons, List.foldl_cons]
      refine ⟨fun h => (ih _ _).1 ?_, fun h => ?_⟩
      · by_cases ho : o.getD i 0 ≤ threshold
        · rw [if_pos ho]; exact Or.inr rfl
        · rw [if_neg ho]
          rcases h with ⟨o', ho', e⟩ | h
          · rcases List.mem_cons.1 ho' with rfl | ho'
            · exact absurd e ho
            · exact Or.inl ⟨o', ho', e⟩
          · exact Or.inr h
      · rw [if_neg (not_le.2 (h o (by simp)))]
        exact (ih _ _).2 (fun o' ho' => h o' (by simp [ho']))
  exact ⟨fun h => (key os 0 0).1 (Or.inl h), (key os 0 0).2⟩

/-- **C63 (array of volumes).** Row `k` holds the volumes, or the proportional volumes if asked for, of timestep `k`. -/
theorem C63_array_storage (nts ncomb : Nat) (os : List (List Rat × List Rat)) (h : os.length ≤ nts) (cur : Option Nat) :
    (∃ v, (arrayStorage false nts ncomb).result os cur = some v ∧ v.length = nts ∧
      ∀ k (hk : k < os.length), v[k]? = some os[k].1) ∧
    ∃ v, (arrayStorage true nts ncomb).result os cur = some v ∧ v.length = nts ∧
      ∀ k (hk : k < os.length), v[k]? = some os[k].2 := by
  refine ⟨?_, ?_⟩
  · obtain ⟨v, h1, h2, h3, -⟩ := C40_array 0 (fun o : List Rat × List Rat => if false = true then o.2 else o.1) nts ncomb os h cur
    exact ⟨v, h1, h2, h3⟩
  · obtain ⟨v, h1, h2, h3, -⟩ := C40_array 0 (fun o : List Rat × List Rat => if true = true then o.2 else o.1) nts ncomb os h cur
    exact ⟨v, h1, h2, h3⟩

/-- **C63 (normalised storage), partial.** With the control curve strictly between empty and full: −1 when empty, 0 at the control
curve, 1 when full, strictly increasing with the volume, and linear on both sides of the curve; so always between −1 and 1.
Missing: control curves at 0 and at 1 (`C63_normalised_fails`). -/
theorem C63_normalised_partial (cc : Rat) (h0 : 0 < cc) (h1 : cc < 1) :
    normalised cc 0 = some (-1) ∧ normalised cc cc = some 0 ∧ normalised cc 1 = some 1 ∧
    (∀ vol, ∃ x, normalised cc vol = some x ∧
      (vol < cc → (x + 1) * cc = vol) ∧ (cc ≤ vol → x * (1 - cc) = vol - cc) ∧ (0 ≤ vol → vol ≤ 1 → -1 ≤ x ∧ x ≤ 1)) ∧
    (∀ v w x y, v < w → normalised cc v = some x → normalised cc w = some y → x < y) := by
  have hc : cc ≠ 0 := ne_of_gt h0
  have hc1 : 1 - cc ≠ 0 := by intro h; linarith
  have hp : (0 : Rat) < 1 - cc := by linarith
  have hlow : ∀ v, v < cc → normalised cc v = some (v / cc - 1) := fun v hv => by
    simp only [normalised, if_pos hv, if_neg hc]
  have hhigh : ∀ v, cc ≤ v → normalised cc v = some ((v - cc) / (1 - cc)) := fun v hv => by
    simp only [normalised, if_neg (not_lt.2 hv), if_neg hc1]
  refine ⟨by rw [hlow 0 h0]; norm_num, by rw [hhigh cc (le_refl _)]; simp, by rw [hhigh 1 h1.le, div_self hc1], ?_, ?_⟩
  · intro vol
    by_cases hv : vol < cc
    · refine ⟨_, hlow vol hv, fun _ => by field_simp; ring, fun h => absurd h (not_le.2 hv), fun g0 _ => ?_⟩
      have e1 : 0 ≤ vol / cc := div_nonneg g0 h0.le
      have e2 : vol / cc ≤ 1 := by rw [div_le_one h0]; exact hv.le
      constructor <;> linarith
    · have hv' := not_lt.1 hv
      refine ⟨_, hhigh vol hv', fun h => absurd h hv, fun _ => by field_simp, fun _ g1 => ?_⟩
      have e1 : 0 ≤ (vol - cc) / (1 - cc) := div_nonneg (by linarith) hp.le
      have e2 : (vol - cc) / (1 - cc) ≤ 1 := by rw [div_le_one hp]; linarith
      constructor <;> linarith
  · intro v w x y hvw hx hy
    by_cases hv : v < cc
    · rw [hlow v hv] at hx
      cases hx
      by_cases hw : w < cc
      · rw [hlow w hw] at hy
        cases hy
        have := (div_lt_div_iff_of_pos_right h0).2 hvw
        linarith
      · rw [hhigh w (not_lt.1 hw)] at hy
        cases hy
        have e1 : v / cc < 1 := by rw [div_lt_one h0]; exact hv
        have e2 : 0 ≤ (w - cc) / (1 - cc) := div_nonneg (by have := not_lt.1 hw; linarith) hp.le
        linarith
    · have hv' := not_lt.1 hv
      rw [hhigh v hv'] at hx
      rw [hhigh w (le_trans hv' hvw.le)] at hy
      cases hx; cases hy
      exact (div_lt_div_iff_of_pos_right hp).2 (by linarith)

/-- **C63 fails at the ends.** With the control curve at 100 % a full reservoir stops the run with a division by zero; with the
control curve at 0 an empty reservoir is recorded as 0, not as −1. -/
theorem C63_normalised_fails : normalised 1 1 = none ∧ normalised 0 0 = some 0 := by
  constructor <;> decide +kernel

example : (minimumVolume 2).result [[3, 5], [1, 7], [2, 6]] (some 3) = some [some 1, some 5] ∧
    (minimumThreshold 4 2).result [[3, 5], [1, 7], [2, 6]] (some 3) = some [1, 0] ∧
    normalised (1 / 2) (3 / 4) = some (1 / 2) := by
  refine ⟨by decide +kernel, by decide +kernel, by decide +kernel⟩

/-! ## Rolling recorders -/

private theorem range_perm (w a : Nat) (_hw : 0 < w) : ((List.range' a w).map (· % w)).Perm (List.range w) := by
  have hn : ((List.range' a w).map (· % w)).Nodup := by
    apply List.Nodup.map_on _ List.nodup_range'
    intro x hx y hy e
    simp only [List.mem_range'_1] at hx hy
    by_contra hne
    rcases Nat.lt_or_gt_of_ne hne with h | h
    · have e1 : (y - x) % w = 0 := Nat.sub_mod_eq_zero_of_mod_eq e.symm
      rw [Nat.mod_eq_of_lt (by omega)] at e1
      omega
    · have e1 : (x - y) % w = 0 := Nat.sub_mod_eq_zero_of_mod_eq e
      rw [Nat.mod_eq_of_lt (by omega)] at e1
      omega
  have hs : ((List.range' a w).map (· % w)) ⊆ List.range w := by
    intro x hx
    obtain ⟨y, -, rfl⟩ := List.mem_map.1 hx
    exact List.mem_range.2 (Nat.mod_lt _ (by omega))
  exact (List.subperm_of_subset hn hs).perm_of_length_le (by simp)

private theorem rows_perm (w k : Nat) (hw : 0 < w) :
    ((List.range' (k + 1 - rows w k) (rows w k)).map (· % w)).Perm (List.range (rows w k)) := by
  unfold rows
  split_ifs with h
  · rw [Nat.sub_self, ← List.range_eq_range']
    rw [List.map_congr_left (g := id) (fun x hx => by
      have := List.mem_range.1 hx
      exact Nat.mod_eq_of_lt (by omega)), List.map_id]
  · exact range_perm w _ hw

private theorem next_position (w k : Nat) (hw : 0 < w) :
    (if k % w + 1 ≥ w then 0 else k % w + 1) = (k + 1) % w := by
  have := Nat.mod_lt k hw
  split_ifs with h
  · have : k % w = w - 1 := by omega
    rw [Nat.add_mod, this]
    by_cases h1 : w = 1
    · subst h1; omega
    · rw [Nat.mod_eq_of_lt (show 1 < w by omega), show w - 1 + 1 = w by omega, Nat.mod_self]
  · rw [Nat.add_mod]
    rw [Nat.mod_eq_of_lt (show 1 < w by omega), Nat.mod_eq_of_lt (show k % w + 1 < w by omega)]

/-- What the data of a rolling recorder are to be: rows of timesteps that ran hold for every combination the aggregate of the
values of the last `window` timesteps (of all of them, while fewer have run); other rows are as they were. -/
def RollingData (f : Func) (window ncomb : Nat) (data0 : List (List Res)) (os : List (List Rat)) (data : List (List Res)) : Prop :=
  data.length = data0.length ∧ (∀ k, os.length ≤ k → data.getD k [] = data0.getD k []) ∧
  ∀ k < os.length, (data.getD k []).length = ncomb ∧ ∀ i < ncomb,
    ∃ x, (data.getD k []).getD i .err = .num x ∧
      Aggregates f ((List.range' (k + 1 - min (k + 1) window) (min (k + 1) window)).map fun t => (os.getD t []).getD i 0) x

private theorem rolling_fold (f : Func) (window ncomb : Nat) (rec : Rec Rolling (List Rat)) (data0 : List (List Res))
    (memory0 : List (List Rat)) (hrec : ∀ k o s, rec.after k o s = rollingAfter f window ncomb k o s)
    (hwin : 0 < window) (hmem : ∀ m ∈ memory0, m.length = ncomb) : ∀ (os : List (List Rat)),
    os.length ≤ data0.length → min os.length window ≤ memory0.length → (∀ o ∈ os, o.length = ncomb) →
    ∃ s, rec.fold 0 os ⟨data0, memory0, 0⟩ = some s ∧ RollingData f window ncomb data0 os s.data ∧
      s.position = os.length % window ∧ s.memory.length = memory0.length ∧ (∀ m ∈ s.memory, m.length = ncomb) ∧
      ∀ t < os.length, os.length ≤ t + window → s.memory.getD (t % window) [] = os.getD t [] := by
  intro os
  induction os using List.reverseRecOn with
  | nil =>
    intro _ _ _
    exact ⟨_, rfl, ⟨rfl, fun _ _ => rfl, fun k hk => absurd hk (by simp)⟩, by simp, rfl, hmem, fun t ht => absurd ht (by simp)⟩
  | append_singleton os o ih =>
    intro hd hm ho
    simp only [List.length_append, List.length_singleton] at hd hm
    obtain ⟨s, h1, ⟨d1, d2, d3⟩, h3, h4, h5, h6⟩ := ih (by omega) (by omega) (fun x hx => ho x (List.mem_append_left _ hx))
    have hpre : ∀ k < os.length, (os ++ [o]).getD k [] = os.getD k [] := fun k hk => List.getD_append _ _ _ _ hk
    have hlast : (os ++ [o]).getD os.length [] = o := by
      rw [List.getD_eq_getElem?_getD, List.getElem?_append_right (le_refl _)]; simp
    have hlo : o.length = ncomb := ho o (by simp)
    rw [fold_snoc, h1, Option.bind_some, Nat.zero_add, hrec]
    set n := os.length with hn
    have hmod := Nat.mod_lt n hwin
    have hpos : s.position < s.memory.length := by
      rw [h3, h4]
      have := Nat.mod_le n window
      rcases Nat.le_total (n + 1) window with hh | hh
      · rw [Nat.min_eq_left hh] at hm; omega
      · rw [Nat.min_eq_right hh] at hm; omega
    -- the memory after storing the new row
    set memory := s.memory.set s.position o with hmemory
    have hmlen : memory.length = memory0.length := by rw [hmemory, List.length_set, h4]
    have hmw : ∀ m ∈ memory, m.length = ncomb := by
      intro m hmm
      rcases List.mem_or_eq_of_mem_set hmm with hmm | rfl
      · exact h5 m hmm
      · exact hlo
    have hget : ∀ t < n + 1, n + 1 ≤ t + window → memory.getD (t % window) [] = (os ++ [o]).getD t [] := by
      intro t ht1 ht2
      rw [hmemory, List.getD_eq_getElem?_getD]
      by_cases hte : t = n
      · rw [hte, hlast, h3, List.getElem?_set_self (by rw [← h3]; exact hpos)]; rfl
      · have hne : s.position ≠ t % window := by
          rw [h3]
          intro e
          have e1 : (n - t) % window = 0 := Nat.sub_mod_eq_zero_of_mod_eq e
          rw [Nat.mod_eq_of_lt (by omega)] at e1
          omega
        rw [List.getElem?_set_ne hne, ← List.getD_eq_getElem?_getD, h6 t (by omega) (by omega), hpre t (by omega)]
    have hrows : rows window n = min (n + 1) window := by
      unfold rows
      split_ifs with hh
      · rw [Nat.min_eq_left (by omega)]
      · rw [Nat.min_eq_right (by omega)]
    have hrl : rows window n ≤ memory.length := by rw [hrows, hmlen]; exact hm
    have hr0 : 0 < rows window n := by rw [hrows]; omega
    -- the rows used
    have htake : memory.take (rows window n) = (List.range (rows window n)).map fun p => memory.getD p [] := by
      apply List.ext_getElem
      · simp; omega
      · intro i hi1 hi2
        have : i < memory.length := by simp at hi1; omega
        rw [List.getElem_take, List.getElem_map, List.getElem_range, List.getD_eq_getElem _ _ this]
    have htl : (memory.take (rows window n)).length = rows window n := by rw [List.length_take]; omega
    obtain ⟨out, o1, o2, o3⟩ := C57_temporal_partial f (memory.take (rows window n)) ncomb
      (by intro e; rw [e, List.length_nil] at htl; omega)
      (fun r hr => hmw r (List.mem_of_mem_take hr))
    have hagg : ∀ i < ncomb, ∃ x, out.getD i .err = .num x ∧ Aggregates f
        ((List.range' (n + 1 - min (n + 1) window) (min (n + 1) window)).map fun t => ((os ++ [o]).getD t []).getD i 0) x := by
      intro i hi
      have hperm : ((memory.take (rows window n)).map fun r => r.getD i 0).Perm
          ((List.range' (n + 1 - rows window n) (rows window n)).map fun t => ((os ++ [o]).getD t []).getD i 0) := by
        rw [htake, List.map_map]
        have hp := (rows_perm window n hwin).symm.map (fun p => (memory.getD p []).getD i 0)
        rw [List.map_map] at hp
        refine hp.trans (List.Perm.of_eq ?_)
        apply List.map_congr_left
        intro t ht
        rw [List.mem_range'_1] at ht
        simp only [Function.comp]
        rw [hget t (by omega) (by rw [hrows] at ht; omega)]
      obtain ⟨y, y1, y2⟩ := numpy_spec f
        ((List.range' (n + 1 - rows window n) (rows window n)).map fun t => ((os ++ [o]).getD t []).getD i 0)
        (fun e => by have := congrArg List.length e; rw [List.length_map, List.length_range', List.length_nil] at this; omega)
      rw [hrows] at hperm y1 y2
      have hout : out.getD i .err = numpy f ((memory.take (rows window n)).map fun r => r.getD i 0) := by
        simp only [aggregate2d, Bool.false_eq_true, if_false] at o1
        split_ifs at o1
        cases o1
        rw [List.getD_eq_getElem _ _ (by simpa using hi)]
        simp only [List.getElem_map, List.getElem_range, List.map_map]
        rw [← numpyNan_some]
        congr 1
        rw [List.map_map]
        apply List.map_congr_left
        intro r hr
        have := hmw r (List.mem_of_mem_take hr)
        simp only [Function.comp_def]
        rw [List.getD_eq_getElem _ _ (by simp; omega), List.getD_eq_getElem _ _ (by omega)]
        simp
      refine ⟨y, ?_, y2⟩
      rw [hout, hrows, numpy_perm f hperm, y1]
    refine ⟨⟨s.data.set n out, memory, if s.position + 1 ≥ window then 0 else s.position + 1⟩, ?_, ?_, ?_, hmlen, hmw, ?_⟩
    · simp only [rollingAfter, if_pos hpos]
      rw [← hmemory, o1, Option.bind_some, if_pos (by omega)]
    · refine ⟨by simp [d1], ?_, ?_⟩
      · intro k hk
        rw [List.length_append, List.length_singleton] at hk
        rw [List.getD_eq_getElem?_getD, List.getElem?_set_ne (by omega), ← List.getD_eq_getElem?_getD, d2 k (by omega)]
      · intro k hk
        rw [List.length_append, List.length_singleton] at hk
        by_cases hke : k = n
        · subst hke
          have : (s.data.set n out).getD n [] = out := by
            rw [List.getD_eq_getElem?_getD, List.getElem?_set_self (by omega)]; rfl
          simp only [this]
          exact ⟨o2, hagg⟩
        · have : (s.data.set n out).getD k [] = s.data.getD k [] := by
            rw [List.getD_eq_getElem?_getD, List.getElem?_set_ne (by omega), ← List.getD_eq_getElem?_getD]
          simp only [this]
          obtain ⟨g1, g2⟩ := d3 k (by omega)
          refine ⟨g1, fun i hi => ?_⟩
          obtain ⟨x, x1, x2⟩ := g2 i hi
          refine ⟨x, x1, ?_⟩
          rw [List.map_congr_left (g := fun t => (os.getD t []).getD i 0) (fun t ht => by
            rw [List.mem_range'_1] at ht
            rw [hpre t (by omega)])]
          exact x2
    · simp only [List.length_append, List.length_singleton]
      rw [h3]
      exact next_position window n hwin
    · simp only [List.length_append, List.length_singleton]
      exact hget

/-- **C64 (rolling window).** At every timestep of the run the recorder stores, for every combination, the aggregate of the parameter's
values of that timestep and the previous ones, `window` of them in all (all there are, at the beginning), whatever earlier runs left
in its memory. -/
theorem C64_rolling_window (f : Func) (window nts ncomb : Nat) (memory : List (List Rat)) (hwin : 0 < window)
    (hm : memory.length = nts) (hmw : ∀ m ∈ memory, m.length = ncomb) (os : List (List Rat)) (hos : os.length ≤ nts)
    (hw : ∀ o ∈ os, o.length = ncomb) (cur : Option Nat) :
    ∃ v, (rollingWindow f window nts ncomb memory).result os cur = some v ∧
      RollingData f window ncomb (List.replicate nts (List.replicate ncomb (.num 0))) os v.data := by
  obtain ⟨s, h1, h2, -⟩ := rolling_fold f window ncomb (rollingWindow f window nts ncomb memory)
    (List.replicate nts (List.replicate ncomb (.num 0))) memory (fun _ _ _ => rfl) hwin hmw os (by simpa using hos)
    (by omega) hw
  refine ⟨s, ?_, h2⟩
  simp only [Rec.result, rollingWindow] at h1 ⊢
  rw [h1, Option.bind_some]

/-- **C64 (rolling mean flow).** At every timestep of the run the recorder stores, for every combination, the mean of the flows of that
timestep and the previous ones, `timesteps` of them in all (all there are, at the beginning), whatever earlier runs left in its
memory. -/
theorem C64_rolling_mean_flow (timesteps nts ncomb : Nat) (data : List (List Res)) (memory : List (List Rat))
    (hwin : 0 < timesteps) (hd : data.length = nts) (hm : memory.length = timesteps) (hmw : ∀ m ∈ memory, m.length = ncomb)
    (os : List (List Rat)) (hos : os.length ≤ nts) (hw : ∀ o ∈ os, o.length = ncomb) (cur : Option Nat) :
    ∃ v, (rollingMeanFlow timesteps ncomb data memory).result os cur = some v ∧
      RollingData .mean timesteps ncomb data os v.data := by
  obtain ⟨s, h1, h2, -⟩ := rolling_fold .mean timesteps ncomb (rollingMeanFlow timesteps ncomb data memory)
    data memory (fun _ _ _ => rfl) hwin hmw os (by omega) (by omega) hw
  refine ⟨s, ?_, h2⟩
  simp only [Rec.result, rollingMeanFlow] at h1 ⊢
  rw [h1, Option.bind_some]

/-- **C64 (window in days).** A window given in days is the number of whole timesteps in it, and at least one. -/
theorem C64_days (timesteps days delta n : Nat) (hd : 0 < days) (hdelta : 0 < delta)
    (h : rollingTimesteps timesteps days delta = some n) : 0 < n ∧ n * delta ≤ days ∧ days < (n + 1) * delta := by
  simp only [rollingTimesteps, if_pos hd] at h
  split_ifs at h with h0
  cases h
  refine ⟨Nat.pos_of_ne_zero h0, Nat.div_mul_le_self _ _, ?_⟩
  have := Nat.lt_mul_div_succ days hdelta
  rw [Nat.mul_comm] at this
  exact this

/-- A window of two timesteps over three timesteps and two combinations. -/
example : ∃ v, (rollingWindow .mean 2 3 2 [[9, 9], [9, 9], [9, 9]]).result [[1, 2], [3, 4], [6, 10]] (some 3) = some v ∧
    v.data = [[.num 1, .num 2], [.num 2, .num 3], [.num (9 / 2), .num 7]] := ⟨_, rfl, by decide +kernel⟩

end Verif.Recorders

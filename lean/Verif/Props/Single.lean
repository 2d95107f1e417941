import Verif.Proof.Single
import Mathlib.Data.List.Forall2
/-! # C117: the factor of an array recorder -/

namespace Verif.Float64

/-- **C117 (rounding).** What is kept as the factor is the single nearest to it; if another one is as near, the one chosen is an even multiple of the distance of the two. -/
theorem C117_nearest (x : Rat) :
    IsSingle (single x) ∧ (∀ y, IsSingle y → |single x - x| ≤ |y - x|) ∧
    (∀ y, IsSingle y → y ≠ single x → |y - x| = |single x - x| → ∃ m e : Int, 2 ∣ m ∧ single x = m * (2 : Rat) ^ e ∧ |y - single x| = (2 : Rat) ^ e) :=
  ⟨single_single x, single_nearest x, single_tie x⟩

example : single (1 / 10) = 13421773 / 2 ^ 27 ∧ IsSingle (13421773 / 2 ^ 27) :=
  ⟨by decide +kernel, 13421773, -27, by norm_num, by norm_num, by norm_num⟩

/-- **C117 (what is proved).** Every recorded number is the flow times the factor up to a relative error of 2^-23 (about 1e-7). -/
theorem C117_recorded_partial {factor : Rat} {flows data : List Rat} (h : arrayData factor flows = some data) :
    List.Forall₂ (fun q d => |d - q * factor| ≤ |q * factor| / 2 ^ 23 + |q| / 2 ^ 149 + 1 / 2 ^ 1075) flows data := by
  unfold arrayData arrayFactor at h
  split at h
  · cases h
  · simp only [Option.map_some, Option.some.injEq] at h
    subst h
    rw [List.forall₂_map_right_iff]
    apply List.forall₂_same.2
    intro q _
    have h1 := single_err factor
    have h2 := fl_err (q * single factor)
    generalize single factor = f at h1 h2 ⊢
    have e1 : |q * f - q * factor| ≤ |q * factor| / 2 ^ 24 + |q| / 2 ^ 150 := by
      rw [← mul_sub, abs_mul, abs_mul]
      refine (mul_le_mul_of_nonneg_left h1 (abs_nonneg q)).trans (le_of_eq ?_)
      ring
    have e2 : |q * f| ≤ |q * factor| + (|q * factor| / 2 ^ 24 + |q| / 2 ^ 150) := by
      have := abs_add_le (q * f - q * factor) (q * factor)
      rw [sub_add_cancel] at this
      linarith
    have e3 : |fl (q * f) - q * factor| ≤ |fl (q * f) - q * f| + |q * f - q * factor| := abs_sub_le _ _ _
    generalize fl (q * f) = d at *
    have p1 : 0 ≤ |q * factor| := abs_nonneg _
    have p2 : 0 ≤ |q| := abs_nonneg _
    generalize |q * factor| = A at *
    generalize |q * f| = B at *
    generalize |q| = Q at *
    have hq : (A / 2 ^ 24 + Q / 2 ^ 150) + (A + (A / 2 ^ 24 + Q / 2 ^ 150)) / 2 ^ 53 ≤ A / 2 ^ 23 + Q / 2 ^ 149 := by
      have a1 : A / 2 ^ 24 + A / 2 ^ 53 + A / 2 ^ 77 ≤ A / 2 ^ 23 := by
        have : A / 2 ^ 24 + A / 2 ^ 53 + A / 2 ^ 77 = A * (1 / 2 ^ 24 + 1 / 2 ^ 53 + 1 / 2 ^ 77) := by ring
        rw [this, div_eq_mul_inv A]
        exact mul_le_mul_of_nonneg_left (by norm_num) p1
      have a2 : Q / 2 ^ 150 + Q / 2 ^ 203 ≤ Q / 2 ^ 149 := by
        have : Q / 2 ^ 150 + Q / 2 ^ 203 = Q * (1 / 2 ^ 150 + 1 / 2 ^ 203) := by ring
        rw [this, div_eq_mul_inv Q]
        exact mul_le_mul_of_nonneg_left (by norm_num) p2
      have : (A + (A / 2 ^ 24 + Q / 2 ^ 150)) / 2 ^ 53 = A / 2 ^ 53 + A / 2 ^ 77 + Q / 2 ^ 203 := by ring
      linarith
    have hB : B / 2 ^ 53 ≤ (A + (A / 2 ^ 24 + Q / 2 ^ 150)) / 2 ^ 53 := by gcongr
    linarith

example : arrayData (1 / 8) [3, 10] = some [3 / 8, 5 / 4] := by decide +kernel

/-- **C117 (range).** Factors up to 2^127 (about 1.7e38) can be kept. -/
theorem C117_finite {factor : Rat} (h : |factor| ≤ 2 ^ 127) (flows : List Rat) : ∃ data, arrayData factor flows = some data := by
  have h1 := single_err factor
  have h2 := abs_add_le (single factor - factor) factor
  rw [sub_add_cancel] at h2
  have h3 : |factor| / 2 ^ 24 ≤ 2 ^ 127 / 2 ^ 24 := by gcongr
  have h4 : |single factor| < 2 ^ 128 := by
    have : (2 : Rat) ^ 127 / 2 ^ 24 + 1 / 2 ^ 150 + 2 ^ 127 < 2 ^ 128 := by norm_num
    linarith
  exact ⟨_, by unfold arrayData arrayFactor; rw [if_neg (not_le.2 h4)]; rfl⟩

example : |(1 / 10 : Rat)| ≤ 2 ^ 127 := by decide +kernel

/-- **C117 (exact factors).** With a factor of at most 24 bits, such as whole numbers up to 16777215, halves and quarters, the recorded numbers are the products rounded once. -/
theorem C117_exact {factor : Rat} (hs : IsSingle factor) (hb : |factor| < 2 ^ 128) (flows : List Rat) : arrayData factor flows = some (flows.map fun q => fl (q * factor)) := by
  unfold arrayData arrayFactor
  rw [single_self hs, if_neg (not_le.2 hb)]
  rfl

example : IsSingle (3 / 4) ∧ |(3 / 4 : Rat)| < 2 ^ 128 := ⟨⟨3, -2, by norm_num, by norm_num, by norm_num⟩, by decide +kernel⟩

/-- **C117 (default).** Without a factor (1.0), the flows are recorded as they are. -/
theorem C117_default {flows : List Rat} (h : ∀ q ∈ flows, IsDouble q) : arrayData 1 flows = some flows := by
  rw [C117_exact ⟨1, 0, by norm_num, by norm_num, by norm_num⟩ (by norm_num)]
  congr 1
  conv_rhs => rw [← List.map_id flows]
  apply List.map_congr_left
  intro q hq
  rw [mul_one, fl_self (h q hq), id]

example : ∀ q ∈ [(1 / 2 : Rat), 7], IsDouble q := by
  intro q hq
  simp only [List.mem_cons, List.not_mem_nil, or_false] at hq
  rcases hq with rfl | rfl
  · exact ⟨1, -1, by norm_num, by norm_num, by norm_num⟩
  · exact ⟨7, 0, by norm_num, by norm_num, by norm_num⟩

/-- **C117 (totals).** With such a factor and timesteps of a day, the numbers of the array recorder add up (one after the other) to the value of a `TotalFlowNodeRecorder` with the same factor. -/
theorem C117_total {factor : Rat} (hs : IsSingle factor) (hb : |factor| < 2 ^ 128) (flows : List Rat) :
    (arrayData factor flows).map (List.foldl (fun v d => fl (v + d)) 0) = some (totalFlow factor (flows.map fun q => (q, 1))) := by
  rw [C117_exact hs hb]
  simp only [Option.map_some, Option.some.injEq]
  unfold totalFlow
  rw [List.foldl_map, List.foldl_map]
  simp only [mul_one, fl_self (fl_double _)]

/-- **C117 fails for other factors.** With the factor 0.1, as a double, and a flow of 1e9, an array recorder records 100000001.49 where a `TotalFlowNodeRecorder` with the same factor gives 100000000; the factor
read from the array recorder is not the one that was set. -/
theorem C117_single_fails :
    (∃ d, arrayData (fl (1 / 10)) [1000000000] = some [d] ∧ d > 100000001) ∧ totalFlow (fl (1 / 10)) [(1000000000, 1)] = 100000000 ∧
    arrayFactor (fl (1 / 10)) ≠ some (fl (1 / 10)) :=
  ⟨⟨fl (1000000000 * single (fl (1 / 10))), by decide +kernel, by decide +kernel⟩, by decide +kernel, by decide +kernel⟩

/-- **C117 fails for large factors.** With the factor 1e39 everything recorded is infinite (or NaN for flow zero), where the mean flow with the same factor is an ordinary number. -/
theorem C117_large_fails : ∀ flows, arrayData (10 ^ 39) flows = none ∧ meanFlow (10 ^ 39) [1, 1] 1 = fl (2 * fl (10 ^ 39)) := by
  intro flows
  refine ⟨?_, by decide +kernel⟩
  have : arrayFactor (10 ^ 39) = none := by decide +kernel
  unfold arrayData
  rw [this]
  rfl

end Verif.Float64

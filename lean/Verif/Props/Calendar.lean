import Verif.Model.Calendar
import Verif.Spec.Calendar
import Mathlib.Tactic.IntervalCases
import Mathlib.Tactic.Linarith
import Mathlib.Tactic.FieldSimp
import Mathlib.Tactic.Ring
import Mathlib.Tactic.NormNum

/-! # C08, C09: calendar fields of a timestep -/

namespace Verif.Calendar

/-- **C08 (leap years).** The bit-level test is the Gregorian rule, for every year. -/
theorem C08_leap_rule (y : Nat) : isLeapYear y = true ↔ Gregorian y := by
  have h3 : y &&& 3 = y % 4 := Nat.and_two_pow_sub_one_eq_mod y 2
  have h15 : y &&& 15 = y % 16 := Nat.and_two_pow_sub_one_eq_mod y 4
  unfold isLeapYear Gregorian
  rw [h3, h15]
  simp only [Bool.and_eq_true, beq_iff_eq, Bool.or_eq_true, bne_iff_ne, ne_eq]
  omega

/-- The index of a month and day in a leap year, i.e. the position in a table of 366 daily values. -/
private theorem index_eq (leap : Bool) (m d : Nat) (h : ValidDate leap m d) :
    dayofyearIndex leap (dayOfYear leap m d) + 1 = dayOfYear true m d := by
  obtain ⟨h1, h2, h3, h4⟩ := h
  unfold dayofyearIndex dayOfYear
  cases leap
  · interval_cases m <;> simp [daysBefore, monthLength] at h4 ⊢ <;> split_ifs <;> omega
  · simp; omega

/-- **C08 (calendar aligned).** The daily index depends only on month and day: it is the same in leap and non-leap
years (for every year of either kind). -/
theorem C08_same_index (y y' m d : Nat) (h : ValidDate (isLeapYear y) m d) (h' : ValidDate (isLeapYear y') m d) :
    dayofyearIndex (isLeapYear y) (dayOfYear (isLeapYear y) m d) =
      dayofyearIndex (isLeapYear y') (dayOfYear (isLeapYear y') m d) := by
  have := index_eq _ m d h
  have := index_eq _ m d h'
  omega

private theorem valid_leap {leap : Bool} {m d : Nat} (h : ValidDate leap m d) : ValidDate true m d := by
  obtain ⟨h1, h2, h3, h4⟩ := h
  refine ⟨h1, h2, h3, le_trans h4 ?_⟩
  cases leap
  · unfold monthLength; split_ifs <;> simp_all
  · exact le_refl _

/-- **C08 (injective).** Different month/day pairs get different indices, also across different years. -/
theorem C08_injective (y y' m d m' d' : Nat)
    (h : ValidDate (isLeapYear y) m d) (h' : ValidDate (isLeapYear y') m' d')
    (he : dayofyearIndex (isLeapYear y) (dayOfYear (isLeapYear y) m d) =
      dayofyearIndex (isLeapYear y') (dayOfYear (isLeapYear y') m' d')) : m = m' ∧ d = d' := by
  have e1 := index_eq _ m d h
  have e2 := index_eq _ m' d' h'
  have he2 : dayOfYear true m d = dayOfYear true m' d' := by omega
  obtain ⟨a1, a2, a3, a4⟩ := valid_leap h
  obtain ⟨b1, b2, b3, b4⟩ := valid_leap h'
  clear e1 e2 h h' he
  unfold dayOfYear at he2
  interval_cases m <;> interval_cases m' <;> simp [daysBefore, monthLength] at he2 a4 b4 ⊢ <;> omega

/-- **C08 (range).** The index is between 0 and 365. -/
theorem C08_range (y m d : Nat) (h : ValidDate (isLeapYear y) m d) :
    dayofyearIndex (isLeapYear y) (dayOfYear (isLeapYear y) m d) < 366 := by
  have e1 := index_eq _ m d h
  obtain ⟨a1, a2, a3, a4⟩ := valid_leap h
  generalize dayofyearIndex (isLeapYear y) (dayOfYear (isLeapYear y) m d) = i at e1 ⊢
  unfold dayOfYear at e1
  interval_cases m <;> simp [daysBefore, monthLength] at e1 a4 ⊢ <;> omega

/-- **C08 (onto).** Every index below 366 is used by some month and day (so a 366 value profile has no dead
entries). -/
theorem C08_onto (i : Nat) (hi : i < 366) :
    ∃ m d, ValidDate true m d ∧ dayofyearIndex true (dayOfYear true m d) = i := by
  have key : ∀ m, 1 ≤ m → m ≤ 12 → daysBefore true m ≤ i → i < daysBefore true m + monthLength true m →
      ∃ m d, ValidDate true m d ∧ dayofyearIndex true (dayOfYear true m d) = i := by
    intro m h1 h2 h3 h4
    refine ⟨m, i - daysBefore true m + 1, ⟨h1, h2, by omega, by omega⟩, ?_⟩
    simp [dayofyearIndex, dayOfYear]; omega
  have hk := fun m h1 h2 => key m h1 h2
  rcases lt_or_ge i 31 with h | h
  · exact hk 1 (by decide) (by decide) (by simp [daysBefore]) (by simpa [daysBefore, monthLength] using h)
  rcases lt_or_ge i 60 with h' | h
  · exact hk 2 (by decide) (by decide) (by simpa [daysBefore, monthLength] using h)
      (by simpa [daysBefore, monthLength] using h')
  rcases lt_or_ge i 91 with h' | h
  · exact hk 3 (by decide) (by decide) (by simpa [daysBefore, monthLength] using h)
      (by simpa [daysBefore, monthLength] using h')
  rcases lt_or_ge i 121 with h' | h
  · exact hk 4 (by decide) (by decide) (by simpa [daysBefore, monthLength] using h)
      (by simpa [daysBefore, monthLength] using h')
  rcases lt_or_ge i 152 with h' | h
  · exact hk 5 (by decide) (by decide) (by simpa [daysBefore, monthLength] using h)
      (by simpa [daysBefore, monthLength] using h')
  rcases lt_or_ge i 182 with h' | h
  · exact hk 6 (by decide) (by decide) (by simpa [daysBefore, monthLength] using h)
      (by simpa [daysBefore, monthLength] using h')
  rcases lt_or_ge i 213 with h' | h
  · exact hk 7 (by decide) (by decide) (by simpa [daysBefore, monthLength] using h)
      (by simpa [daysBefore, monthLength] using h')
  rcases lt_or_ge i 244 with h' | h
  · exact hk 8 (by decide) (by decide) (by simpa [daysBefore, monthLength] using h)
      (by simpa [daysBefore, monthLength] using h')
  rcases lt_or_ge i 274 with h' | h
  · exact hk 9 (by decide) (by decide) (by simpa [daysBefore, monthLength] using h)
      (by simpa [daysBefore, monthLength] using h')
  rcases lt_or_ge i 305 with h' | h
  · exact hk 10 (by decide) (by decide) (by simpa [daysBefore, monthLength] using h)
      (by simpa [daysBefore, monthLength] using h')
  rcases lt_or_ge i 335 with h' | h
  · exact hk 11 (by decide) (by decide) (by simpa [daysBefore, monthLength] using h)
      (by simpa [daysBefore, monthLength] using h')
  · exact hk 12 (by decide) (by decide) (by simpa [daysBefore, monthLength] using h)
      (by simpa [daysBefore, monthLength] using hi)

/-- **C08 (29 February).** It is index 59, in every leap year; and no date of a non-leap year has index 59. -/
theorem C08_feb29 (y m d : Nat) (h : ValidDate (isLeapYear y) m d) :
    dayofyearIndex (isLeapYear y) (dayOfYear (isLeapYear y) m d) = 59 ↔ m = 2 ∧ d = 29 := by
  have e1 := index_eq _ m d h
  obtain ⟨a1, a2, a3, a4⟩ := valid_leap h
  generalize dayofyearIndex (isLeapYear y) (dayOfYear (isLeapYear y) m d) = i at e1 ⊢
  unfold dayOfYear at e1
  interval_cases m <;> simp [daysBefore, monthLength] at e1 a4 ⊢ <;> omega

/-- **C08 (week index).** Between 0 and 51; week `w < 51` is exactly the days `7w .. 7w+6`, and week 51 the rest. -/
theorem C08_week (i w : Nat) (hi : i < 366) :
    weekIndex i ≤ 51 ∧ (weekIndex i = w ↔ if w < 51 then 7 * w ≤ i ∧ i ≤ 7 * w + 6 else w = 51 ∧ 357 ≤ i) := by
  unfold weekIndex
  split_ifs <;> omega

example : ValidDate (isLeapYear 2023) 3 1 ∧ ValidDate (isLeapYear 2024) 2 29 := by unfold ValidDate; decide

/-! ## C09 -/

/-- A timestep starting at `s` and `n > 0` nanoseconds long, with the fields pandas gives it: the years contain the first
and last nanosecond. `days` is the length in days. -/
structure IsTimestep (t : YearSplit) (n : Int) : Prop where
  pos : 0 < n
  last : t.endNs = t.startNs + n - 1
  year : InYear t.year t.startNs
  endYear : InYear t.endYear t.endNs
  days : t.days = (n : Rat) / 86400000000000

/-- Full statement of C09. -/
def C09_exact_split : Prop :=
  ∀ t n, IsTimestep t n → n ≤ 366 * 86400000000000 →
    0 ≤ daysInCurrentYear newYearNs t ∧ 0 ≤ daysInNextYear newYearNs t ∧
    daysInCurrentYear newYearNs t + daysInNextYear newYearNs t = t.days ∧
    (t.year = t.endYear → daysInNextYear newYearNs t = 0)

/-- **C09 fails:** the sum is one nanosecond short when the timestep crosses a new year. Witness: two days from
1970-12-31. -/
theorem C09_fails : ¬ C09_exact_split := by
  intro h
  have := (h ⟨newYearNs 1971 - 86400000000000, newYearNs 1971 + 86400000000000 - 1, 1970, 1971, 2⟩
    (2 * 86400000000000) ⟨by norm_num, by norm_num; ring, by unfold InYear; decide, by unfold InYear; decide, by norm_num⟩
    (by norm_num)).2.2.1
  revert this
  unfold daysInCurrentYear daysInNextYear nsPerDay
  norm_num
  intro h
  simp only [newYearNs, daysToYear] at h
  norm_num at h

theorem newYearNs_mono_step (y : Int) : newYearNs y < newYearNs (y + 1) := by
  unfold newYearNs daysToYear; omega

theorem newYearNs_mono {a b : Int} (h : a ≤ b) : newYearNs a ≤ newYearNs b := by
  unfold newYearNs daysToYear; omega

/-- **C09, partial.** Both parts are non-negative, the second is zero when the timestep stays in one year, and the sum is
the length of the timestep less exactly one nanosecond if it crosses a new year (and exactly the length otherwise).
This holds for every length, also beyond a year. Missing compared to C09: the nanosecond. -/
theorem C09_partial (t : YearSplit) (n : Int) (ht : IsTimestep t n) :
    0 ≤ daysInCurrentYear newYearNs t ∧ 0 ≤ daysInNextYear newYearNs t ∧
    (t.year = t.endYear → daysInNextYear newYearNs t = 0 ∧ daysInCurrentYear newYearNs t = t.days) ∧
    (t.year ≠ t.endYear →
      daysInCurrentYear newYearNs t + daysInNextYear newYearNs t = t.days - 1 / 86400000000000) := by
  obtain ⟨hn, hl, ⟨hy1, hy2⟩, ⟨he1, he2⟩, hd⟩ := ht
  have hn' : (0 : Rat) < n := by exact_mod_cast hn
  unfold daysInCurrentYear daysInNextYear nsPerDay
  by_cases hc : t.year = t.endYear
  · simp only [hc, ne_eq, not_true_eq_false, if_false, le_refl, and_self, false_imp_iff, and_true,
      forall_const]
    rw [hd]; exact div_nonneg hn'.le (by norm_num)
  · simp only [ne_eq, hc, not_false_eq_true, if_true, false_imp_iff, true_and, forall_const]
    have hlt : t.year < t.endYear := by
      rcases lt_trichotomy t.year t.endYear with h | h | h
      · exact h
      · exact absurd h hc
      · have := newYearNs_mono (show t.endYear + 1 ≤ t.year by omega)
        omega
    have hge := newYearNs_mono (show t.year + 1 ≤ t.endYear by omega)
    refine ⟨?_, ?_, ?_⟩
    · apply div_nonneg _ (by norm_num)
      exact_mod_cast (by omega : (0 : Int) ≤ newYearNs t.endYear - t.startNs)
    · apply div_nonneg _ (by norm_num)
      exact_mod_cast (by omega : (0 : Int) ≤ t.endNs - newYearNs t.endYear)
    · rw [hd, hl]
      push_cast
      ring

/-- **C09 (attribution).** When the timestep crosses into the year after its start, the first part is the time from the
start to the new year (exactly). -/
theorem C09_attribution (t : YearSplit) (n : Int) (_ht : IsTimestep t n) (hnext : t.endYear = t.year + 1) :
    daysInCurrentYear newYearNs t * 86400000000000 = (newYearNs (t.year + 1) - t.startNs : Int) := by
  unfold daysInCurrentYear nsPerDay
  rw [if_pos (by omega), hnext]
  push_cast
  field_simp

example : IsTimestep ⟨newYearNs 1971 - 86400000000000, newYearNs 1971 + 86400000000000 - 1, 1970, 1971, 2⟩
    (2 * 86400000000000) :=
  ⟨by norm_num, by norm_num; ring, by unfold InYear; decide, by unfold InYear; decide, by norm_num⟩

/-- The specification's calendar is consistent: year lengths are 365 or 366 days according to the Gregorian rule. -/
theorem newYearNs_length (y : Nat) :
    newYearNs (y + 1) - newYearNs y = (if isLeapYear y then 366 else 365) * 86400000000000 := by
  have h := C08_leap_rule y
  unfold Gregorian at h
  have h1 : ((400 : Nat) ∣ y ↔ (y:Int) % 400 = 0) := by omega
  unfold newYearNs daysToYear
  by_cases hl : isLeapYear y = true
  · rw [if_pos hl]; rw [hl] at h; simp at h; omega
  · rw [if_neg hl]; simp only [hl] at h; simp at h; omega

end Verif.Calendar

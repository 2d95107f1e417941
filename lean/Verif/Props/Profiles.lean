import Verif.Model.Profiles
import Verif.Spec.Profiles
import Verif.Props.Calendar
import Mathlib.Algebra.Order.Field.Basic
import Mathlib.Tactic.Positivity
/-! # C38: annual profiles -/

namespace Verif.Profiles

open Verif.Calendar

/-- The date `y-m-d` as a timestep reports it: year, month and one-based day of the year. -/
def dateOf (y m d : Nat) : Date := ⟨y, m, dayOfYear (isLeapYear y) m d⟩

private theorem index_eq (l : Bool) (m d : Nat) (h : ValidDate l m d) :
    dayofyearIndex l (dayOfYear l m d) + 1 = dayOfYear true m d := by
  obtain ⟨h1, h2, h3, h4⟩ := h
  unfold dayofyearIndex dayOfYear
  cases l
  · interval_cases m <;> simp [daysBefore, monthLength] at h4 ⊢ <;> split_ifs <;> omega
  · simp; omega

theorem index_date (y m d : Nat) (h : ValidDate (isLeapYear y) m d) : (dateOf y m d).index + 1 = dayOfYear true m d :=
  index_eq _ m d h

/-- **C38 (in range).** On every date of every year, a constructed daily, weekly or monthly profile finds its value in the table: position in a leap year, week
number capped at the 52nd, month. -/
theorem C38_in_range (values table : List Rat) (y m d : Nat) (h : ValidDate (isLeapYear y) m d) :
    (daily values = some table → ∃ v, dailyValue table (dateOf y m d) = some v ∧ values[dayOfYear true m d - 1]? = some v) ∧
    (weekly values = some table → ∃ v, weeklyValue table (dateOf y m d) = some v ∧ values[min ((dayOfYear true m d - 1) / 7) 51]? = some v) ∧
    (monthly values = some table → ∃ v, monthlyValue table (dateOf y m d) = some v ∧ values[m - 1]? = some v) := by
  have hi := index_date y m d h
  have hr := C08_range y m d h
  change (dateOf y m d).index < 366 at hr
  refine ⟨fun ht => ?_, fun ht => ?_, fun ht => ?_⟩
  · unfold daily at ht
    split at ht
    · cases ht
    · rename_i hl
      injection ht with ht
      subst ht
      unfold dailyValue
      have e : dayOfYear true m d - 1 = (dateOf y m d).index := by omega
      rw [e]
      exact ⟨_, List.getElem?_eq_getElem (by omega), List.getElem?_eq_getElem (by omega)⟩
  · have hv : 52 ≤ values.length ∧ values = table := by
      unfold weekly at ht
      simp only at ht
      by_cases h53 : values.length = 53
      · simp [h53] at ht
        exact ⟨by omega, ht⟩
      · rw [if_neg h53] at ht
        split at ht
        · cases ht
        · rename_i h52
          injection ht with ht
          exact ⟨by omega, ht⟩
    obtain ⟨hl, rfl⟩ := hv
    unfold weeklyValue weekIndex
    have e : min ((dayOfYear true m d - 1) / 7) 51 = if (dateOf y m d).index ≥ 364 then 51 else (dateOf y m d).index / 7 := by
      split <;> omega
    rw [e]
    have hb : (if (dateOf y m d).index ≥ 364 then 51 else (dateOf y m d).index / 7) < values.length := by split <;> omega
    exact ⟨_, List.getElem?_eq_getElem hb, List.getElem?_eq_getElem hb⟩
  · unfold monthly at ht
    split at ht
    · cases ht
    · rename_i hl
      injection ht with ht
      subst ht
      unfold monthlyValue dateOf
      have := h.1
      have := h.2.1
      exact ⟨_, List.getElem?_eq_getElem (by simp only; omega), List.getElem?_eq_getElem (by omega)⟩

/-- A table of the right length exists, and a date. -/
example : daily (List.replicate 366 1) = some (List.replicate 366 1) ∧ weekly (List.replicate 53 1) = some (List.replicate 53 1) ∧
    ValidDate (isLeapYear 2016) 2 29 := by unfold ValidDate; decide +kernel

/-- **C38 (lengths).** Exactly the tables of 366, of 52 or 53, and of 12 values are accepted. -/
theorem C38_lengths (values : List Rat) :
    (daily values ≠ none ↔ values.length = 366) ∧ (weekly values ≠ none ↔ values.length = 52 ∨ values.length = 53) ∧
      (monthly values ≠ none ↔ values.length = 12) := by
  unfold daily weekly monthly
  refine ⟨?_, ?_, ?_⟩
  · split <;> simp_all
  · simp only
    by_cases h : values.length = 53
    · simp [h]
    · simp only [h, if_false]
      split <;> simp_all
  · split <;> simp_all

/-- **C38 (month and day only).** The value on a date is the same in every year that has the date. -/
theorem C38_every_year (table : List Rat) (dy : InterpDay) (y y' m d : Nat) (h : ValidDate (isLeapYear y) m d) (h' : ValidDate (isLeapYear y') m d) :
    dailyValue table (dateOf y m d) = dailyValue table (dateOf y' m d) ∧ weeklyValue table (dateOf y m d) = weeklyValue table (dateOf y' m d) ∧
    monthlyValue table (dateOf y m d) = monthlyValue table (dateOf y' m d) ∧
    interpolatedValue dy table (dateOf y m d) = interpolatedValue dy table (dateOf y' m d) := by
  have e : (dateOf y m d).index = (dateOf y' m d).index := C08_same_index y y' m d h h'
  unfold dailyValue weeklyValue monthlyValue interpolatedValue
  rw [e]
  exact ⟨rfl, rfl, rfl, rfl⟩

/-! ### Interpolation -/

theorem spread_eq (values : Nat → Rat) (i : Nat) (hi : i < 366) : spread values i = values (if i < 59 then i else i - 1) := by
  have key : ∀ n, n ≤ 365 → ∀ i, (List.range n).foldl (spreadStep values) (fun _ => 0) i =
      if i < 59 ∧ i < n then values i else if 59 ≤ i ∧ i - 1 < n then values (i - 1) else 0 := by
    intro n
    induction n with
    | zero => intro _ i; simp
    | succ n ih =>
      intro hn i
      rw [List.range_succ, List.foldl_append, List.foldl_cons, List.foldl_nil]
      have ih := ih (by omega)
      generalize (List.range n).foldl (spreadStep values) (fun _ => 0) = A at ih ⊢
      unfold spreadStep
      by_cases h1 : n < 58
      · simp only [h1, if_true]
        by_cases hin : i = n
        · subst hin
          have : i < 59 ∧ i < i + 1 := by omega
          simp [this]
        · simp only [hin, if_false]
          rw [ih]
          have e1 : (i < 59 ∧ i < n) ↔ (i < 59 ∧ i < n + 1) := by omega
          have e2 : ¬ (59 ≤ i ∧ i - 1 < n) := by omega
          have e3 : ¬ (59 ≤ i ∧ i - 1 < n + 1) := by omega
          simp only [e1, e2, e3]
      · simp only [h1, if_false]
        by_cases h2 : n = 58
        · subst h2
          simp only [if_true]
          by_cases hin : i = 58 ∨ i = 58 + 1
          · simp only [hin, if_true]
            rcases hin with rfl | rfl <;> simp
          · simp only [hin, if_false]
            rw [ih]
            have e1 : (i < 59 ∧ i < 58) ↔ (i < 59 ∧ i < 58 + 1) := by omega
            have e2 : (59 ≤ i ∧ i - 1 < 58) ↔ (59 ≤ i ∧ i - 1 < 58 + 1) := by omega
            simp only [e1, e2]
        · simp only [h2, if_false]
          by_cases hin : i = n + 1
          · subst hin
            have e1 : ¬ (n + 1 < 59 ∧ n + 1 < n + 1) := by omega
            have e2 : 59 ≤ n + 1 ∧ n + 1 - 1 < n + 1 := by omega
            simp only [e1, e2, if_true, if_false, and_self]
            simp
          · simp only [hin, if_false]
            rw [ih]
            have e1 : (i < 59 ∧ i < n) ↔ (i < 59 ∧ i < n + 1) := by omega
            have e2 : (59 ≤ i ∧ i - 1 < n) ↔ (59 ≤ i ∧ i - 1 < n + 1) := by omega
            simp only [e1, e2]
  unfold spread
  rw [key 365 (le_refl _)]
  split <;> rename_i h
  · simp [h.1]
  · have : 59 ≤ i ∧ i - 1 < 365 := by omega
    simp only [this, and_self, if_true]
    rw [if_neg (by omega)]

private theorem interpolatedValue_eq (dy : InterpDay) (values : List Rat) (y m d : Nat) (h : ValidDate (isLeapYear y) m d) :
    interpolatedValue dy values (dateOf y m d) =
      some (interp (if dayOfYear true m d ≤ 59 then dayOfYear true m d else dayOfYear true m d - 1) (knots dy values).1 (knots dy values).2) := by
  have hi := index_date y m d h
  have hr := C08_range y m d h
  change (dateOf y m d).index < 366 at hr
  unfold interpolatedValue interpolated
  simp only [List.getElem?_map, List.getElem?_range hr, Option.map_some]
  rw [spread_eq _ _ hr]
  congr 2
  split_ifs <;> omega

/-- The day of month `m` that a date in it is interpolated at: the 29th of February is treated as the 28th. -/
def profileDay (m d : Nat) : Nat := if m = 2 ∧ d = 29 then 28 else d

theorem doy_split (m d : Nat) (h1 : 1 ≤ m) (h2 : m ≤ 12) (h3 : 1 ≤ d) (h4 : d ≤ monthLength true m) :
    (if dayOfYear true m d ≤ 59 then dayOfYear true m d else dayOfYear true m d - 1) = daysBefore false m + profileDay m d ∧
    1 ≤ profileDay m d ∧ profileDay m d ≤ monthLength false m := by
  unfold dayOfYear profileDay
  interval_cases m <;> simp [daysBefore, monthLength] at h4 ⊢ <;> (try split_ifs) <;> omega

theorem valid_true {l : Bool} {m d : Nat} (h : ValidDate l m d) : ValidDate true m d := by
  obtain ⟨h1, h2, h3, h4⟩ := h
  refine ⟨h1, h2, h3, le_trans h4 ?_⟩
  cases l
  · unfold monthLength; split_ifs <;> simp_all
  · exact le_refl _

/-- **C38 (interpolation, first).** With `interp_day="first"`, on every date of every year the value is the straight line from the month's value on its first
day to the next month's value on the next month's first day (January after December; the 29th of February repeats the 28th). -/
theorem C38_interp_first (values : List Rat) (hl : values.length = 12) (y m d : Nat) (h : ValidDate (isLeapYear y) m d) :
    interpolatedValue .first values (dateOf y m d) = some (values.getD (m - 1) 0 +
      (values.getD (m % 12) 0 - values.getD (m - 1) 0) * (((profileDay m d - 1 : Nat) : Rat) / (monthLength false m : Rat))) := by
  rw [interpolatedValue_eq _ _ y m d h]
  obtain ⟨h1, h2, h3, h4⟩ := valid_true h
  obtain ⟨e, p1, p2⟩ := doy_split m d h1 h2 h3 h4
  rw [e]
  generalize profileDay m d = p at *
  obtain ⟨q, rfl⟩ : ∃ q, p = q + 1 := ⟨p - 1, by omega⟩
  match values, hl with
  | [v1, v2, v3, v4, v5, v6, v7, v8, v9, v10, v11, v12], _ =>
  clear e h h3 h4 p1
  congr 1
  interval_cases m <;> simp [daysBefore, monthLength, knots, knotDays, monthDays2015, interp, interpFrom] at p2 ⊢ <;>
    (repeat (first | rw [if_neg (by omega)] | rw [if_pos (by omega)])) <;> ring

/-- **C38 (interpolation, last).** With `interp_day="last"`, on every date of every year the value is the straight line from the previous month's value on its last day
to the month's value on its last day (December before January; the 29th of February repeats the 28th). -/
theorem C38_interp_last (values : List Rat) (hl : values.length = 12) (y m d : Nat) (h : ValidDate (isLeapYear y) m d) :
    interpolatedValue .last values (dateOf y m d) = some (values.getD ((m + 10) % 12) 0 +
      (values.getD (m - 1) 0 - values.getD ((m + 10) % 12) 0) * ((profileDay m d : Rat) / (monthLength false m : Rat))) := by
  rw [interpolatedValue_eq _ _ y m d h]
  obtain ⟨h1, h2, h3, h4⟩ := valid_true h
  obtain ⟨e, p1, p2⟩ := doy_split m d h1 h2 h3 h4
  rw [e]
  generalize profileDay m d = p at *
  match values, hl with
  | [v1, v2, v3, v4, v5, v6, v7, v8, v9, v10, v11, v12], _ =>
  clear e h h3 h4
  congr 1
  by_cases hp : p = monthLength false m
  · subst hp
    clear p1 p2
    interval_cases m <;> simp [daysBefore, monthLength, knots, knotDays, monthDays2015, interp, interpFrom]
  · have p2 : p < monthLength false m := by omega
    clear hp
    interval_cases m <;> simp [daysBefore, monthLength, knots, knotDays, monthDays2015, interp, interpFrom] at p2 ⊢ <;>
      (repeat (first | rw [if_neg (by omega)] | rw [if_pos (by omega)])) <;> ring

/-- Twelve values, and the last day of February in a leap year. -/
example : interpolatedValue .last [1, 2, 3, 4, 5, 6, 7, 8, 9, 10, 11, 12] (dateOf 2016 2 29) = some 2 ∧
    interpolatedValue .first [1, 2, 3, 4, 5, 6, 7, 8, 9, 10, 11, 12] (dateOf 2015 12 17) = some (12 + (1 - 12) * (16 / 31)) := by decide +kernel

private theorem convex (a b w lo hi : Rat) (h0 : 0 ≤ w) (h1 : w ≤ 1) (ha : lo ≤ a ∧ a ≤ hi) (hb : lo ≤ b ∧ b ≤ hi) :
    lo ≤ a + (b - a) * w ∧ a + (b - a) * w ≤ hi := by
  constructor <;> nlinarith

/-- **C38 (between).** An interpolated profile is the month's value on every knot day and on every date lies between the two neighbouring monthly values. -/
theorem C38_interp_between (values : List Rat) (hl : values.length = 12) (y m d : Nat) (h : ValidDate (isLeapYear y) m d) :
    (d = 1 → interpolatedValue .first values (dateOf y m d) = some (values.getD (m - 1) 0)) ∧
    (d = monthLength (isLeapYear y) m → interpolatedValue .last values (dateOf y m d) = some (values.getD (m - 1) 0)) ∧
    (∃ v, interpolatedValue .first values (dateOf y m d) = some v ∧ min (values.getD (m - 1) 0) (values.getD (m % 12) 0) ≤ v ∧
      v ≤ max (values.getD (m - 1) 0) (values.getD (m % 12) 0)) ∧
    (∃ v, interpolatedValue .last values (dateOf y m d) = some v ∧ min (values.getD ((m + 10) % 12) 0) (values.getD (m - 1) 0) ≤ v ∧
      v ≤ max (values.getD ((m + 10) % 12) 0) (values.getD (m - 1) 0)) := by
  obtain ⟨h1, h2, h3, h4⟩ := valid_true h
  obtain ⟨-, p1, p2⟩ := doy_split m d h1 h2 h3 h4
  have hM : (0 : Rat) < (monthLength false m : Rat) := by exact_mod_cast (by omega : 0 < monthLength false m)
  have hp : (profileDay m d : Rat) ≤ monthLength false m := by exact_mod_cast p2
  have hq : ((profileDay m d - 1 : Nat) : Rat) ≤ monthLength false m := by exact_mod_cast (by omega : profileDay m d - 1 ≤ monthLength false m)
  rw [C38_interp_first values hl y m d h, C38_interp_last values hl y m d h]
  refine ⟨?_, ?_, ?_, ?_⟩
  · rintro rfl
    simp [profileDay]
  · intro e
    have : profileDay m d = monthLength false m := by
      unfold profileDay
      have := h.2.2.2
      cases hly : isLeapYear y
      · rw [hly] at e
        rw [e]
        unfold monthLength
        interval_cases m <;> simp
      · rw [hly] at e
        rw [e]
        unfold monthLength
        interval_cases m <;> simp
    rw [this, div_self hM.ne']
    congr 1
    ring
  · exact ⟨_, rfl, convex _ _ _ _ _ (by positivity) (by rw [div_le_one hM]; exact hq) ⟨min_le_left _ _, le_max_left _ _⟩ ⟨min_le_right _ _, le_max_right _ _⟩⟩
  · exact ⟨_, rfl, convex _ _ _ _ _ (by positivity) (by rw [div_le_one hM]; exact hp) ⟨min_le_left _ _, le_max_left _ _⟩ ⟨min_le_right _ _, le_max_right _ _⟩⟩

/-- **C38 (daily values).** `get_daily_values` of a monthly profile without interpolation has 366 entries; the one at a date's index is the value the parameter has on that date. -/
theorem C38_daily_values (values : List Rat) (hl : values.length = 12) (y m d : Nat) (h : ValidDate (isLeapYear y) m d) :
    (dailyValues values).length = 366 ∧ (dailyValues values)[(dateOf y m d).index]? = monthlyValue values (dateOf y m d) := by
  have hi := index_date y m d h
  obtain ⟨h1, h2, h3, h4⟩ := valid_true h
  generalize hx : (dateOf y m d).index = i at *
  unfold monthlyValue dateOf
  match values, hl with
  | [v1, v2, v3, v4, v5, v6, v7, v8, v9, v10, v11, v12], _ =>
  constructor
  · simp only [dailyValues, List.zip_cons_cons, List.zip_nil_right, List.flatMap_cons, List.flatMap_nil, List.append_nil, List.length_append,
      List.length_replicate]
  · have hd : dailyValues [v1, v2, v3, v4, v5, v6, v7, v8, v9, v10, v11, v12] = List.replicate 31 v1 ++ (List.replicate 29 v2 ++ (List.replicate 31 v3 ++
        (List.replicate 30 v4 ++ (List.replicate 31 v5 ++ (List.replicate 30 v6 ++ (List.replicate 31 v7 ++ (List.replicate 31 v8 ++ (List.replicate 30 v9 ++
        (List.replicate 31 v10 ++ (List.replicate 30 v11 ++ List.replicate 31 v12)))))))))) := by
      unfold dailyValues
      rw [List.zip_cons_cons, List.zip_cons_cons, List.zip_cons_cons, List.zip_cons_cons, List.zip_cons_cons, List.zip_cons_cons, List.zip_cons_cons,
        List.zip_cons_cons, List.zip_cons_cons, List.zip_cons_cons, List.zip_cons_cons, List.zip_cons_cons, List.zip_nil_right]
      iterate 12 rw [List.flatMap_cons]
      rw [List.flatMap_nil, List.append_nil]
    rw [hd]
    clear hd
    clear hx h
    unfold dayOfYear at hi
    simp only [List.getElem?_append, List.length_replicate, List.getElem?_replicate]
    interval_cases m <;> simp [daysBefore, monthLength] at hi h4 ⊢ <;>
      (repeat (first | rw [if_neg (by omega)] | rw [if_pos (by omega)]))

/-- **C38 (scenario profiles).** A constructed scenario profile with `n` columns finds a value for every member of its scenario and every column. -/
theorem C38_scenario (n size : Nat) (rows table : List (List Rat)) (h : scenarioTable n size rows = some table) (member k : Nat) (hm : member < size) (hk : k < n) :
    ∃ row v, rows[member]? = some row ∧ row[k]? = some v ∧ scenarioValue table member k = some v := by
  unfold scenarioTable at h
  split at h
  · cases h
  · rename_i hs
    split at h
    · cases h
    · rename_i hr
      injection h with h
      subst h
      have hs : size = rows.length := by omega
      have hm' : member < rows.length := by omega
      have hlen : (rows[member]).length = n := by
        by_contra hc
        exact hr (List.any_eq_true.2 ⟨rows[member], List.getElem_mem hm', by simpa using hc⟩)
      refine ⟨rows[member], (rows[member])[k]'(by omega), List.getElem?_eq_getElem hm', List.getElem?_eq_getElem (by omega), ?_⟩
      unfold scenarioValue
      rw [List.getElem?_eq_getElem hm']
      exact List.getElem?_eq_getElem (by omega)

example : scenarioTable 2 2 [[1, 2], [3, 4]] = some [[1, 2], [3, 4]] ∧ scenarioValue [[1, 2], [3, 4]] 1 0 = some 3 := by decide +kernel

end Verif.Profiles

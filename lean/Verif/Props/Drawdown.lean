import Verif.Model.Profiles
import Verif.Spec.Profiles
import Verif.Props.Calendar
/-! # C37: uniform drawdown profile -/

namespace Verif.Profiles

open Verif.Calendar

private theorem leap_eq (y : Nat) : isLeapYear y = leap y := by
  have h := C08_leap_rule y
  unfold Gregorian at h
  unfold leap
  by_cases h' : 4 ∣ y ∧ (¬ 100 ∣ y ∨ 400 ∣ y)
  · rw [h.2 h']; simp [h']
  · have : isLeapYear y ≠ true := fun e => h' (h.1 e)
    simp only [Bool.not_eq_true] at this
    rw [this]; simp [h']

private theorem index_eq (l : Bool) (m d : Nat) (h : ValidDate l m d) :
    dayofyearIndex l (dayOfYear l m d) + 1 = dayOfYear true m d := by
  obtain ⟨h1, h2, h3, h4⟩ := h
  unfold dayofyearIndex dayOfYear
  cases l
  · interval_cases m <;> simp [daysBefore, monthLength] at h4 ⊢ <;> split_ifs <;> omega
  · simp; omega

private theorem doy_false (m d : Nat) (h1 : 1 ≤ m) (h2 : m ≤ 12) :
    dayOfYear true m d = dayOfYear false m d + (if 3 ≤ m then 1 else 0) := by
  unfold dayOfYear
  interval_cases m <;> simp [daysBefore, monthLength] <;> omega

/-- Where a date lies in a leap year. -/
private theorem doy_bounds (m d : Nat) (h : ValidDate true m d) :
    (m ≤ 2 → 1 ≤ dayOfYear true m d ∧ dayOfYear true m d ≤ 60) ∧ (3 ≤ m → 61 ≤ dayOfYear true m d ∧ dayOfYear true m d ≤ 366) := by
  obtain ⟨h1, h2, h3, h4⟩ := h
  unfold dayOfYear
  interval_cases m <;> simp [daysBefore, monthLength] at h4 ⊢ <;> omega

private theorem doy_no29 (m d : Nat) (h : ValidDate false m d) (hm : m ≤ 2) : dayOfYear true m d ≤ 59 := by
  obtain ⟨h1, h2, h3, h4⟩ := h
  unfold dayOfYear
  interval_cases m <;> simp [daysBefore, monthLength] at h4 ⊢ <;> omega

private theorem valid_true {l : Bool} {m d : Nat} (h : ValidDate l m d) : ValidDate true m d := by
  obtain ⟨h1, h2, h3, h4⟩ := h
  refine ⟨h1, h2, h3, le_trans h4 ?_⟩
  cases l
  · unfold monthLength; split_ifs <;> simp_all
  · exact le_refl _

private theorem year_length (y : Nat) : daysToYear ((y + 1 : Nat) : Int) = daysToYear y + 365 + (if leap y then 1 else 0) := by
  unfold daysToYear leap
  push_cast
  by_cases h : 4 ∣ y ∧ (¬ 100 ∣ y ∨ 400 ∣ y)
  · simp only [h, and_self, decide_true, if_true]; omega
  · simp only [h, decide_false, Bool.false_eq_true, if_false]; omega

/-- The date `y-m-d` as the timestep stores it. -/
private def dateOf (y m d : Nat) : Date := ⟨y, m, dayOfYear (leap y) m d⟩

/-- Everything about a date and a reset day in terms of positions in a leap year: `c` and `r` are the positions (from 1) of the date and of the reset day. -/
private theorem facts (rm rd y m d : Nat) (hy : 2 ≤ y) (hv : ValidDate (leap y) m d) (hr : ValidDate false rm rd) :
    let c := dayOfYear true m d
    let r := dayOfYear true rm rd
    (dateOf y m d).index + 1 = c ∧
    resetYear rm rd y m d = (if r ≤ c then y else y - 1) ∧
    sinceReset rm rd y m d = (c : Int) - r + (if r ≤ c then (if leap y = false ∧ rm ≤ 2 ∧ 3 ≤ m then -1 else 0)
      else 366 - (if leap (y - 1) = false ∧ rm ≤ 2 then 1 else 0) - (if leap y = false ∧ 3 ≤ m then 1 else 0)) ∧
    periodLength rm rd y m d = 365 + (if leap (if rm ≤ 2 then resetYear rm rd y m d else resetYear rm rd y m d + 1) = true then 1 else 0) := by
  intro c r
  have hidx := index_eq (leap y) m d hv
  have hlast := year_length (y - 1)
  have hthis := year_length y
  have e : y - 1 + 1 = y := by omega
  rw [e] at hlast
  have oc : ∀ Y, (1 ≤ m ∧ m ≤ 12) → ordinal Y m d = daysToYear Y + c - 1 - (if leap Y = false ∧ 3 ≤ m then 1 else 0) := by
    intro Y hm
    have := doy_false m d hm.1 hm.2
    unfold ordinal
    cases leap Y
    · simp only [true_and, c, this]; split_ifs <;> push_cast <;> omega
    · simp [c]
  have or' : ∀ Y : Nat, ordinal Y rm rd = daysToYear Y + r - 1 - (if leap Y = false ∧ 3 ≤ rm then 1 else 0) := by
    intro Y
    have := doy_false rm rd hr.1 hr.2.1
    unfold ordinal
    cases leap Y
    · simp only [true_and, r, this]; split_ifs <;> push_cast <;> omega
    · simp [r]
  have oc' := oc y ⟨hv.1, hv.2.1⟩
  have bc := doy_bounds m d (valid_true hv)
  have br := doy_bounds rm rd (valid_true hr)
  have b29 := doy_no29 rm rd hr
  have nl : leap y = false → m ≤ 2 → c ≤ 59 := by
    intro hl hm; rw [hl] at hv; exact doy_no29 m d hv hm
  change (dateOf y m d).index + 1 = c ∧ _
  have hidx' : (dateOf y m d).index + 1 = c := by
    unfold Date.index dateOf
    rw [leap_eq]
    exact hidx
  refine ⟨hidx', ?_⟩
  change (m ≤ 2 → 1 ≤ c ∧ c ≤ 60) ∧ (3 ≤ m → 61 ≤ c ∧ c ≤ 366) at bc
  change (rm ≤ 2 → 1 ≤ r ∧ r ≤ 60) ∧ (3 ≤ rm → 61 ≤ r ∧ r ≤ 366) at br
  change rm ≤ 2 → r ≤ 59 at b29
  clear_value c r
  clear hidx hidx' oc
  have hrm : rm ≤ 2 ↔ ¬ 3 ≤ rm := by omega
  have hym : resetYear rm rd y m d = (if r ≤ c then y else y - 1) := by
    unfold resetYear
    have : (ordinal y rm rd ≤ ordinal y m d) ↔ r ≤ c := by
      rw [or', oc']
      cases hl : leap y <;> simp only [hl, true_and, reduceCtorEq, false_and, if_false, forall_const] at nl ⊢
      · split_ifs <;> omega
      · omega
    simp only [this]
  refine ⟨hym, ?_, ?_⟩
  · unfold sinceReset
    rw [hym]
    by_cases hrc : r ≤ c
    · simp only [hrc, if_true]
      rw [or', oc']
      cases hl : leap y <;> simp only [true_and, reduceCtorEq, false_and, if_false]
      · split_ifs <;> omega
      · omega
    · simp only [hrc, if_false]
      rw [or', oc']
      cases hl : leap y <;> cases hl' : leap (y - 1) <;> simp only [hl', true_and, reduceCtorEq, false_and, if_false, if_true, Bool.false_eq_true] at hlast ⊢ <;>
        (try split_ifs) <;> omega
  · unfold periodLength
    rw [hym]
    by_cases hrc : r ≤ c
    · simp only [hrc, if_true]
      rw [or', or']
      by_cases h1 : rm ≤ 2 <;> have h1' := h1 <;> rw [hrm] at h1' <;> simp only [h1, h1', and_false, if_true, if_false] <;>
        cases hl : leap y <;> cases hl' : leap (y + 1) <;> simp [hl] at hthis ⊢ <;> omega
    · simp only [hrc, if_false]
      rw [or', or', e]
      by_cases h1 : rm ≤ 2 <;> have h1' := h1 <;> rw [hrm] at h1' <;> simp only [h1, h1', and_false, if_true, if_false] <;>
        cases hl : leap y <;> cases hl' : leap (y - 1) <;> simp [hl'] at hlast ⊢ <;> omega

/-- **C37 (days counted).** For a reset on any day that exists in every year, the number of days the profile uses is the number of days since the last reset,
plus one exactly when the reset lies in January or February of a year that is not a leap year and the date is after the February of that year. -/
theorem C37_days (rm rd y m d reset : Nat) (hy : 2 ≤ y) (hv : ValidDate (leap y) m d) (hr : ValidDate false rm rd) (hreset : reset + 1 = dayOfYear true rm rd) :
    daysInto reset ⟨y, m, dayOfYear (leap y) m d⟩ = sinceReset rm rd y m d +
      (if rm ≤ 2 ∧ leap (resetYear rm rd y m d) = false ∧ ordinal (resetYear rm rd y m d) 3 1 ≤ ordinal y m d then 1 else 0) := by
  obtain ⟨f1, f2, f3, f4⟩ := facts rm rd y m d hy hv hr
  have bc := doy_bounds m d (valid_true hv)
  have br := doy_bounds rm rd (valid_true hr)
  have b29 := doy_no29 rm rd hr
  have hlast := year_length (y - 1)
  rw [show y - 1 + 1 = y by omega] at hlast
  have hdoy := doy_false m d hv.1 hv.2.1
  have nl : leap y = false → m ≤ 2 → dayOfYear true m d ≤ 59 := by
    intro hl hm; rw [hl] at hv; exact doy_no29 m d hv hm
  have mar : ∀ l, dayOfYear l 3 1 = if l then 61 else 60 := by intro l; cases l <;> rfl
  change (Date.index ⟨y, m, dayOfYear (leap y) m d⟩) + 1 = _ at f1
  unfold daysInto
  simp only [leap_eq]
  generalize Date.index ⟨y, m, dayOfYear (leap y) m d⟩ = i at *
  rw [f3, f2]
  unfold ordinal
  simp only [mar]
  by_cases hrc : dayOfYear true rm rd ≤ dayOfYear true m d
  · have h0 : ¬ ((i : Int) - reset < 0) := by omega
    simp only [hrc, h0, if_true, if_false]
    cases hl : leap y
    · simp only [true_and, Bool.false_eq_true, if_false]
      have nl := nl hl
      by_cases h3 : 3 ≤ m <;> simp only [h3, if_true, if_false, and_true, and_false] at hdoy ⊢ <;> split_ifs <;> omega
    · simp; omega
  · have h0 : ((i : Int) - reset < 0) := by omega
    simp only [hrc, h0, if_true, if_false]
    cases hl : leap y <;> cases hl' : leap (y - 1) <;> simp only [hl, hl', true_and, reduceCtorEq, false_and, and_false, if_false, if_true, Bool.false_eq_true, forall_const] at hlast nl ⊢ <;>
      (try split_ifs) <;> omega

/-- **C37 (period).** The length of the period is right for every date and every reset day that exists in every year. -/
theorem C37_period (rm rd y m d reset : Nat) (hy : 2 ≤ y) (hv : ValidDate (leap y) m d) (hr : ValidDate false rm rd) (hreset : reset + 1 = dayOfYear true rm rd) :
    (totalDays reset ⟨y, m, dayOfYear (leap y) m d⟩ : Int) = periodLength rm rd y m d := by
  obtain ⟨f1, f2, f3, f4⟩ := facts rm rd y m d hy hv hr
  have br := doy_bounds rm rd (valid_true hr)
  have b29 := doy_no29 rm rd hr
  change (Date.index ⟨y, m, dayOfYear (leap y) m d⟩) + 1 = _ at f1
  unfold totalDays
  simp only [leap_eq]
  rw [f4, f2]
  generalize Date.index ⟨y, m, dayOfYear (leap y) m d⟩ = i at *
  have h59 : reset > 59 ↔ ¬ rm ≤ 2 := by omega
  have h0 : ((i : Int) - reset < 0) ↔ ¬ dayOfYear true rm rd ≤ dayOfYear true m d := by omega
  simp only [h59, h0]
  by_cases h1 : rm ≤ 2 <;> by_cases h2 : dayOfYear true rm rd ≤ dayOfYear true m d <;>
    simp only [h1, h2, if_true, if_false, not_true_eq_false, not_false_eq_true] <;> split_ifs <;> rfl

/-- **C37 (partial).** For a reset in March to December the profile is, on every date of every year, the straight line over the days since the last reset from 1
towards the residual proportion at the next reset. The same holds for resets in January and February as long as the date is before the first of March of the
year of the reset, or that year is a leap year. Missing: `C37_fails`. -/
theorem C37_partial (rm rd y m d reset : Nat) (residual : Rat) (hy : 2 ≤ y) (hv : ValidDate (leap y) m d) (hr : ValidDate false rm rd)
    (hreset : reset + 1 = dayOfYear true rm rd)
    (h : 3 ≤ rm ∨ leap (resetYear rm rd y m d) = true ∨ ordinal y m d < ordinal (resetYear rm rd y m d) 3 1) :
    drawdown reset residual ⟨y, m, dayOfYear (leap y) m d⟩ =
      1 - (1 - residual / (periodLength rm rd y m d : Rat)) * ((sinceReset rm rd y m d : Rat) / (periodLength rm rd y m d : Rat)) := by
  unfold drawdown
  have e1 := C37_days rm rd y m d reset hy hv hr hreset
  have e2 := C37_period rm rd y m d reset hy hv hr hreset
  have : ¬ (rm ≤ 2 ∧ leap (resetYear rm rd y m d) = false ∧ ordinal (resetYear rm rd y m d) 3 1 ≤ ordinal y m d) := by
    rintro ⟨a, b, c⟩
    rcases h with h | h | h
    · omega
    · rw [b] at h; cases h
    · omega
  rw [if_neg this, add_zero] at e1
  have e3 : ((totalDays reset ⟨y, m, dayOfYear (leap y) m d⟩ : Nat) : Rat) = ((periodLength rm rd y m d : Int) : Rat) := by
    rw [← e2]; norm_cast
  simp only [e1, e3]
  ring

/-- A date in a later year than the reset, in a leap year: 2016-03-01 with a reset on the first of April. -/
example : ValidDate (leap 2016) 3 1 ∧ ValidDate false 4 1 ∧ 91 + 1 = dayOfYear true 4 1 ∧ resetYear 4 1 2016 3 1 = 2015 ∧
    sinceReset 4 1 2016 3 1 = 335 ∧ periodLength 4 1 2016 3 1 = 366 := by
  unfold ValidDate
  decide +kernel

/-- **C37 (reset day).** The profile is 1 on the reset day of every year. -/
theorem C37_reset_day (y m d reset : Nat) (residual : Rat) (hv : ValidDate (leap y) m d) (hreset : reset + 1 = dayOfYear true m d) :
    drawdown reset residual ⟨y, m, dayOfYear (leap y) m d⟩ = 1 := by
  have hi : Date.index ⟨y, m, dayOfYear (leap y) m d⟩ = reset := by
    unfold Date.index
    rw [leap_eq]
    have := index_eq (leap y) m d hv
    simp only
    omega
  unfold drawdown daysInto
  simp [hi]

/-- **C37 (range).** For at most 365 residual days the profile is between the residual proportion of the period and 1, on every date of every year, for every reset
day (including the 29th of February). -/
theorem C37_range (y m d reset : Nat) (residual : Rat) (hv : ValidDate (leap y) m d) (hreset : reset < 366) (h1 : residual ≤ 365) :
    residual / (totalDays reset ⟨y, m, dayOfYear (leap y) m d⟩ : Rat) ≤ drawdown reset residual ⟨y, m, dayOfYear (leap y) m d⟩ ∧
      drawdown reset residual ⟨y, m, dayOfYear (leap y) m d⟩ ≤ 1 := by
  have hi := index_eq (leap y) m d hv
  have bc := doy_bounds m d (valid_true hv)
  have hidx : Date.index ⟨y, m, dayOfYear (leap y) m d⟩ + 1 = dayOfYear true m d := by
    unfold Date.index
    rw [leap_eq]; exact hi
  unfold drawdown
  have hT : totalDays reset ⟨y, m, dayOfYear (leap y) m d⟩ = 365 ∨ totalDays reset ⟨y, m, dayOfYear (leap y) m d⟩ = 366 := by
    unfold totalDays; simp only; split_ifs <;> simp
  have hD : 0 ≤ daysInto reset ⟨y, m, dayOfYear (leap y) m d⟩ ∧ daysInto reset ⟨y, m, dayOfYear (leap y) m d⟩ ≤ 365 := by
    unfold daysInto
    generalize Date.index ⟨y, m, dayOfYear (leap y) m d⟩ = i at *
    simp only
    split_ifs <;> omega
  generalize totalDays reset ⟨y, m, dayOfYear (leap y) m d⟩ = T at *
  generalize daysInto reset ⟨y, m, dayOfYear (leap y) m d⟩ = D at *
  have hD0 : (0 : Rat) ≤ D := by exact_mod_cast hD.1
  have hD1 : (D : Rat) ≤ 365 := by exact_mod_cast hD.2
  rcases hT with rfl | rfl
  · push_cast
    constructor <;> nlinarith
  · push_cast
    constructor <;> nlinarith

/-- **C37 fails**: with a reset on the first of January, from 28 February to 1 March 2015 the profile falls by two days' worth, and on 31 December 2015 (364 days after the
reset, one day before the next) it has already fallen to the residual. -/
theorem C37_fails :
    drawdown 0 0 ⟨2015, 2, 58⟩ - drawdown 0 0 ⟨2015, 2, 59⟩ = 1 / 365 ∧
    drawdown 0 0 ⟨2015, 2, 59⟩ - drawdown 0 0 ⟨2015, 3, 60⟩ = 2 / 365 ∧
    drawdown 0 0 ⟨2015, 12, 365⟩ = 0 ∧
    sinceReset 1 1 2015 12 31 = 364 ∧ periodLength 1 1 2015 12 31 = 365 := by
  decide +kernel

end Verif.Profiles

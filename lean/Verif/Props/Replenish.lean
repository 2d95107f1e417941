import Verif.Spec.VirtualStorage
import Mathlib.Data.List.Induction
import Mathlib.Tactic.Linarith
import Mathlib.Tactic.Ring
import Mathlib.Tactic.IntervalCases

/-! # C15, C16, C17: annual, monthly and seasonal virtual storages -/

namespace Verif.VirtualStorage

open Verif.Bounds

private theorem onOrAfter_iff {t : Stamp} {r : MonthDay} (h1 : t.day < 32) (h2 : r.day < 32) :
    t.onOrAfter r = true ↔ r.code ≤ t.code := by
  unfold Stamp.onOrAfter Stamp.code MonthDay.code code
  simp only [Bool.or_eq_true, Bool.and_eq_true, decide_eq_true_eq]
  omega

private theorem strictlyAfter_iff {t : Stamp} {r : MonthDay} (h1 : t.day < 32) (h2 : r.day < 32) :
    t.strictlyAfter r = true ↔ r.code < t.code := by
  unfold Stamp.strictlyAfter Stamp.code MonthDay.code code
  simp only [Bool.or_eq_true, Bool.and_eq_true, decide_eq_true_eq]
  omega

/-! ## Annual -/

private theorem annual_last (c : AnnualCfg) (ts : List Stamp) (hd : c.date.day < 32) (hday : ∀ t ∈ ts, t.day < 32)
    (hchron : ts.Pairwise fun a b => a.year ≤ b.year) :
    (∀ y, (Annual.stateAt c ts).lastReset = some y → ∃ t ∈ ts, t.year = y ∧ c.date.code ≤ t.code) ∧
    (∀ t ∈ ts, c.date.code ≤ t.code → ∃ y, (Annual.stateAt c ts).lastReset = some y ∧ t.year ≤ y) := by
  induction ts using List.reverseRecOn with
  | nil => simp [Annual.stateAt, Annual.init]
  | append_singleton ts t ih =>
    rw [List.pairwise_append] at hchron
    obtain ⟨i1, i2⟩ := ih (fun x hx => hday x (by simp [hx])) hchron.1
    have hle : ∀ x ∈ ts, x.year ≤ t.year := fun x hx => hchron.2.2 x hx t (by simp)
    have ht : t.day < 32 := hday t (by simp)
    have hst : Annual.stateAt c (ts ++ [t]) = ((Annual.stateAt c ts).before c t).1 := by simp [Annual.stateAt]
    rw [hst]
    set s := Annual.stateAt c ts
    have ho := onOrAfter_iff ht hd
    have hsa := strictlyAfter_iff ht hd
    unfold Annual.before
    simp only
    by_cases hon : c.date.code ≤ t.code
    · -- on or after: the last reset year becomes t.year
      have hy : (if (if t.index = 0 ∧ t.strictlyAfter c.date = true then some t.year else s.lastReset) ≠ some t.year ∧
            t.onOrAfter c.date = true then
          ((⟨some t.year, true⟩ : Annual), Action.reset (if t.index = 0 ∧ c.mxIsParam = true then true else c.toInitial))
          else (⟨if t.index = 0 ∧ t.strictlyAfter c.date = true then some t.year else s.lastReset, s.active⟩, .none)).1.lastReset
          = some t.year := by
        by_cases hx : (if t.index = 0 ∧ t.strictlyAfter c.date = true then some t.year else s.lastReset) = some t.year
        · rw [if_neg (fun hh => hh.1 hx)]; exact hx
        · rw [if_pos ⟨hx, ho.2 hon⟩]
      rw [hy]
      constructor
      · intro y h; cases h; exact ⟨t, by simp, rfl, hon⟩
      · intro x hx _
        refine ⟨t.year, rfl, ?_⟩
        rcases List.mem_append.1 hx with h | h
        · exact hle x h
        · simp at h; rw [h]
    · have n1 : ¬ t.onOrAfter c.date = true := fun h => hon (ho.1 h)
      have n2 : ¬ t.strictlyAfter c.date = true := fun h => hon (hsa.1 h).le
      rw [if_neg (fun hh => n1 hh.2), if_neg (fun hh => n2 hh.2)]
      constructor
      · intro y h
        obtain ⟨x, hx, hx2⟩ := i1 y h
        exact ⟨x, by simp [hx], hx2⟩
      · intro x hx hcx
        rcases List.mem_append.1 hx with h | h
        · exact i2 x h hcx
        · simp at h; subst h; exact absurd hcx hon

/-- C15: in every chronological run the volume is reset at timestep `k` exactly when `k` is the first timestep of its year on or after
the reset date; the only exception is a run that starts after the reset date, whose first year counts as already reset. -/
theorem C15_once_per_year (c : AnnualCfg) (ts : List Stamp) (hd : c.date.day < 32) (hday : ∀ t ∈ ts, t.day < 32)
    (hidx : ∀ k (h : k < ts.length), ts[k].index = k)
    (hchron : ts.Pairwise fun a b => a.year ≤ b.year) (k : Nat) (hk : k < ts.length) :
    Annual.actionAt c ts k hk ≠ .none ↔
      c.date.code ≤ ts[k].code ∧
      (∀ j (hj : j < k), ts[j].year = ts[k].year → ts[j].code < c.date.code) ∧
      ¬ (k = 0 ∧ c.date.code < ts[k].code) := by
  have hsub : (ts.take k).Pairwise fun a b => a.year ≤ b.year := hchron.sublist (List.take_sublist _ _)
  obtain ⟨l1, l2⟩ := annual_last c (ts.take k) hd (fun t ht => hday t (List.mem_of_mem_take ht)) hsub
  have ht : ts[k].day < 32 := hday _ (List.getElem_mem hk)
  have ho := onOrAfter_iff ht hd
  have hsa := strictlyAfter_iff ht hd
  have hix := hidx k hk
  have hlt : ∀ x ∈ ts.take k, x.year ≤ ts[k].year := by
    intro x hx
    obtain ⟨j, hj, rfl⟩ := List.mem_take_iff_getElem.1 hx
    exact List.pairwise_iff_getElem.1 hchron j k (by omega) hk (by omega)
  unfold Annual.actionAt Annual.before
  simp only [hix]
  set s := Annual.stateAt c (ts.take k)
  have hact : ∀ (p : Prop) [Decidable p] (a b : Annual) (u : Bool),
      ((if p then (a, Action.reset u) else (b, Action.none)).2 ≠ Action.none) ↔ p := by
    intro p _ a b u; by_cases hp : p <;> simp [hp]
  rw [hact]
  constructor
  · rintro ⟨h1, h2⟩
    have hon := ho.1 h2
    have hns : ¬ (k = 0 ∧ c.date.code < ts[k].code) := by
      rintro ⟨h3, h4⟩
      rw [if_pos ⟨h3, hsa.2 h4⟩] at h1
      exact h1 rfl
    refine ⟨hon, ?_, hns⟩
    rw [if_neg (fun hh => hns ⟨hh.1, hsa.1 hh.2⟩)] at h1
    intro j hj hyr
    by_contra hc
    have hmem : ts[j] ∈ ts.take k := List.mem_take_iff_getElem.2 ⟨j, by omega, rfl⟩
    obtain ⟨y, hy1, hy2⟩ := l2 _ hmem (by omega)
    obtain ⟨x, hx1, hx2, -⟩ := l1 y hy1
    have := hlt x hx1
    apply h1
    rw [hy1]
    congr 1
    omega
  · rintro ⟨hon, hall, hns⟩
    rw [if_neg (fun hh => hns ⟨hh.1, hsa.1 hh.2⟩)]
    refine ⟨?_, ho.2 hon⟩
    intro hs
    obtain ⟨x, hx1, hx2, hx3⟩ := l1 _ hs
    obtain ⟨j, hj, rfl⟩ := List.mem_take_iff_getElem.1 hx1
    have := hall j (by omega) hx2
    omega

/-- C15: a reset goes to the maximum volume, or to the initial volume if asked for (or if the maximum is a parameter that has no value
yet at the first timestep), and makes the node active. -/
theorem C15_target (c : AnnualCfg) (s : Annual) (t : Stamp) (h : (s.before c t).2 ≠ .none) :
    (s.before c t).2 = .reset (c.toInitial || (decide (t.index = 0) && c.mxIsParam)) ∧
    (s.before c t).1.active = true := by
  unfold Annual.before at h ⊢
  simp only at h ⊢
  by_cases h1 : (if t.index = 0 ∧ t.strictlyAfter c.date = true then some t.year else s.lastReset) ≠ some t.year ∧
      t.onOrAfter c.date = true
  · rw [if_pos h1]
    refine ⟨?_, rfl⟩
    show Action.reset _ = Action.reset _
    congr 1
    by_cases h2 : t.index = 0 <;> cases hm : c.mxIsParam <;> cases hi : c.toInitial <;> simp [h2]
  · rw [if_neg h1] at h
    exact absurd rfl h

/-- C15, a limit of the guarantee: with timesteps that jump over the last days of the year, the licence is never replenished. Starting
on 1 January with a timestep on the first of every month and a reset date of 15 December, no timestep ever resets the volume. -/
theorem C15_coarse_never_resets (c : AnnualCfg) (hc : c.date = ⟨12, 15⟩) (ts : List Stamp)
    (hts : ∀ t ∈ ts, t.day = 1 ∧ t.month ≤ 12) (k : Nat) (hk : k < ts.length) : Annual.actionAt c ts k hk = .none := by
  obtain ⟨h1, h2⟩ := hts _ (List.getElem_mem hk)
  unfold Annual.actionAt Annual.before
  have : ts[k].onOrAfter c.date = false := by
    unfold Stamp.onOrAfter
    rw [hc]
    simp [h1]
    omega
  simp [this]

private def annualEx : List Stamp :=
  [⟨0, 2015, 9, 1⟩, ⟨1, 2015, 10, 1⟩, ⟨2, 2015, 11, 1⟩, ⟨3, 2016, 1, 1⟩, ⟨4, 2016, 10, 3⟩, ⟨5, 2016, 10, 4⟩]

example : (∀ t ∈ annualEx, t.day < 32) ∧ (∀ k (h : k < annualEx.length), annualEx[k].index = k) ∧
    annualEx.Pairwise (fun a b => a.year ≤ b.year) := by decide +kernel
example : (List.finRange 6).map (fun k : Fin 6 => Annual.actionAt ⟨⟨10, 2⟩, false, false⟩ annualEx k (by have := k.2; decide +revert)) =
    [.none, .none, .reset false, .none, .reset false, .none] := by decide +kernel

/-! ## Monthly -/

private theorem monthly_inv (months init : Int) (h0 : 0 ≤ init) (h1 : 1 ≤ months) (h2 : init ≤ months) (ams : List Nat)
    (hne : ams ≠ [])
    (hstep : ∀ k (h : k + 1 < ams.length), ams[k + 1] = ams[k] ∨ ams[k + 1] = ams[k] + 1) :
    (Monthly.stateAt months init (ams.map fun a => a % 12 + 1)).lastMonth = some (ams.getLast hne % 12 + 1) ∧
    0 ≤ (Monthly.stateAt months init (ams.map fun a => a % 12 + 1)).count ∧
    (Monthly.stateAt months init (ams.map fun a => a % 12 + 1)).count < months ∧
    (Monthly.stateAt months init (ams.map fun a => a % 12 + 1)).count =
      (init + (ams.getLast hne - ams.head hne : Int)) % months ∧ ams.head hne ≤ ams.getLast hne := by
  induction ams using List.reverseRecOn with
  | nil => exact absurd rfl hne
  | append_singleton ams a ih =>
    have hst : Monthly.stateAt months init ((ams ++ [a]).map fun a => a % 12 + 1) =
        ((Monthly.stateAt months init (ams.map fun a => a % 12 + 1)).before months (a % 12 + 1)).1 := by
      simp [Monthly.stateAt]
    rw [hst]
    by_cases he : ams = []
    · subst he
      simp only [Monthly.stateAt, List.map_nil, List.foldl_nil, Monthly.init, Monthly.before, List.nil_append,
        List.getLast_singleton, List.head_cons, sub_self, add_zero]
      rw [if_pos (by simp)]
      by_cases hm : init = months
      · rw [if_pos (by omega)]; subst hm
        refine ⟨rfl, ?_, ?_, ?_, le_refl _⟩
        · show (0:Int) ≤ 0; omega
        · show (0:Int) < init; omega
        · show (0:Int) = init % init; simp
      · rw [if_neg (by omega)]
        refine ⟨rfl, ?_, ?_, ?_, le_refl _⟩
        · show 0 ≤ init - 1 + 1; omega
        · show init - 1 + 1 < months; omega
        · show init - 1 + 1 = init % months
          rw [Int.emod_eq_of_lt h0 (by omega)]; omega
    · obtain ⟨i1, i2, i3, i4, i5⟩ := ih he (by
        intro k h
        have := hstep k (by simp; omega)
        rwa [List.getElem_append_left (by omega), List.getElem_append_left (by omega)] at this)
      have hl := hstep (ams.length - 1) (by have := List.length_pos_iff.2 he; simp; omega)
      have hp := List.length_pos_iff.2 he
      have e1 : (ams ++ [a])[ams.length - 1 + 1]'(by simp; omega) = a := by
        rw [List.getElem_append_right (by omega)]; simp
      have e2 : (ams ++ [a])[ams.length - 1]'(by simp; omega) = ams.getLast he := by
        rw [List.getElem_append_left (by omega), List.getLast_eq_getElem]
      rw [e1, e2] at hl
      have hg : (ams ++ [a]).getLast hne = a := by simp
      have hh : (ams ++ [a]).head hne = ams.head he := by rw [List.head_append_of_ne_nil he]
      rw [hg, hh]
      set s := Monthly.stateAt months init (ams.map fun a => a % 12 + 1)
      set b := ams.getLast he
      set f := ams.head he
      unfold Monthly.before
      rw [i1]
      rcases hl with hl | hl
      · subst hl
        rw [if_neg (by simp)]
        exact ⟨i1, i2, i3, i4, i5⟩
      · have hd : (some (b % 12 + 1) : Option Nat) ≠ some (a % 12 + 1) := by
          simp only [ne_eq, Option.some.injEq]; omega
        rw [if_pos hd]
        have e3 : init + ((a : Int) - (f : Int)) = (init + ((b : Int) - (f : Int))) + 1 := by rw [hl]; push_cast; ring
        by_cases hc : s.count + 1 = months
        · rw [if_pos hc]
          refine ⟨rfl, le_refl _, by show (0:Int) < months; omega, ?_, by omega⟩
          show 0 = _
          rw [e3, Int.add_emod, ← i4]
          by_cases hm1 : months = 1
          · subst hm1; simp
          · rw [Int.emod_eq_of_lt (a := 1) (by omega) (by omega), hc]; simp
        · rw [if_neg hc]
          refine ⟨rfl, by show 0 ≤ s.count + 1; omega, by show s.count + 1 < months; omega, ?_, by omega⟩
          show s.count + 1 = _
          rw [e3, Int.add_emod, ← i4, Int.emod_eq_of_lt (a := 1) (by omega) (by omega),
            Int.emod_eq_of_lt (by omega) (by omega)]

/-- C16: number the months consecutively (`ams[k]` is the absolute month of timestep `k`) and let the run visit every month. With period
`months` and `init` months already elapsed, timestep `k` resets the volume exactly when it is the first of its month and
`init` plus the number of months since the start is a positive multiple of the period. -/
theorem C16_every_n_months (months init : Int) (h0 : 0 ≤ init) (h1 : 1 ≤ months) (h2 : init ≤ months) (ams : List Nat)
    (hstep : ∀ k (h : k + 1 < ams.length), ams[k + 1] = ams[k] ∨ ams[k + 1] = ams[k] + 1)
    (k : Nat) (hk : k < ams.length) (hk' : k < (ams.map fun a => a % 12 + 1).length) :
    Monthly.resetsAt months init (ams.map fun a => a % 12 + 1) k hk' = true ↔
      (∀ j (hj : j < k), ams[j] ≠ ams[k]) ∧
      ∃ m : Int, 1 ≤ m ∧ init + ((ams[k] : Int) - (ams[0] : Int)) = m * months := by
  -- absolute months never decrease
  have hmono : ∀ j d (h : j + d < ams.length), ams[j] ≤ ams[j + d] ∧ (d = 0 → ams[j] = ams[j+d]) := by
    intro j d
    induction d with
    | zero => intro h; simp
    | succ d ih =>
      intro h
      have a := (ih (by omega)).1
      have b := hstep (j + d) (by omega)
      have e : j + (d + 1) = j + d + 1 := rfl
      constructor
      · simp only [← e] at b; omega
      · omega
  unfold Monthly.resetsAt
  rw [← List.map_take, List.getElem_map]
  by_cases hk0 : k = 0
  · subst hk0
    simp only [List.take_zero, List.map_nil, Monthly.stateAt, List.foldl_nil, Monthly.init, Monthly.before]
    rw [if_pos (by simp)]
    constructor
    · intro h
      by_cases hm : init - 1 + 1 = months
      · exact ⟨fun j hj => absurd hj (by omega), 1, le_refl _, by omega⟩
      · rw [if_neg hm] at h; cases h
    · rintro ⟨-, m, hm1, hm2⟩
      simp only [sub_self, add_zero] at hm2
      have : m = 1 := by
        by_contra hne
        have : 2 * months ≤ m * months := Int.mul_le_mul_of_nonneg_right (by omega) (by omega)
        omega
      subst this
      rw [if_pos (by omega)]
  · have hne : ams.take k ≠ [] := by
      intro h
      have := congrArg List.length h
      rw [List.length_take, List.length_nil] at this
      omega
    obtain ⟨i1, i2, i3, i4, i5⟩ := monthly_inv months init h0 h1 h2 (ams.take k) hne (by
      intro j h
      have hjk : j + 1 < k := by simp at h; omega
      rw [List.getElem_take, List.getElem_take]
      exact hstep j (by omega))
    have hlast : (ams.take k).getLast hne = ams[k - 1] := by
      rw [List.getLast_eq_getElem, List.getElem_take]
      congr 1
      simp; omega
    have hhead : (ams.take k).head hne = ams[0] := by
      rw [List.head_take]; simp [List.head_eq_getElem]
    rw [hlast] at i1 i4
    rw [hhead] at i4
    set s := Monthly.stateAt months init ((ams.take k).map fun a => a % 12 + 1)
    have hs := hstep (k - 1) (by omega)
    have hkk : k - 1 + 1 = k := by omega
    simp only [hkk] at hs
    unfold Monthly.before
    rw [i1]
    rcases hs with hs | hs
    · rw [hs, if_neg (by simp)]
      constructor
      · intro h; cases h
      · rintro ⟨h, -⟩
        exact absurd rfl (h (k - 1) (by omega))
    · have hd : (some (ams[k - 1] % 12 + 1) : Option Nat) ≠ some (ams[k] % 12 + 1) := by
        simp only [ne_eq, Option.some.injEq]; omega
      rw [if_pos hd]
      have hfirst : ∀ j (hj : j < k), ams[j] ≠ ams[k] := by
        intro j hj
        have := (hmono j (k - 1 - j) (by omega)).1
        have e : j + (k - 1 - j) = k - 1 := by omega
        simp only [e] at this
        omega
      have hnn : ams[0] ≤ ams[k - 1] := by
        have := (hmono 0 (k - 1) (by omega)).1
        simpa using this
      have e3 : init + ((ams[k] : Int) - (ams[0] : Int)) = (init + ((ams[k-1] : Int) - (ams[0] : Int))) + 1 := by
        rw [hs]; push_cast; ring
      constructor
      · intro h
        by_cases hc : s.count + 1 = months
        · refine ⟨hfirst, ?_⟩
          have hq := Int.emod_add_mul_ediv (init + ((ams[k-1] : Int) - (ams[0] : Int))) months
          rw [← i4] at hq
          refine ⟨(init + ((ams[k-1] : Int) - (ams[0] : Int))) / months + 1, ?_, ?_⟩
          · have := Int.ediv_nonneg (a := init + ((ams[k-1] : Int) - (ams[0] : Int))) (b := months) (by omega) (by omega)
            omega
          · rw [e3, ← hq]
            have : (s.count + months * ((init + ((ams[k-1] : Int) - (ams[0] : Int))) / months)) / months
                = (init + ((ams[k-1] : Int) - (ams[0] : Int))) / months := by rw [hq]
            rw [this]
            have : s.count = months - 1 := by omega
            rw [this]; ring
        · rw [if_neg hc] at h; cases h
      · rintro ⟨-, m, -, hm⟩
        have : s.count + 1 = months := by
          rw [e3] at hm
          have hx : init + ((ams[k-1] : Int) - (ams[0] : Int)) = (months - 1) + months * (m - 1) := by linarith
          rw [i4, hx, Int.add_mul_emod_self_left, Int.emod_eq_of_lt (by omega) (by omega)]
          omega
        rw [if_pos this]

/-- C16, a limit of the guarantee: with more initial months than the period the volume is never reset. -/
theorem C16_large_offset_never_resets (months init : Int) (h : months < init) (ms : List Nat) (k : Nat)
    (hk : k < ms.length) : Monthly.resetsAt months init ms k hk = false := by
  have key : ∀ l : List Nat, (months ≤ (Monthly.stateAt months init l).count ∧
      ((Monthly.stateAt months init l).lastMonth ≠ none → months < (Monthly.stateAt months init l).count) ∧
      ∀ m, ((Monthly.stateAt months init l).before months m).2 = false) := by
    intro l
    induction l using List.reverseRecOn with
    | nil =>
      have e : Monthly.stateAt months init [] = ⟨init - 1, none⟩ := rfl
      rw [e]
      refine ⟨by show months ≤ init - 1; omega, by simp, ?_⟩
      intro m
      have hc : ¬ init - 1 + 1 = months := by omega
      unfold Monthly.before
      rw [if_pos (by simp), if_neg hc]
    | append_singleton l a ih =>
      have hst : Monthly.stateAt months init (l ++ [a]) = ((Monthly.stateAt months init l).before months a).1 := by
        simp [Monthly.stateAt]
      rw [hst]
      set s := Monthly.stateAt months init l
      obtain ⟨a1, a2, -⟩ := ih
      have hb : months < (s.before months a).1.count := by
        unfold Monthly.before
        by_cases hc : s.lastMonth ≠ some a
        · rw [if_pos hc, if_neg (by omega)]; show months < s.count + 1; omega
        · rw [if_neg hc]
          apply a2
          rw [not_not] at hc; rw [hc]; simp
      refine ⟨by omega, fun _ => hb, ?_⟩
      intro m
      generalize (s.before months a).1 = u at hb
      unfold Monthly.before
      by_cases hc : u.lastMonth ≠ some m
      · rw [if_pos hc, if_neg (by omega)]
      · rw [if_neg hc]
  exact (key _).2.2 _

private def monthlyEx : List Nat := [24, 24, 25, 25, 26, 27, 28, 28, 29]

example : ∀ k (h : k + 1 < monthlyEx.length), monthlyEx[k + 1] = monthlyEx[k] ∨ monthlyEx[k + 1] = monthlyEx[k] + 1 := by
  intro k h
  have h' : k < 8 := by simp [monthlyEx] at h; omega
  interval_cases k <;> simp [monthlyEx]
example : (List.range 9).map (fun k => if h : k < (monthlyEx.map fun a => a % 12 + 1).length then
    Monthly.resetsAt 3 1 (monthlyEx.map fun a => a % 12 + 1) k h else false) =
    [false, false, false, false, true, false, false, false, true] := by decide +kernel

/-! ## Seasonal -/

/-- A reset makes the node active again, whatever it was, with the volume a reset of a storage gives (C12, C13). -/
theorem C17_reset (i : Storage.Initial) (s s' : VState) (h : s.reset i = .ok s') : s'.active = true ∧ Storage.reset i s.store = .ok s'.store := by
  unfold VState.reset at h
  split at h
  · rename_i st e
    cases h
    exact ⟨rfl, e⟩
  · cases h

/-- While inactive the node leaves its volume alone and, unless its bounds coincide, admits every flow. -/
theorem C17_inactive (s : VState) (h : s.active = false) (us : List Use) (days mx mn : Rat) (adj : Option Rat) :
    s.after us days mx mn adj = s ∧ (mx ≠ mn → ∀ x, (vRow false s.store.volume mx mn days).Admits x) := by
  refine ⟨by simp [VState.after, h], ?_⟩
  intro hne x
  simp [vRow, hne, Row.Admits]

/-- Invariant after a timestep. -/
private def SInv (c : SeasonalCfg) (s : Seasonal) (t : Stamp) : Prop :=
  (s.annual.lastReset = some t.year ↔ c.date.code ≤ t.code) ∧ (∀ y, s.annual.lastReset = some y → y ≤ t.year) ∧
  (s.lastActive = some t.year ↔ c.endDate.code ≤ t.code) ∧ (s.annual.active = true ↔ InSeason c t)

private theorem seasonal_step {c : SeasonalCfg} {s : Seasonal} {t u : Stamp} (hd : c.date.day < 32) (he : c.endDate.day < 32)
    (hu : u.day < 32) (hne : c.date.code ≠ c.endDate.code) (hidx : u.index ≠ 0) (hf : FineStep c t u)
    (h : SInv c s t) : SInv c (s.before c u) u := by
  obtain ⟨h1, h2, h3, h5⟩ := h
  have o1 := onOrAfter_iff hu hd
  have o2 := onOrAfter_iff hu he
  obtain ⟨⟨lr, ac⟩, la⟩ := s
  simp only at h1 h2 h3 h5
  have hyr : t.year ≤ u.year := by rcases hf with hf | hf <;> omega
  have hlr : lr = some u.year ↔ (t.year = u.year ∧ c.date.code ≤ t.code) := by
    constructor
    · intro hh
      have := h2 _ hh
      have hy : t.year = u.year := by omega
      exact ⟨hy, h1.1 (by rw [hh, hy])⟩
    · rintro ⟨hy, hh⟩; rw [← hy]; exact h1.2 hh
  have hla : la = some u.year ↔ (t.year = u.year ∧ c.endDate.code ≤ t.code) := by
    constructor
    · intro hh
      rcases hf with hf | hf
      · exact ⟨hf.1, h3.1 (by rw [hh, hf.1])⟩
      · have := h3.2 hf.2.1
        rw [this] at hh
        simp only [Option.some.injEq] at hh
        omega
    · rintro ⟨hy, hh⟩; rw [← hy]; exact h3.2 hh
  have hle : ∀ y, lr = some y → y ≤ u.year := fun y hy => le_trans (h2 y hy) hyr
  have hb : Seasonal.before c ⟨⟨lr, ac⟩, la⟩ u =
      ⟨⟨if c.date.code ≤ u.code then some u.year else lr,
        if la ≠ some u.year ∧ c.endDate.code ≤ u.code then false
          else if lr ≠ some u.year ∧ c.date.code ≤ u.code then true else ac⟩,
        if c.endDate.code ≤ u.code then some u.year else la⟩ := by
    unfold Seasonal.before Annual.before
    simp only [hidx, false_and, if_false]
    by_cases a : c.date.code ≤ u.code <;> by_cases b : c.endDate.code ≤ u.code <;> by_cases p : lr = some u.year <;>
      by_cases q : la = some u.year <;> simp [o1, o2, a, b, p, q]
  rw [hb]
  unfold SInv
  simp only
  refine ⟨?_, ?_, ?_, ?_⟩
  · by_cases a : c.date.code ≤ u.code
    · simp [a]
    · simp only [a, if_false, iff_false]
      rw [hlr]
      rintro ⟨hy, hh⟩
      rcases hf with hf | hf <;> omega
  · intro y
    by_cases a : c.date.code ≤ u.code
    · simp only [a, if_true, Option.some.injEq]; omega
    · simp only [a, if_false]; exact hle y
  · by_cases b : c.endDate.code ≤ u.code
    · simp [b]
    · simp only [b, if_false, iff_false]
      rw [hla]
      rintro ⟨hy, hh⟩
      rcases hf with hf | hf <;> omega
  · simp only [ne_eq, hlr, hla]
    unfold FineStep at hf
    unfold InSeason at h5 ⊢
    generalize t.code = T at *
    generalize u.code = U at *
    generalize c.date.code = R at *
    generalize c.endDate.code = E at *
    by_cases x : ¬(t.year = u.year ∧ E ≤ T) ∧ E ≤ U
    · rw [if_pos x]
      simp only [Bool.false_eq_true, false_iff]
      split_ifs <;> omega
    · rw [if_neg x]
      by_cases z : ¬(t.year = u.year ∧ R ≤ T) ∧ R ≤ U
      · rw [if_pos z]
        simp only [true_iff]
        split_ifs <;> omega
      · rw [if_neg z, h5]
        split_ifs <;> omega

private theorem seasonal_start {c : SeasonalCfg} {s : Seasonal} {t : Stamp} (hd : c.date.day < 32)
    (ht : t.day < 32) (hne : c.date.code ≠ c.endDate.code) (he : c.endDate.day < 32) (hidx : t.index = 0)
    (hla : s.lastActive ≠ some t.year) (hin : InSeason c t ∨ t.code < c.endDate.code) :
    SInv c (s.reset.before c t) t := by
  have o1 := onOrAfter_iff ht hd
  have o3 := strictlyAfter_iff ht hd
  have eL : c.endLeReset = true ↔ c.endDate.code ≤ c.date.code := by
    unfold SeasonalCfg.endLeReset MonthDay.code code
    simp only [Bool.or_eq_true, Bool.and_eq_true, decide_eq_true_eq]; omega
  have eG : c.endGeReset = true ↔ c.date.code ≤ c.endDate.code := by
    unfold SeasonalCfg.endGeReset MonthDay.code code
    simp only [Bool.or_eq_true, Bool.and_eq_true, decide_eq_true_eq]; omega
  have ha : (Annual.before c.toAnnualCfg s.reset.annual t).1 = ⟨if c.date.code ≤ t.code then some t.year else none, true⟩ := by
    unfold Annual.before Seasonal.reset Annual.init
    simp only [hidx, true_and]
    by_cases a : c.date.code < t.code
    · simp [o1, o3, a, a.le]
    · by_cases b : c.date.code ≤ t.code <;> simp [o1, o3, a, b]
  have hr : s.reset.lastActive = s.lastActive := rfl
  unfold Seasonal.before
  rw [ha, hr]
  simp only [hidx, if_true]
  rw [if_pos hla]
  unfold SInv
  unfold InSeason at *
  by_cases a : c.date.code ≤ t.code
  · by_cases b : c.endDate.code ≤ c.date.code
    · rw [if_pos a, if_pos rfl, if_pos (eL.2 b)]
      refine ⟨by simp [a], by simp, by simp; omega, ?_⟩
      simp only [true_iff]
      split_ifs <;> omega
    · rw [if_pos a, if_pos rfl, if_neg (fun h => b (eL.1 h))]
      rw [if_pos (by omega)] at hin
      refine ⟨by simp [a], by simp, by simp only [hla, false_iff]; omega, ?_⟩
      simp only [true_iff]
      split_ifs <;> omega
  · rw [if_neg a, if_neg (by simp)]
    by_cases b : c.date.code ≤ c.endDate.code
    · rw [if_pos (eG.2 b)]
      refine ⟨by simp [a], by simp, by simp only [hla, false_iff]; split_ifs at hin <;> omega, ?_⟩
      simp only [Bool.false_eq_true, false_iff]
      split_ifs <;> omega
    · rw [if_neg (fun h => b (eG.1 h))]
      rw [if_neg (by omega)] at hin
      refine ⟨by simp [a], by simp, by simp only [hla, false_iff]; omega, ?_⟩
      simp only [true_iff]
      split_ifs <;> omega

/-- C17: in a run whose first timestep is in season or before the end date of its year, of an object that did not last end its season in the
first year of this run, with timesteps fine enough not to jump over an off-season, the node is active exactly at the timesteps in
season. Partial: without these conditions the claim is false (`C17_first_timestep_fails`, `C17_first_season_fails`,
`C17_rerun_fails`, `C17_coarse_fails`). -/
theorem C17_partial (c : SeasonalCfg) (s : Seasonal) (t0 : Stamp) (ts : List Stamp) (hd : c.date.day < 32)
    (he : c.endDate.day < 32) (hne : c.date.code ≠ c.endDate.code) (hday : ∀ t ∈ t0 :: ts, t.day < 32)
    (hidx0 : t0.index = 0) (hidx : ∀ t ∈ ts, t.index ≠ 0) (hfine : List.IsChain (FineStep c) (t0 :: ts))
    (hla : s.lastActive ≠ some t0.year) (hin : InSeason c t0 ∨ t0.code < c.endDate.code)
    (k : Nat) (hk : k < (t0 :: ts).length) :
    (Seasonal.runFrom c s.reset ((t0 :: ts).take (k + 1))).annual.active = true ↔ InSeason c (t0 :: ts)[k] := by
  have key : ∀ k (hk : k < (t0 :: ts).length),
      SInv c (Seasonal.runFrom c s.reset ((t0 :: ts).take (k + 1))) (t0 :: ts)[k] := by
    intro k
    induction k with
    | zero =>
      intro hk
      simp only [List.take_succ_cons, List.take_zero, Seasonal.runFrom, List.foldl_cons, List.foldl_nil,
        List.getElem_cons_zero]
      exact seasonal_start hd (hday t0 (by simp)) hne he hidx0 hla hin
    | succ k ih =>
      intro hk
      have i := ih (by omega)
      rw [List.take_succ_eq_append_getElem hk]
      unfold Seasonal.runFrom at *
      rw [List.foldl_append]
      have hmem : (t0 :: ts)[k + 1] ∈ ts := by simp
      exact seasonal_step hd he (hday _ (List.getElem_mem hk)) hne (hidx _ hmem)
        (List.isChain_iff_getElem.1 hfine k (by omega)) i
  exact (key k hk).2.2.2

/-- C17 is false for the first timestep of a run that starts after the season: a season from April to September, starting in October. The
node constrains flows in the first timestep although it is out of season. -/
theorem C17_first_timestep_fails : ∃ (c : SeasonalCfg) (t : Stamp), t.index = 0 ∧ ¬ InSeason c t ∧
    (Seasonal.runFrom c Seasonal.new [t]).annual.active = true :=
  ⟨⟨⟨⟨4, 1⟩, false, false⟩, ⟨9, 30⟩⟩, ⟨0, 2015, 10, 15⟩, by decide +kernel⟩

/-- C17 is false for a winter season (1 October to 31 March) when a daily run starts on 30 September: the node is inactive for the whole
first season, being switched off on the very day the season starts. -/
theorem C17_first_season_fails : ∃ c : SeasonalCfg, c.date = ⟨10, 1⟩ ∧ c.endDate = ⟨3, 31⟩ ∧
    ∀ ts : List Stamp, (∀ t ∈ ts, t.index ≠ 0 ∧ t.year = 2015 ∧ 10 ≤ t.month ∧ 1 ≤ t.day) →
      (∀ t ∈ ts, InSeason c t) ∧
      (Seasonal.runFrom c Seasonal.new (⟨0, 2015, 9, 30⟩ :: ⟨1, 2015, 10, 1⟩ :: ts)).annual.active = false := by
  refine ⟨⟨⟨⟨10, 1⟩, false, false⟩, ⟨3, 31⟩⟩, rfl, rfl, ?_⟩
  intro ts hts
  refine ⟨?_, ?_⟩
  · intro t ht
    have := hts t ht
    unfold InSeason Stamp.code MonthDay.code code; simp; omega
  · have e : Seasonal.runFrom ⟨⟨⟨10, 1⟩, false, false⟩, ⟨3, 31⟩⟩ Seasonal.new (⟨0, 2015, 9, 30⟩ :: ⟨1, 2015, 10, 1⟩ :: ts) =
        Seasonal.runFrom ⟨⟨⟨10, 1⟩, false, false⟩, ⟨3, 31⟩⟩ ⟨⟨some 2015, false⟩, some 2015⟩ ts := by
      unfold Seasonal.runFrom
      rw [List.foldl_cons, List.foldl_cons]
      congr 1
    rw [e]
    have fix : ∀ t ∈ ts, Seasonal.before ⟨⟨⟨10, 1⟩, false, false⟩, ⟨3, 31⟩⟩ ⟨⟨some 2015, false⟩, some 2015⟩ t =
        ⟨⟨some 2015, false⟩, some 2015⟩ := by
      intro t ht
      obtain ⟨a, b, -⟩ := hts t ht
      unfold Seasonal.before Annual.before
      simp [a, b]
    have : Seasonal.runFrom ⟨⟨⟨10, 1⟩, false, false⟩, ⟨3, 31⟩⟩ ⟨⟨some 2015, false⟩, some 2015⟩ ts =
        ⟨⟨some 2015, false⟩, some 2015⟩ := by
      unfold Seasonal.runFrom
      clear e hts
      induction ts with
      | nil => rfl
      | cons t ts ih =>
        rw [List.foldl_cons, fix t (by simp)]
        exact ih (fun x hx => fix x (by simp [hx]))
    rw [this]

private def summer : SeasonalCfg := ⟨⟨⟨4, 1⟩, false, false⟩, ⟨9, 30⟩⟩
private def yearEx : List Stamp :=
  [⟨0, 2015, 1, 1⟩, ⟨1, 2015, 3, 31⟩, ⟨2, 2015, 4, 1⟩, ⟨3, 2015, 7, 1⟩, ⟨4, 2015, 10, 1⟩, ⟨5, 2015, 12, 1⟩]

/-- C17 is false for a second run of the same model object over the same year: the first run ends with the off-season of that year recorded,
`reset` keeps it, and the second run applies the licence out of season, at the start and at the end. -/
theorem C17_rerun_fails : ∃ (c : SeasonalCfg) (ts : List Stamp),
    (List.range 6).map (fun k => (Seasonal.runFrom c Seasonal.new (ts.take (k + 1))).annual.active) =
      [false, false, true, true, false, false] ∧
    (List.range 6).map (fun k => (Seasonal.runFrom c (Seasonal.runFrom c Seasonal.new ts).reset (ts.take (k + 1))).annual.active) =
      [true, true, true, true, true, true] :=
  ⟨summer, yearEx, by decide +kernel, by decide +kernel⟩

/-- C17 is false for timesteps that jump over the off-season: here from February (winter season over the new year) to November of the same
year. -/
theorem C17_coarse_fails : ∃ (c : SeasonalCfg) (ts : List Stamp), (∀ t ∈ ts, InSeason c t) ∧
    (Seasonal.runFrom c Seasonal.new ts).annual.active = false :=
  ⟨⟨⟨⟨10, 1⟩, false, false⟩, ⟨3, 31⟩⟩, [⟨0, 2015, 2, 1⟩, ⟨1, 2015, 11, 1⟩], by decide +kernel, by decide +kernel⟩

private instance (c : SeasonalCfg) (t u : Stamp) : Decidable (FineStep c t u) := by unfold FineStep; infer_instance

example : summer.date.code ≠ summer.endDate.code ∧ List.IsChain (FineStep summer) yearEx ∧
    (∀ t ∈ yearEx, t.day < 32) ∧ Seasonal.new.lastActive ≠ some 2015 := by decide +kernel

end Verif.VirtualStorage

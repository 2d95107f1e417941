import Verif.Spec.License
import Mathlib.Tactic.Linarith
import Mathlib.Tactic.Ring
import Mathlib.Tactic.FieldSimp
import Mathlib.Tactic.Positivity
import Mathlib.Algebra.BigOperators.Group.List.Basic
import Mathlib.Data.List.Forall2
/-! # C78: storage licences; licences as costs -/

namespace Verif.License

/-- Volumes taken in the timesteps. -/
private def total (ts : List Step) : Rat := (ts.map fun t => t.flow * (t.len : Rat)).sum

/-- **C78.**  A storage licence, whatever the node takes: the value in a timestep is the amount less all that was taken before, zero when more than the amount was taken. -/
theorem C78_storage_left (amount : Rat) (ha : 0 ≤ amount) (ts : List Step) (hv : ∀ t ∈ ts, 0 ≤ t.flow) (s : State) (i : Nat) (v : Rat)
    (hi : (storageValues (s.reset amount) ts)[i]? = some v) : v = max 0 (amount - ((ts.take i).map fun t => t.flow * (t.len : Rat)).sum) := by
  have nonneg : ∀ (ts : List Step), (∀ t ∈ ts, 0 ≤ t.flow) → 0 ≤ total ts := by
    intro ts
    induction ts with
    | nil => intro _; simp [total]
    | cons t ts ih =>
      intro h
      have h1 := ih fun u hu => h u (List.mem_cons_of_mem _ hu)
      have h2 := mul_nonneg (h t (by simp)) (show (0 : Rat) ≤ t.len by exact_mod_cast Nat.zero_le _)
      have e : total (t :: ts) = t.flow * (t.len : Rat) + total ts := by simp [total]
      linarith
  have key : ∀ (ts : List Step) (s : State), (∀ t ∈ ts, 0 ≤ t.flow) → 0 ≤ s.remaining → ∀ (i : Nat) (v : Rat), (storageValues s ts)[i]? = some v →
      v = max 0 (s.remaining - total (ts.take i)) := by
    intro ts
    induction ts with
    | nil => intro s _ _ i v h; simp [storageValues] at h
    | cons t ts ih =>
      intro s hv h i v hi
      simp only [storageValues] at hi
      cases i with
      | zero => simp at hi; simp [total, ← hi, h]
      | succ i =>
        rw [List.getElem?_cons_succ] at hi
        have hv' : ∀ t ∈ ts, 0 ≤ t.flow := fun u hu => hv u (List.mem_cons_of_mem _ hu)
        have e : total ((t :: ts).take (i + 1)) = t.flow * (t.len : Rat) + total (ts.take i) := by simp [total]
        have hn := nonneg (ts.take i) fun u hu => hv' u (List.mem_of_mem_take hu)
        by_cases c : s.remaining - t.flow * t.len < 0
        · have hr : (s.after t).remaining = 0 := by unfold State.after; simp only; rw [if_pos c]
          have := ih (s.after t) hv' (by rw [hr]) i v hi
          rw [hr] at this
          rw [this, e, max_eq_left (by linarith), max_eq_left (by linarith)]
        · have hr : (s.after t).remaining = s.remaining - t.flow * t.len := by unfold State.after; simp only; rw [if_neg c]
          have := ih (s.after t) hv' (by rw [hr]; linarith) i v hi
          rw [hr] at this
          rw [this, e]
          congr 1
          ring
  exact key ts (s.reset amount) hv ha i v hi

/-- **C78.**  If no timestep takes a volume greater than the value of the storage licence, the volume taken over the run is at most the licensed amount.  Partial: the value is used as a limit of the flow, see
`C78_week_fails`. -/
theorem C78_storage_partial (amount : Rat) (ha : 0 ≤ amount) (ts : List Step) (s : State)
    (hf : List.Forall₂ (fun t v => t.flow * (t.len : Rat) ≤ v) ts (storageValues (s.reset amount) ts)) : (ts.map fun t => t.flow * (t.len : Rat)).sum ≤ amount := by
  have key : ∀ (ts : List Step) (s : State), 0 ≤ s.remaining → List.Forall₂ (fun t v => t.flow * (t.len : Rat) ≤ v) ts (storageValues s ts) → total ts ≤ s.remaining := by
    intro ts
    induction ts with
    | nil => intro s h _; simpa [total] using h
    | cons t ts ih =>
      intro s h hf
      simp only [storageValues] at hf
      cases hf with
      | cons h1 h2 =>
        have hr : (s.after t).remaining = s.remaining - t.flow * t.len := by
          unfold State.after
          simp only
          rw [if_neg (by linarith)]
        have i1 := ih (s.after t) (by rw [hr]; linarith) h2
        rw [hr] at i1
        have e : total (t :: ts) = t.flow * (t.len : Rat) + total ts := by simp [total]
        linarith
  exact key ts (s.reset amount) ha hf

/-- Three timesteps of a day, using up the licence. -/
example : List.Forall₂ (fun t v => t.flow * (t.len : Rat) ≤ v) [(⟨2001, 1, 1, 4, 0⟩ : Step), ⟨2001, 2, 1, 6, 4⟩, ⟨2001, 3, 1, 0, 6⟩]
    (storageValues (State.reset 10 ⟨0, none⟩) [(⟨2001, 1, 1, 4, 0⟩ : Step), ⟨2001, 2, 1, 6, 4⟩, ⟨2001, 3, 1, 0, 6⟩]) := by
  have : storageValues (State.reset 10 ⟨0, none⟩) [(⟨2001, 1, 1, 4, 0⟩ : Step), ⟨2001, 2, 1, 6, 4⟩, ⟨2001, 3, 1, 0, 6⟩] = [10, 6, 0] := by decide +kernel
  rw [this]
  refine .cons ?_ (.cons ?_ (.cons ?_ .nil)) <;> norm_num

/-- **C78, fails** for longer timesteps.  The value of a storage licence is a volume but limits a flow: a node that keeps to it takes up to the length of the timestep times the licensed amount. -/
theorem C78_week_fails : ∃ (amount : Rat) (ts : List Step), 0 < amount ∧ List.Forall₂ (fun t v => t.flow ≤ v) ts (storageValues (State.new amount) ts) ∧
    (ts.map fun t => t.flow * (t.len : Rat)).sum = 7 * amount := by
  refine ⟨10, [⟨2001, 1, 7, 10, 0⟩], by norm_num, ?_, by decide +kernel⟩
  have : storageValues (State.new 10) [⟨2001, 1, 7, 10, 0⟩] = [10] := by decide +kernel
  rw [this]
  exact .cons (le_refl _) .nil

private theorem days_pos (y : Nat) : (0 : Rat) < (daysInYear y : Rat) := by
  have : 0 < daysInYear y := by unfold daysInYear; omega
  exact_mod_cast this

private theorem ratio_eq {amount : Rat} (ha : 0 < amount) (s : State) {t : Step} (h : t.Valid) :
    s.ratio amount t = s.remaining * (daysInYear t.year : Rat) / (amount * ((daysInYear t.year - (t.doy - 1) : Nat) : Rat)) := by
  have hd := days_pos t.year
  obtain ⟨h1, h2, -, -⟩ := h
  have hr : (0 : Rat) < ((daysInYear t.year - (t.doy - 1) : Nat) : Rat) := by
    have : 0 < daysInYear t.year - (t.doy - 1) := by omega
    exact_mod_cast this
  unfold State.ratio State.value
  split
  · rename_i he
    have : daysInYear t.year - (t.doy - 1) = 1 := by omega
    rw [this, Nat.cast_one]
    field_simp
  · field_simp

/-- **C78.**  With daily timesteps, whatever the node takes (it need not keep to the licence), what remains of an annual licence stays between zero and the annual amount, in every timestep of every run. -/
theorem C78_remaining (amount : Rat) (ha : 0 ≤ amount) (ts : List Step) (hc : Consecutive ts) (hv : ∀ t ∈ ts, t.Valid ∧ 0 ≤ t.flow ∧ t.len = 1)
    (h0 : ∀ t ∈ ts.head?, t.prevFlow = 0) (s : State) : ∀ u ∈ states amount (s.reset amount) ts, 0 ≤ u.remaining ∧ u.remaining ≤ amount := by
  have key : ∀ (ts : List Step) (s : State), Consecutive ts → (∀ t ∈ ts, t.Valid ∧ 0 ≤ t.flow ∧ t.len = 1) →
      (∀ t ∈ ts.head?, 0 ≤ (s.before amount t).remaining ∧ (s.before amount t).remaining ≤ amount ∧ (s.before amount t).prevYear = some t.year) →
      ∀ u ∈ states amount s ts, 0 ≤ u.remaining ∧ u.remaining ≤ amount := by
    intro ts
    induction ts with
    | nil => intro s _ _ _ u hu; simp [states] at hu
    | cons t ts ih =>
      intro s hc hv hb u hu
      obtain ⟨b1, b2, b3⟩ := hb t (by simp)
      simp only [states, List.mem_cons] at hu
      rcases hu with rfl | hu
      · exact ⟨b1, b2⟩
      · generalize s.before amount t = b at b1 b2 b3 hu
        have ha1 : 0 ≤ (b.after t).remaining ∧ (b.after t).remaining ≤ amount := by
          have : 0 ≤ t.flow * (t.len : Rat) := mul_nonneg (hv t (by simp)).2.1 (by exact_mod_cast Nat.zero_le _)
          unfold State.after
          simp only
          split
          · exact ⟨le_refl _, ha⟩
          · rename_i h; exact ⟨not_lt.1 h, by linarith⟩
        cases ts with
        | nil => simp [states] at hu
        | cons w ts =>
          refine ih (b.after t) hc.2 (fun x hx => hv x (List.mem_cons_of_mem _ hx)) ?_ u hu
          intro w' hw'
          simp only [List.head?_cons, Option.mem_def, Option.some.injEq] at hw'
          subst hw'
          obtain ⟨-, hn⟩ := hc.1
          have hl := (hv t (by simp)).2.2
          have hd := (hv t (by simp)).1.2.1
          rcases hn with ⟨-, h2, -⟩ | ⟨h1, h2, h3⟩
          · have hbu : (b.after t).before amount w = b.after t := by
              unfold State.before State.after
              simp only [b3, h2, ne_eq, not_true, if_false]
            rw [hbu]
            exact ⟨ha1.1, ha1.2, by unfold State.after; simp only [b3, h2]⟩
          · have hw1 : w.doy - 1 = 0 := by omega
            have hbu : (b.after t).before amount w = ⟨amount, some w.year⟩ := by
              unfold State.before State.after
              simp only [b3, h2, ne_eq, Option.some.injEq]
              rw [if_pos (by omega), hw1]; simp
            rw [hbu]
            exact ⟨ha, le_refl _, rfl⟩
  refine key ts (s.reset amount) hc hv ?_
  intro t ht
  have hp := h0 t ht
  unfold State.before State.reset
  split
  · exact ⟨by simpa [hp] using ha, by simp [hp], rfl⟩
  · rename_i h; exact ⟨ha, le_refl _, by simpa using h⟩

/-- **C78.**  The exponential licence: on track it is `max_value · exp(-1/k)`; it falls as more remains; with nothing remaining it is `max_value`, and with any non-negative remainder it is positive and at
most `max_value`.  Partial: see `C78_exceeds_fails`. -/
theorem C78_exponential_partial (amount : Rat) (ha : 0 < amount) (maxValue k : ℝ) (hm : 0 < maxValue) (hk : 0 < k) (s s' : State) (t : Step) (ht : t.Valid) :
    (OnTrack amount s t → s.exponential amount maxValue k t = maxValue * Real.exp (-1 / k)) ∧
    (s.remaining < s'.remaining → s'.exponential amount maxValue k t < s.exponential amount maxValue k t) ∧
    (s.remaining = 0 → s.exponential amount maxValue k t = maxValue) ∧
    (0 ≤ s.remaining → 0 < s.exponential amount maxValue k t ∧ s.exponential amount maxValue k t ≤ maxValue) := by
  have hd := days_pos t.year
  have hr : (0 : Rat) < ((daysInYear t.year - (t.doy - 1) : Nat) : Rat) := by
    obtain ⟨h1, h2, -, -⟩ := ht
    have : 0 < daysInYear t.year - (t.doy - 1) := by omega
    exact_mod_cast this
  have e1 := ratio_eq ha s ht
  have e2 := ratio_eq ha s' ht
  unfold State.exponential
  refine ⟨?_, ?_, ?_, ?_⟩
  · intro h
    have : s.ratio amount t = 1 := by
      rw [e1, h]; exact div_self (mul_pos ha hr).ne'
    rw [this]; norm_num
  · intro h
    have hlt : s.ratio amount t < s'.ratio amount t := by
      rw [e1, e2]
      exact div_lt_div_of_pos_right (mul_lt_mul_of_pos_right h hd) (mul_pos ha hr)
    have : (s.ratio amount t : ℝ) < (s'.ratio amount t : ℝ) := by exact_mod_cast hlt
    refine mul_lt_mul_of_pos_left (Real.exp_lt_exp.2 ?_) hm
    exact div_lt_div_of_pos_right (by linarith) hk
  · intro h
    have : s.ratio amount t = 0 := by rw [e1, h]; simp
    rw [this]; simp
  · intro h
    have h0 : 0 ≤ s.ratio amount t := by rw [e1]; exact div_nonneg (mul_nonneg h hd.le) (mul_pos ha hr).le
    have h1 : (0 : ℝ) ≤ (s.ratio amount t : ℝ) := by exact_mod_cast h0
    refine ⟨mul_pos hm (Real.exp_pos _), ?_⟩
    have : Real.exp (-(s.ratio amount t : ℝ) / k) ≤ 1 := by
      rw [Real.exp_le_one_iff]
      exact div_nonpos_of_nonpos_of_nonneg (by linarith) hk.le
    nlinarith

/-- **C78.**  The hyperbola licence: on track it is `value`; it is inversely proportional to what remains, so it falls as more remains; with nothing remaining it is infinite. -/
theorem C78_hyperbola (amount : Rat) (ha : 0 < amount) (value : Rat) (hv : 0 < value) (s : State) (t : Step) (ht : t.Valid) :
    (OnTrack amount s t → s.hyperbola amount value t = .num value) ∧ (s.hyperbola amount value t = .inf ↔ s.remaining = 0) ∧
    (∀ x, s.hyperbola amount value t = .num x → x * s.remaining * (daysInYear t.year : Rat) = value * amount * ((daysInYear t.year - (t.doy - 1) : Nat) : Rat)) ∧
    (∀ s' : State, 0 < s.remaining → s.remaining < s'.remaining →
      ∃ x x', s.hyperbola amount value t = .num x ∧ s'.hyperbola amount value t = .num x' ∧ 0 < x' ∧ x' < x) := by
  have hd := days_pos t.year
  have hr : (0 : Rat) < ((daysInYear t.year - (t.doy - 1) : Nat) : Rat) := by
    obtain ⟨h1, h2, -, -⟩ := ht
    have : 0 < daysInYear t.year - (t.doy - 1) := by omega
    exact_mod_cast this
  have e := fun s => ratio_eq ha s ht
  have hz : ∀ s : State, s.ratio amount t = 0 ↔ s.remaining = 0 := by
    intro s
    rw [e s, div_eq_zero_iff, mul_eq_zero]
    constructor
    · rintro ((h | h) | h)
      · exact h
      · exact absurd h hd.ne'
      · exact absurd h (mul_pos ha hr).ne'
    · intro h; exact .inl (.inl h)
  unfold State.hyperbola
  refine ⟨?_, ?_, ?_, ?_⟩
  · intro h
    have : s.ratio amount t = 1 := by rw [e s, h]; exact div_self (mul_pos ha hr).ne'
    rw [this]; simp
  · rw [← hz s]
    split
    · rename_i h; simp [h]
    · rename_i h; simp [h]
  · intro x hx
    split at hx
    · cases hx
    · rename_i h
      injection hx with hx
      rw [← hx, e s]
      have : s.remaining ≠ 0 := fun c => h ((hz s).2 c)
      field_simp
  · intro s' h1 h2
    have n1 : s.ratio amount t ≠ 0 := fun c => h1.ne' ((hz s).1 c)
    have n2 : s'.ratio amount t ≠ 0 := fun c => (h1.trans h2).ne' ((hz s').1 c)
    refine ⟨_, _, if_neg n1, if_neg n2, ?_, ?_⟩
    · refine div_pos hv ?_
      rw [e s']; exact div_pos (mul_pos (h1.trans h2) hd) (mul_pos ha hr)
    · have p1 : 0 < s.ratio amount t := by rw [e s]; exact div_pos (mul_pos h1 hd) (mul_pos ha hr)
      refine div_lt_div_of_pos_left hv p1 ?_
      rw [e s, e s']
      exact div_lt_div_of_pos_right (mul_lt_mul_of_pos_right h2 hd) (mul_pos ha hr)

/-- On 1 July of an ordinary year (day 182), with 184 days left. -/
example : OnTrack 3650 ⟨1840, some 2001⟩ ⟨2001, 182, 1, 0, 0⟩ ∧ (⟨2001, 182, 1, 0, 0⟩ : Step).Valid := by
  constructor
  · unfold OnTrack; decide +kernel
  · unfold Step.Valid; decide

/-- **C78, fails** for longer timesteps.  The node need not keep to a licence that is used as a cost; a week over the end of a year with a large flow leaves less than nothing for the new year, and the exponential
licence exceeds its documented maximum. -/
theorem C78_exceeds_fails (maxValue k : ℝ) (hm : 0 < maxValue) (hk : 0 < k) : ∃ (ts : List Step) (t : Step) (u : State), Consecutive ts ∧ (∀ t ∈ ts, t.Valid ∧ 0 ≤ t.flow) ∧ t ∈ ts ∧
    u ∈ states 100 (State.new 100) ts ∧ maxValue < u.exponential 100 maxValue k t := by
  refine ⟨[⟨2001, 365, 7, 50, 0⟩, ⟨2002, 7, 7, 0, 50⟩], ⟨2002, 7, 7, 0, 50⟩, ⟨-200, some 2002⟩, ⟨⟨rfl, by decide⟩, trivial⟩, ?_, by simp, ?_, ?_⟩
  · unfold Step.Valid; decide +kernel
  · have h : ((State.new 100).before 100 ⟨2001, 365, 7, 50, 0⟩).after ⟨2001, 365, 7, 50, 0⟩ = ⟨0, some 2001⟩ := by
      simp [State.new, State.before, State.after]
      norm_num
    simp only [states, List.mem_cons]
    right; left
    rw [h]
    simp [State.before]
    norm_num
  · unfold State.exponential
    have : ((State.mk (-200) (some 2002)).ratio 100 ⟨2002, 7, 7, 0, 50⟩) = -730 / 359 := by decide +kernel
    rw [this]
    have : 1 < Real.exp (-((-730 / 359 : Rat) : ℝ) / k) := by
      rw [Real.one_lt_exp_iff]
      have : (0 : ℝ) < -((-730 / 359 : Rat) : ℝ) := by norm_num
      exact div_pos this hk
    nlinarith

end Verif.License

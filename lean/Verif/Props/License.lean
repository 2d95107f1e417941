import Verif.Spec.License
import Verif.Spec.Calendar
import Mathlib.Tactic.Linarith
import Mathlib.Tactic.Ring
import Mathlib.Tactic.FieldSimp
import Mathlib.Algebra.BigOperators.Group.List.Basic
import Mathlib.Data.List.Forall2
/-! # C36: annual licences -/

namespace Verif.License

private theorem daysInYear_ge (y : Nat) : 365 ≤ daysInYear y := by unfold daysInYear; omega

private theorem value_mul {s : State} {t : Step} (h : t.Valid) :
    s.value t * ((daysInYear t.year - (t.doy - 1) : Nat) : Rat) = s.remaining := by
  unfold State.value
  obtain ⟨h1, h2, -, -⟩ := h
  split
  · rename_i he
    have : daysInYear t.year - (t.doy - 1) = 1 := by omega
    rw [this]; simp
  · have : ((daysInYear t.year - (t.doy - 1) : Nat) : Rat) ≠ 0 := by
      have : daysInYear t.year - (t.doy - 1) ≠ 0 := by omega
      exact_mod_cast this
    field_simp

private theorem used_cons (t : Step) (ts : List Step) (y : Nat) : used (t :: ts) y = t.flow * t.daysIn y + used ts y := by
  simp [used]

/-- Years before the first timestep see nothing. -/
private theorem used_before : ∀ (ts : List Step), Consecutive ts → ∀ y, (∀ t ∈ ts.head?, y < t.year) → used ts y = 0
  | [], _, y, _ => by simp [used]
  | [t], _, y, h => by
    have := h t (by simp)
    rw [used_cons]
    simp only [Step.daysIn, used, List.map_nil, List.sum_nil]
    rw [if_neg (by omega), if_neg (by omega)]; simp
  | t :: u :: ts, hc, y, h => by
    have hy := h t (by simp)
    have := used_before (u :: ts) hc.2 y (by
      intro v hv
      simp at hv; subst hv
      rcases hc.1.2 with h | h <;> omega)
    rw [used_cons, this]
    simp only [Step.daysIn]
    rw [if_neg (by omega), if_neg (by omega)]; simp

private theorem main (amount : Rat) (ha : 0 ≤ amount) : ∀ (t : Step) (ts : List Step) (s : State),
    Consecutive (t :: ts) → (∀ u ∈ t :: ts, u.Valid ∧ 0 ≤ u.flow ∧ (u.spill : Rat) * u.flow ≤ amount) →
    List.Forall₂ (fun u v => u.flow ≤ v) (t :: ts) (values amount s (t :: ts)) →
    0 ≤ (s.before amount t).remaining → (s.before amount t).prevYear = some t.year →
    used (t :: ts) t.year ≤ (s.before amount t).remaining ∧ (∀ y, t.year < y → used (t :: ts) y ≤ amount) ∧
      ∀ v ∈ values amount s (t :: ts), 0 ≤ v := by
  intro t ts
  induction ts generalizing t with
  | nil =>
    intro s hc hv hf hR hp
    obtain ⟨hval, hfl, hsp⟩ := hv t (by simp)
    simp only [values] at hf ⊢
    generalize s.before amount t = b at hf hR hp ⊢
    cases hf with
    | cons hf _ =>
      have hm := value_mul (s := b) hval
      set rem := daysInYear t.year - (t.doy - 1) with hrem
      have hval0 : 0 ≤ b.value t := by
        have : (0 : Rat) < rem := by
          have : 0 < rem := by have := hval.2.1; have := hval.1; omega
          exact_mod_cast this
        by_contra hneg
        have := mul_neg_of_neg_of_pos (not_le.1 hneg) this
        linarith
      refine ⟨?_, ?_, by simpa using hval0⟩
      · rw [used_cons]
        simp only [Step.daysIn, used, List.map_nil, List.sum_nil, if_true, add_zero]
        have hle : ((t.len - t.spill : Nat) : Rat) ≤ rem := by
          have : t.len - t.spill ≤ rem := by
            unfold Step.spill; have := hval.1; have := hval.2.1; omega
          exact_mod_cast this
        calc t.flow * ((t.len - t.spill : Nat) : Rat) ≤ b.value t * rem :=
              mul_le_mul hf hle (by exact_mod_cast Nat.zero_le _) hval0
          _ = b.remaining := hm
      · intro y hy
        rw [used_cons]
        simp only [Step.daysIn, used, List.map_nil, List.sum_nil, add_zero]
        rw [if_neg (by omega)]
        split
        · rw [mul_comm]; exact hsp
        · simpa using ha
  | cons u ts ih =>
    intro s hc hv hf hR hp
    obtain ⟨hval, hfl, hsp⟩ := hv t (by simp)
    simp only [values] at hf ⊢
    generalize s.before amount t = b at hf hR hp ⊢
    cases hf with
    | cons hf hrest =>
      have hm := value_mul (s := b) hval
      set rem := daysInYear t.year - (t.doy - 1) with hrem
      have hval0 : 0 ≤ b.value t := by
        have : (0 : Rat) < rem := by
          have : 0 < rem := by have := hval.2.1; have := hval.1; omega
          exact_mod_cast this
        by_contra hneg
        have := mul_neg_of_neg_of_pos (not_le.1 hneg) this
        linarith
      have hle : ((t.len - t.spill : Nat) : Rat) ≤ rem := by
        have : t.len - t.spill ≤ rem := by
          unfold Step.spill; have := hval.1; have := hval.2.1; omega
        exact_mod_cast this
      have huse : t.flow * ((t.len - t.spill : Nat) : Rat) ≤ b.remaining :=
        calc t.flow * ((t.len - t.spill : Nat) : Rat) ≤ b.value t * rem :=
              mul_le_mul hf hle (by exact_mod_cast Nat.zero_le _) hval0
          _ = b.remaining := hm
      have hv' : ∀ w ∈ u :: ts, w.Valid ∧ 0 ≤ w.flow ∧ (w.spill : Rat) * w.flow ≤ amount := fun w hw => hv w (List.mem_cons_of_mem _ hw)
      obtain ⟨hpf, hnext⟩ := hc.1
      rcases hnext with ⟨h1, h2, h3⟩ | ⟨h1, h2, h3⟩
      · -- the next timestep is in the same year
        have hspill : t.spill = 0 := by unfold Step.spill; omega
        rw [hspill, Nat.sub_zero] at huse
        have hbu : (b.after t).before amount u = b.after t := by
          unfold State.before State.after
          simp only [hp, h2, ne_eq, not_true, if_false]
        have hra : (b.after t).remaining = b.remaining - t.flow * t.len := by
          unfold State.after
          simp only
          rw [if_neg (by linarith)]
        obtain ⟨i1, i2, i3⟩ := ih u (b.after t) hc.2 hv' hrest (by rw [hbu, hra]; linarith) (by
          rw [hbu]; unfold State.after; simp only [hp, h2])
        rw [hbu, hra, h2] at i1
        refine ⟨?_, ?_, ?_⟩
        · rw [used_cons]
          simp only [Step.daysIn, if_true, hspill, Nat.sub_zero]
          linarith
        · intro y hy
          rw [used_cons]
          have := i2 y (by omega)
          simp only [Step.daysIn, hspill]
          rw [if_neg (by omega)]
          simpa using this
        · intro v hv
          rcases List.mem_cons.1 hv with rfl | hv
          · exact hval0
          · exact i3 v hv
      · -- the next timestep is in the following year
        have hspill : t.spill = u.doy - 1 := by unfold Step.spill; omega
        have hbu : (b.after t).before amount u = ⟨amount - (t.spill : Rat) * t.flow, some u.year⟩ := by
          unfold State.before State.after
          simp only [hp, h2, ne_eq, Option.some.injEq]
          rw [if_pos (by omega), hpf, hspill]
        obtain ⟨i1, i2, i3⟩ := ih u (b.after t) hc.2 hv' hrest (by rw [hbu]; simp only; linarith) (by rw [hbu])
        rw [hbu] at i1
        simp only at i1
        refine ⟨?_, ?_, ?_⟩
        · rw [used_cons, used_before (u :: ts) hc.2 t.year (by simp; omega)]
          simp only [Step.daysIn, if_true, add_zero]
          exact huse
        · intro y hy
          rw [used_cons]
          simp only [Step.daysIn]
          rw [if_neg (by omega)]
          by_cases hy1 : t.year + 1 = y
          · rw [if_pos hy1]
            rw [h2, hy1] at i1
            linarith
          · rw [if_neg hy1]
            have := i2 y (by omega)
            simpa using this
        · intro v hv
          rcases List.mem_cons.1 hv with rfl | hv
          · exact hval0
          · exact i3 v hv

/-- The years of the licences are those of the Gregorian calendar. -/
theorem C36_year (y : Nat) : (Calendar.Gregorian y → daysInYear y = 366) ∧ (¬ Calendar.Gregorian y → daysInYear y = 365) := by
  have h : isleap y = true ↔ Calendar.Gregorian y := by
    unfold isleap Calendar.Gregorian
    simp only [Bool.and_eq_true, beq_iff_eq, Bool.or_eq_true, bne_iff_ne, ne_eq]
    omega
  unfold daysInYear
  exact ⟨fun g => by rw [if_pos (h.2 g)], fun g => by rw [if_neg (fun e => g (h.1 e))]⟩

example : Calendar.Gregorian 2000 ∧ ¬ Calendar.Gregorian 2100 := by unfold Calendar.Gregorian; omega

/-- **C36 (partial: any timestep length).** In every run of consecutive timesteps (of at most 365 days) in which the node never takes more than the value of
the annual licence, and in which no timestep reaching over the end of a year takes more than a full annual amount in its new-year part, the volume taken in every calendar
year is at most the licensed amount and the value is never negative. The first timestep of the run has no previous flow. Missing: without the condition on the turn of the year
it is false, `C36_turn_fails`. -/
theorem C36_any_length_partial (amount : Rat) (ha : 0 ≤ amount) (ts : List Step) (hc : Consecutive ts)
    (hv : ∀ t ∈ ts, t.Valid ∧ 0 ≤ t.flow ∧ (t.spill : Rat) * t.flow ≤ amount) (h0 : ∀ t ∈ ts.head?, t.prevFlow = 0)
    (s : State) (hf : List.Forall₂ (fun t v => t.flow ≤ v) ts (values amount (s.reset amount) ts)) :
    (∀ y, used ts y ≤ amount) ∧ ∀ v ∈ values amount (s.reset amount) ts, 0 ≤ v := by
  cases ts with
  | nil => exact ⟨fun y => by simpa [used] using ha, by simp [values]⟩
  | cons t ts =>
    have hp0 : t.prevFlow = 0 := h0 t (by simp)
    have hb : ((s.reset amount).before amount t).remaining = amount ∧ ((s.reset amount).before amount t).prevYear = some t.year := by
      unfold State.before State.reset
      split
      · simp [hp0]
      · rename_i h; exact ⟨rfl, by simpa using h⟩
    obtain ⟨h1, h2, h3⟩ := main amount ha t ts (s.reset amount) hc hv hf (by rw [hb.1]; exact ha) hb.2
    rw [hb.1] at h1
    refine ⟨fun y => ?_, h3⟩
    rcases lt_trichotomy y t.year with h | h | h
    · rw [used_before (t :: ts) hc y (by simpa using h)]; exact ha
    · rw [h]; exact h1
    · exact h2 y h

/-- **C36.** With daily timesteps: if the node never takes more than the value of the annual licence, the volume taken in every calendar year is at most the
licensed amount, and the value is never negative. Any number of years, leap or not, starting on any day; `s` is whatever state an earlier run left. -/
theorem C36_daily (amount : Rat) (ha : 0 ≤ amount) (ts : List Step) (hc : Consecutive ts) (hv : ∀ t ∈ ts, t.Valid ∧ 0 ≤ t.flow)
    (hd : ∀ t ∈ ts, t.len = 1) (h0 : ∀ t ∈ ts.head?, t.prevFlow = 0) (s : State)
    (hf : List.Forall₂ (fun t v => t.flow ≤ v) ts (values amount (s.reset amount) ts)) :
    (∀ y, ((ts.filter fun t => t.year = y).map Step.flow).sum ≤ amount) ∧ ∀ v ∈ values amount (s.reset amount) ts, 0 ≤ v := by
  have hsp : ∀ t ∈ ts, t.spill = 0 := by
    intro t ht
    have h1 := (hv t ht).1.2.1
    have h2 := hd t ht
    unfold Step.spill; omega
  obtain ⟨h1, h2⟩ := C36_any_length_partial amount ha ts hc (fun t ht => ⟨(hv t ht).1, (hv t ht).2, by rw [hsp t ht]; simpa using ha⟩) h0 s hf
  refine ⟨fun y => ?_, h2⟩
  have e : ((ts.filter fun t => t.year = y).map Step.flow).sum = used ts y := by
    clear h1 h2 hf h0 hc
    induction ts with
    | nil => simp [used]
    | cons t ts ih =>
      have ih := ih (fun u hu => hv u (by simp [hu])) (fun u hu => hd u (by simp [hu])) (fun u hu => hsp u (by simp [hu]))
      rw [used_cons, ← ih]
      have h3 := hsp t (by simp)
      have h4 := hd t (by simp)
      simp only [Step.daysIn, h3, h4]
      by_cases hy : t.year = y
      · simp [hy]
      · simp [hy]
  rw [e]; exact h1 y

/-- Three days over the end of a leap year, taking everything that is allowed. -/
example : ∃ ts : List Step, ts.length = 3 ∧ Consecutive ts ∧ (∀ t ∈ ts, t.Valid ∧ 0 ≤ t.flow) ∧ (∀ t ∈ ts, t.len = 1) ∧ (∀ t ∈ ts.head?, t.prevFlow = 0) ∧
    List.Forall₂ (fun t v => t.flow ≤ v) ts (values 730 (State.new 730 |>.reset 730) ts) := by
  refine ⟨[⟨2000, 365, 1, 365, 0⟩, ⟨2000, 366, 1, 365, 365⟩, ⟨2001, 1, 1, 2, 365⟩], rfl, ?_, ?_, ?_, by simp, ?_⟩
  · refine ⟨⟨rfl, ?_⟩, ⟨rfl, ?_⟩, trivial⟩ <;> decide
  · unfold Step.Valid; decide +kernel
  · decide
  · have : values 730 (State.new 730 |>.reset 730) [⟨2000, 365, 1, 365, 0⟩, ⟨2000, 366, 1, 365, 365⟩, ⟨2001, 1, 1, 2, 365⟩] = [365, 365, 2] := by decide +kernel
    rw [this]
    exact .cons (le_refl _) (.cons (le_refl _) (.cons (le_refl _) .nil))

/-- **C36 fails** for longer timesteps at the turn of the year: an unused licence may be taken at its full amount per day in a week starting on 31 December; the
following year then starts with six times the amount taken already, and the value of the licence is negative. -/
theorem C36_turn_fails : ∃ (amount : Rat) (ts : List Step), 0 ≤ amount ∧ Consecutive ts ∧ (∀ t ∈ ts, t.Valid ∧ 0 ≤ t.flow) ∧ (∀ t ∈ ts.head?, t.prevFlow = 0) ∧
    List.Forall₂ (fun t v => t.flow ≤ v) (ts.take 1) (values amount (State.new amount) (ts.take 1)) ∧ amount < used (ts.take 1) 2002 ∧
    ∃ v ∈ values amount (State.new amount) ts, v < 0 := by
  refine ⟨100, [⟨2001, 365, 7, 100, 0⟩, ⟨2002, 7, 7, 0, 100⟩], by norm_num, ⟨⟨rfl, by decide⟩, trivial⟩, ?_, by simp, ?_, by decide +kernel, ?_⟩
  · unfold Step.Valid; decide +kernel
  · have : values 100 (State.new 100) (List.take 1 [⟨2001, 365, 7, 100, 0⟩, ⟨2002, 7, 7, 0, 100⟩]) = [100] := by decide +kernel
    rw [this]
    exact .cons (le_refl _) .nil
  · have : values 100 (State.new 100) [⟨2001, 365, 7, 100, 0⟩, ⟨2002, 7, 7, 0, 100⟩] = [100, -500 / 359] := by decide +kernel
    rw [this]
    exact ⟨-500 / 359, by simp, by norm_num⟩

end Verif.License

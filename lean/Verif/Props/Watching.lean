import Verif.Spec.Watching
import Mathlib.Tactic.Ring
import Mathlib.Tactic.Linarith
import Mathlib.Tactic.FieldSimp
import Mathlib.Tactic.NormNum
import Mathlib.Tactic.IntervalCases
import Mathlib.Data.Rat.Floor
import Mathlib.Algebra.BigOperators.Group.List.Basic
/-!
C102: recorders that watch a run.
-/

namespace Verif.Watching

private theorem allclose_iff (v x : Option Rat) : allclose v x = true ↔ AsExpected v x := by
  rcases v with _ | a <;> rcases x with _ | d <;> simp [allclose, AsExpected]
  constructor <;> intro h <;> linarith

private theorem value_iff (e : Expected) (t s : Nat) (x : Option Rat) : e.value t s = .ok x ↔ e.Is t s x := by
  rcases e with ⟨_ | f, _ | rows⟩ <;> simp only [Expected.value, Expected.Is]
  · simp
  · rcases h : rows[t]? with _ | row
    · simp [h]
    · rcases h2 : row[s]? with _ | y
      · simp [h, h2]
      · simp only [h2, Except.ok.injEq, reduceCtorEq, false_and, exists_false, Option.some.injEq, true_and, false_or]
        constructor
        · rintro rfl; exact ⟨rows, row, rfl, h, h2⟩
        · rintro ⟨_, _, rfl, h3, h4⟩
          rw [h] at h3; cases h3; rw [h2] at h4; cases h4; rfl
  · simp [eq_comm]
  · simp [eq_comm]

private theorem check_iff (e : Expected) (values : Nat → Nat → Option Rat) (t : Nat) (ss : List Nat) :
    checkScenarios e values t ss = .ok () ↔ ∀ s ∈ ss, ∃ x, e.Is t s x ∧ AsExpected (values t s) x := by
  induction ss with
  | nil => simp [checkScenarios]
  | cons s ss ih =>
    simp only [checkScenarios, List.forall_mem_cons]
    rcases h : e.value t s with err | x
    · simp only [reduceCtorEq, false_iff, not_and]
      rintro ⟨x, hx, -⟩
      rw [(value_iff e t s x).2 hx] at h; cases h
    · have hu : ∀ y, e.Is t s y → y = x := fun y hy => by
        rw [(value_iff e t s y).2 hy] at h; cases h; rfl
      have hx := (value_iff e t s x).1 h
      simp only
      by_cases hc : allclose (values t s) x = true
      · rw [if_pos hc, ih]
        exact ⟨fun h' => ⟨⟨x, hx, (allclose_iff _ _).1 hc⟩, h'⟩, fun h' => h'.2⟩
      · rw [if_neg hc]
        simp only [reduceCtorEq, false_iff, not_and]
        rintro ⟨y, hy, hy'⟩
        rw [hu y hy] at hy'
        exact absurd ((allclose_iff _ _).2 hy') hc

private theorem steps_iff (e : Expected) (values : Nat → Nat → Option Rat) (n : Nat) (ts : List Nat) :
    ∀ a, (assertSteps e values n a ts).1 = .ok () ↔ ∀ t ∈ ts, checkScenarios e values t (List.range n) = .ok () := by
  induction ts with
  | nil => simp [assertSteps]
  | cons t ts ih =>
    intro a
    simp only [assertSteps, Asserting.after, List.forall_mem_cons]
    rcases h : checkScenarios e values t (List.range n) with x | u
    · simp
    · simp [ih]

/-- **C102.** A run with an assertion passes exactly if there is an expected value for every timestep and scenario and the value of the parameter is as expected. -/
theorem C102_assertion (e : Expected) (values : Nat → Nat → Option Rat) (scenarios timesteps : Nat) :
    (assertSteps e values scenarios Asserting.setup (List.range timesteps)).1 = .ok () ↔
      ∀ t s, t < timesteps → s < scenarios → ∃ x, e.Is t s x ∧ AsExpected (values t s) x := by
  simp only [steps_iff, check_iff, List.mem_range]
  exact ⟨fun h t s ht hs => h t ht s hs, fun h t ht s hs => h t s ht hs⟩

private theorem check_where {e : Expected} {values : Nat → Nat → Option Rat} {t : Nat} {ss : List Nat} {t' s' : Nat}
    (h : checkScenarios e values t ss = .error (.assertion t' s')) : t' = t ∧ ∃ pre post, ss = pre ++ s' :: post ∧
      (∀ s ∈ pre, ∃ x, e.Is t s x ∧ AsExpected (values t s) x) ∧ ∃ x, e.Is t s' x ∧ ¬ AsExpected (values t s') x := by
  induction ss with
  | nil => simp [checkScenarios] at h
  | cons s ss ih =>
    simp only [checkScenarios] at h
    rcases hv : e.value t s with err | x
    · rw [hv] at h
      simp only [Except.error.injEq] at h
      subst h
      rcases e with ⟨_ | f, _ | rows⟩ <;> simp only [Expected.value] at hv
      · cases hv
      · rcases h1 : rows[t]? with _ | row <;> simp only [h1] at hv
        · cases hv
        · rcases h2 : row[s]? with _ | y <;> simp only [h2] at hv <;> cases hv
      · cases hv
      · cases hv
    · rw [hv] at h
      have hx := (value_iff e t s x).1 hv
      by_cases hc : allclose (values t s) x = true
      · simp only [if_pos hc] at h
        obtain ⟨h1, pre, post, h2, h3, h4⟩ := ih h
        refine ⟨h1, s :: pre, post, by rw [h2]; rfl, ?_, h4⟩
        intro r hr
        rcases List.mem_cons.1 hr with rfl | hr
        · exact ⟨x, hx, (allclose_iff _ _).1 hc⟩
        · exact h3 r hr
      · simp only [if_neg hc, Except.error.injEq, Err.assertion.injEq] at h
        obtain ⟨rfl, rfl⟩ := h
        exact ⟨rfl, [], ss, rfl, by simp, x, hx, fun h' => hc ((allclose_iff _ _).2 h')⟩

/-- **C102.** A failing assertion names the first timestep, and in it the first scenario, whose value is not as expected. -/
theorem C102_first (e : Expected) (values : Nat → Nat → Option Rat) (scenarios timesteps t s : Nat)
    (h : (assertSteps e values scenarios Asserting.setup (List.range timesteps)).1 = .error (.assertion t s)) :
    t < timesteps ∧ s < scenarios ∧ (∃ x, e.Is t s x ∧ ¬ AsExpected (values t s) x) ∧
      ∀ t' s', (t' < t ∧ s' < scenarios) ∨ (t' = t ∧ s' < s) → ∃ x, e.Is t' s' x ∧ AsExpected (values t' s') x := by
  have key : ∀ (ts : List Nat) a, (assertSteps e values scenarios a ts).1 = .error (.assertion t s) → ∃ pre post, ts = pre ++ t :: post ∧
      (∀ r ∈ pre, checkScenarios e values r (List.range scenarios) = .ok ()) ∧ checkScenarios e values t (List.range scenarios) = .error (.assertion t s) := by
    intro ts
    induction ts with
    | nil => simp [assertSteps]
    | cons r ts ih =>
      intro a h
      simp only [assertSteps, Asserting.after] at h
      rcases hc : checkScenarios e values r (List.range scenarios) with x | u
      · rw [hc] at h
        simp only [Except.error.injEq] at h
        subst h
        obtain ⟨rfl, -⟩ := check_where hc
        exact ⟨[], ts, rfl, by simp, hc⟩
      · rw [hc] at h
        obtain ⟨pre, post, h1, h2, h3⟩ := ih _ h
        refine ⟨r :: pre, post, by rw [h1]; rfl, ?_, h3⟩
        intro q hq
        rcases List.mem_cons.1 hq with rfl | hq
        · exact hc
        · exact h2 q hq
  have split : ∀ (n x : Nat) (pre post : List Nat), List.range n = pre ++ x :: post → x < n ∧ pre = List.range x := by
    intro n x pre post h
    have hl : pre.length < n := by
      have := congrArg List.length h
      simp at this; omega
    have hx : x = pre.length := by
      have h1 : (List.range n)[pre.length]? = some x := by rw [h]; simp
      rw [List.getElem?_range hl] at h1
      simpa using h1.symm
    refine ⟨by omega, ?_⟩
    have h2 : (List.range n).take pre.length = pre := by rw [h]; simp
    rw [← h2, List.take_range, hx]
    congr 1
    simp; omega
  obtain ⟨pre, post, h1, h2, h3⟩ := key _ _ h
  obtain ⟨-, pre', post', h4, h5, h6⟩ := check_where h3
  obtain ⟨ht, rfl⟩ := split _ _ _ _ h1
  obtain ⟨hs, rfl⟩ := split _ _ _ _ h4
  refine ⟨ht, hs, h6, ?_⟩
  rintro t' s' (⟨ht', hs'⟩ | ⟨rfl, hs'⟩)
  · exact (check_iff _ _ _ _).1 (h2 t' (List.mem_range.2 ht')) s' (List.mem_range.2 hs')
  · exact h5 s' (List.mem_range.2 hs')

/-! ## Progress -/

private theorem percent_floor {k n : Nat} (hn : 0 < n) : Percent (k + 1) n (((k : Rat) + 1) / n * 100).floor := by
  have hn' : (0 : Rat) < n := by exact_mod_cast hn
  have h1 : (((((k : Rat) + 1) / n * 100).floor : Int) : Rat) ≤ ((k : Rat) + 1) / n * 100 := Int.floor_le _
  have h2 : ((k : Rat) + 1) / n * 100 < (((((k : Rat) + 1) / n * 100).floor : Int) : Rat) + 1 := Int.lt_floor_add_one _
  have he : (((k : Rat) + 1) / n * 100) * n = 100 * (k + 1) := by field_simp
  generalize (((k : Rat) + 1) / n * 100).floor = p at *
  have h3 := mul_le_mul_of_nonneg_right h1 hn'.le
  have h4 := mul_lt_mul_of_pos_right h2 hn'
  rw [he] at h3 h4
  unfold Percent
  push_cast
  exact ⟨by exact_mod_cast h3, by exact_mod_cast h4⟩

private theorem percent_unique {k n : Nat} {p q : Int} (hp : Percent k n p) (hq : Percent k n q) : p = q := by
  have h1 : p < q + 1 := lt_of_mul_lt_mul_right (lt_of_le_of_lt hp.1 hq.2) (by omega)
  have h2 : q < p + 1 := lt_of_mul_lt_mul_right (lt_of_le_of_lt hq.1 hp.2) (by omega)
  omega

private theorem percent_mono {j k n : Nat} {p q : Int} (hjk : j ≤ k) (hp : Percent j n p) (hq : Percent k n q) : p ≤ q := by
  have h1 : p < q + 1 := lt_of_mul_lt_mul_right (lt_of_le_of_lt (hp.1.trans (by omega)) hq.2) (by omega)
  omega

/-- What holds after `k` timesteps. -/
private structure Inv (n c k : Nat) (ms : List Message) (p : Progress) : Prop where
  last : (k = 0 ∧ p.lastProgress = -1) ∨ (k ≠ 0 ∧ Percent k n p.lastProgress)
  sorted : (ms.map Message.percent).Pairwise (· < ·)
  below : ∀ m ∈ ms, m.percent ≤ p.lastProgress
  range : ∀ m ∈ ms, ∃ j, 0 < j ∧ j ≤ k ∧ Percent j n m.percent
  now : k ≠ 0 → (ms.getLast?.map Message.percent) = some p.lastProgress

private theorem inv_step {n c : Nat} (hn : 0 < n) (clock : Nat → Rat) (k : Nat) :
    Inv n c k (progressSteps n c clock k).1 (progressSteps n c clock k).2 := by
  induction k with
  | zero => exact ⟨.inl ⟨rfl, rfl⟩, by simp [progressSteps], by simp [progressSteps], by simp [progressSteps], by simp⟩
  | succ k ih =>
    rcases hx : progressSteps n c clock k with ⟨ms, p⟩
    rw [hx] at ih
    have hq := percent_floor (k := k) hn
    have key : ∀ (m : Message) (p' : Progress), m.percent = (((k : Rat) + 1) / n * 100).floor → p'.lastProgress = (((k : Rat) + 1) / n * 100).floor →
        (((k : Rat) + 1) / n * 100).floor > p.lastProgress → Inv n c (k + 1) (ms ++ [m]) p' := by
      intro m p' hm hp hgt
      refine ⟨.inr ⟨by omega, by rw [hp]; exact hq⟩, ?_, ?_, ?_, by simp [hm, hp]⟩
      · rw [List.map_append, List.pairwise_append]
        refine ⟨ih.sorted, by simp, ?_⟩
        intro a ha b hb
        obtain ⟨m', hm', rfl⟩ := List.mem_map.1 ha
        simp only [List.map_cons, List.map_nil, List.mem_singleton] at hb
        have := ih.below m' hm'
        simp only at this
        rw [hb, hm]; omega
      · intro m' hm'
        rcases List.mem_append.1 hm' with h | h
        · have := ih.below m' h
          simp only at this
          rw [hp]; omega
        · simp only [List.mem_singleton] at h
          rw [h, hm, hp]
      · intro m' hm'
        rcases List.mem_append.1 hm' with h | h
        · obtain ⟨j, h1, h2, h3⟩ := ih.range m' h
          exact ⟨j, h1, by omega, h3⟩
        · simp only [List.mem_singleton] at h
          exact ⟨k + 1, by omega, le_refl _, by rw [h, hm]; exact hq⟩
    simp only [progressSteps, hx, Progress.after]
    by_cases hgt : (((k : Rat) + 1) / n * 100).floor > p.lastProgress
    · rw [if_pos hgt]
      by_cases h1 : (((k : Rat) + 1) / n * 100).floor ≥ 1
      · rw [if_pos h1]; exact key _ _ rfl rfl hgt
      · rw [if_neg h1]; exact key _ _ rfl rfl hgt
    · rw [if_neg hgt]
      have hk : k ≠ 0 ∧ Percent k n p.lastProgress := by
        rcases ih.last with h | h
        · exfalso
          obtain ⟨rfl, h⟩ := h
          simp only at h
          rw [h] at hgt
          apply hgt
          have : (0 : Int) < ((((0 : Nat) : Rat) + 1) / n * 100).floor + 1 := by
            refine lt_of_mul_lt_mul_right (a := (n : Int)) (lt_of_le_of_lt ?_ hq.2) (by omega)
            push_cast; omega
          omega
        · exact h
      have he : (((k : Rat) + 1) / n * 100).floor = p.lastProgress := le_antisymm (not_lt.1 hgt) (percent_mono (Nat.le_succ k) hk.2 hq)
      refine ⟨.inr ⟨by omega, by simp only; rw [← he]; exact hq⟩, ih.sorted, ih.below, ?_, fun _ => ih.now hk.1⟩
      intro m hm
      obtain ⟨j, h1, h2, h3⟩ := ih.range m hm
      exact ⟨j, h1, by omega, h3⟩

/-- **C102.** The percentages that are shown grow from message to message and are those of completed timesteps; after each timestep the last one shown is the current one. -/
theorem C102_progress (n c : Nat) (clock : Nat → Rat) (k : Nat) (hk : 0 < k) (hkn : k ≤ n) :
    ((progressSteps n c clock k).1.map Message.percent).Pairwise (· < ·) ∧
      (∀ m ∈ (progressSteps n c clock k).1, 0 ≤ m.percent ∧ m.percent ≤ 100) ∧
      ∃ p, ((progressSteps n c clock k).1.map Message.percent).getLast? = some p ∧ Percent k n p := by
  have hn : 0 < n := by omega
  have h := inv_step (c := c) hn clock k
  refine ⟨h.sorted, ?_, ?_⟩
  · intro m hm
    obtain ⟨j, h1, h2, h3⟩ := h.range m hm
    constructor
    · have : (0 : Int) < m.percent + 1 := lt_of_mul_lt_mul_right (a := (n : Int)) (lt_of_le_of_lt (by omega) h3.2) (by omega)
      omega
    · by_contra hc
      have h4 : (101 : Int) * n ≤ m.percent * n := by gcongr; omega
      have := h3.1
      omega
  · refine ⟨_, by rw [List.getLast?_map]; exact h.now (by omega), ?_⟩
    rcases h.last with h' | h'
    · omega
    · exact h'.2

/-- **C102.** The bar ends as a success exactly if all timesteps have been completed. -/
theorem C102_success (n c : Nat) (clock : Nat → Rat) (k : Nat) (hn : 0 < n) (hkn : k ≤ n) : barSuccess (progressSteps n c clock k).1 = true ↔ k = n := by
  unfold barSuccess bar
  rw [decide_eq_true_iff]
  by_cases hk : k = 0
  · subst hk
    simp [progressSteps]; omega
  · obtain ⟨-, -, p, h1, h2⟩ := C102_progress n c clock k (by omega) hkn
    rw [List.getLast?_map] at h1
    rw [h1, Option.getD_some]
    constructor
    · intro hp
      have : (100 : Int) * n ≤ p * n := by gcongr
      have := h2.1
      omega
    · rintro rfl
      by_contra hc
      have h3 : (p + 1) * (k : Int) ≤ 100 * k := by gcongr; omega
      have := h2.2
      omega

/-! ## Speed -/

/-- The steps that are counted for the messages with a speed. -/
private theorem counted (n c : Nat) (clock : Nat → Rat) (k : Nat) (hk : ∀ m ∈ (progressSteps n c clock k).1, 1 ≤ m.percent) :
    (((progressSteps n c clock k).1.map fun m => (m.speed.map Prod.fst).getD 0).sum = ((progressSteps n c clock k).2.lastTimestep : Int) * c) ∧
      (((progressSteps n c clock k).1.map fun m => (m.speed.map Prod.snd).getD 0).sum = (progressSteps n c clock k).2.t0 - clock 0) := by
  induction k with
  | zero => simp [progressSteps, Progress.reset]
  | succ k ih =>
    rcases hx : progressSteps n c clock k with ⟨ms, p⟩
    rw [hx] at ih
    simp only [progressSteps, hx, Progress.after] at hk ⊢
    by_cases hgt : (((k : Rat) + 1) / n * 100).floor > p.lastProgress
    · rw [if_pos hgt] at hk ⊢
      by_cases h1 : (((k : Rat) + 1) / n * 100).floor ≥ 1
      · rw [if_pos h1] at hk ⊢
        obtain ⟨ih1, ih2⟩ := ih fun m' h => hk m' (List.mem_append_left _ h)
        simp only [List.map_append, List.sum_append, List.map_cons, List.map_nil, List.sum_cons, List.sum_nil, Option.map_some, Option.getD_some]
        simp only at ih1 ih2
        rw [ih1, ih2]
        constructor
        · ring
        · ring
      · rw [if_neg h1] at hk
        exact absurd (hk _ (List.mem_append_right _ (List.mem_singleton.2 rfl))) h1
    · rw [if_neg hgt] at hk ⊢
      exact ih hk

private theorem every (n c : Nat) (clock : Nat → Rat) (hn : 0 < n) (h100 : n ≤ 100) (k : Nat) : (∀ m ∈ (progressSteps n c clock k).1, 1 ≤ m.percent) ∧
    (k ≠ 0 → (progressSteps n c clock k).2.lastTimestep + 1 = k) ∧ (progressSteps n c clock k).2.t0 = clock k := by
  induction k with
  | zero => simp [progressSteps, Progress.reset]
  | succ k ih =>
    have inv := inv_step (c := c) hn clock k
    rcases hx : progressSteps n c clock k with ⟨ms, p⟩
    rw [hx] at ih inv
    have hq := percent_floor (k := k) hn
    simp only [progressSteps, hx, Progress.after]
    have h1 : (((k : Rat) + 1) / n * 100).floor ≥ 1 := by
      have : (1 : Int) < (((k : Rat) + 1) / n * 100).floor + 1 := lt_of_mul_lt_mul_right (a := (n : Int)) (lt_of_le_of_lt (by push_cast; omega) hq.2) (by omega)
      omega
    have hgt : (((k : Rat) + 1) / n * 100).floor > p.lastProgress := by
      rcases inv.last with h | h
      · have := h.2; simp only at this; omega
      · have h3 := h.2.1
        simp only at h3
        have : p.lastProgress + 1 < (((k : Rat) + 1) / n * 100).floor + 1 := by
          refine lt_of_mul_lt_mul_right (a := (n : Int)) (lt_of_le_of_lt ?_ hq.2) (by omega)
          push_cast
          have : (n : Int) ≤ 100 := by omega
          linarith
        omega
    rw [if_pos hgt, if_pos h1]
    refine ⟨?_, fun _ => rfl, rfl⟩
    intro m hm
    rcases List.mem_append.1 hm with h | h
    · exact ih.1 m h
    · simp only [List.mem_singleton] at h
      rw [h]; exact h1

/-- **C102.** The speeds account for the time from the start of the run to the last message: each is the number of steps between two messages divided by the time between them.  But one timestep too few is
counted: with at most a hundred timesteps, the steps of all speeds of a complete run add up to those of all timesteps but one. -/
theorem C102_speed_fails (n c : Nat) (clock : Nat → Rat) (hn : 0 < n) (h100 : n ≤ 100) :
    ((progressSteps n c clock n).1.map fun m => (m.speed.map Prod.fst).getD 0).sum = ((n : Int) - 1) * c ∧
      ((progressSteps n c clock n).1.map fun m => (m.speed.map Prod.snd).getD 0).sum = clock n - clock 0 := by
  obtain ⟨h1, h2, h3⟩ := every n c clock hn h100 n
  obtain ⟨h4, h5⟩ := counted n c clock n h1
  have h2 := h2 (by omega)
  rw [h4, h5, h3]
  refine ⟨?_, rfl⟩
  congr 1
  omega

/-! ## Cases -/

example : ∃ e : Expected, (assertSteps e (fun t s => some (t + s)) 2 Asserting.setup (List.range 3)).1 = .ok () ∧
    (assertSteps e (fun t s => some (2 * t + s)) 2 Asserting.setup (List.range 3)).1 = .error (.assertion 1 0) := by
  refine ⟨⟨none, some [[some 0, some 1], [some 1, some 2], [some 2, some 3]]⟩, ?_, ?_⟩
  · have h : ∀ t s : Nat, t < 3 → s < 2 → checkScenarios ⟨none, some [[some 0, some 1], [some 1, some 2], [some 2, some 3]]⟩ (fun t s => some (t + s)) t [s] = .ok () := by
      intro t s ht hs
      interval_cases t <;> interval_cases s <;> norm_num [checkScenarios, Expected.value, allclose]
    exact (C102_assertion _ _ _ _).2 fun t s ht hs => (check_iff _ _ _ _).1 (h t s ht hs) s (by simp)
  · norm_num [assertSteps, Asserting.after, checkScenarios, Expected.value, allclose, List.range, List.range.loop]

example : ((progressSteps 3 2 (fun k => k) 3).1 = [⟨33, some (0, 1)⟩, ⟨66, some (2, 1)⟩, ⟨100, some (2, 1)⟩]) := by decide +kernel

/-- **C102.** The bar shows the percentage of the timesteps completed: zero before the first. -/
theorem C102_bar (n c : Nat) (clock : Nat → Rat) (k : Nat) (hn : 0 < n) (hkn : k ≤ n) : Percent k n (bar (progressSteps n c clock k).1) := by
  by_cases hk : k = 0
  · subst hk
    exact ⟨by simp [progressSteps, bar], by simp [progressSteps, bar]; omega⟩
  · obtain ⟨-, -, p, h1, h2⟩ := C102_progress n c clock k (by omega) hkn
    rw [List.getLast?_map] at h1
    unfold bar
    rw [h1]
    exact h2

/-! ## What does not hold -/

/-- An assertion that has never been checked should be reported, but passes, with or without another exception. -/
theorem C102_never_called_fails (e : Option Err) : Asserting.setup.count = 0 ∧ Asserting.setup.finish e = true := ⟨rfl, rfl⟩

/-- **C102 (count).** The calls are counted: after timesteps without exception the count has grown by their number. Finishing never complains, whatever the count. -/
theorem C102_count_fails (e : Expected) (values : Nat → Nat → Option Rat) (scenarios : Nat) (ts : List Nat) (a : Asserting) :
    ((assertSteps e values scenarios a ts).1 = .ok () → (assertSteps e values scenarios a ts).2.count = a.count + ts.length) ∧ ∀ x, a.finish x = true := by
  refine ⟨?_, fun x => rfl⟩
  induction ts generalizing a with
  | nil => intro _; rfl
  | cons t ts ih =>
    simp only [assertSteps, Asserting.after, List.length_cons]
    rcases checkScenarios e values t (List.range scenarios) with x | u
    · intro h; cases h
    · intro h
      rw [ih _ h]
      simp only; omega

/-- Near zero the comparison is exact: a value that differs from an expected zero by the smallest rounding error is rejected. -/
theorem C102_zero_fails (a : Rat) (ha : a ≠ 0) : ¬ AsExpected (some a) (some 0) := by
  rintro (⟨h, -⟩ | ⟨a', d, h1, h2, h3⟩)
  · cases h
  · cases h1; cases h2
    have := abs_pos.2 ha
    simp only [sub_zero, abs_zero] at h3
    linarith

end Verif.Watching

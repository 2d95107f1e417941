import Verif.Proof.Memory
import Verif.Spec.Memory
import Mathlib.Tactic.Linarith
import Mathlib.Algebra.Order.BigOperators.Group.List
import Mathlib.Tactic.Ring
import Mathlib.Tactic.FieldSimp
/-! # C29 (delay node), C32 (thresholds), C34 (flow delay), C35 (rolling mean) and the one-step memories -/

namespace Verif.Memory

/-! ## C34 -/

/-- **C34.** After a successful setup with `n` steps and a reset from whatever state, the value in timestep `t` (the flows of timesteps
`0 … t - 1` having been stored) is the flow of timestep `t - n` in the same scenario, or the initial flow before that. -/
theorem C34_value (c : DelayCfg) (delta : Option Int) (n : Nat) (hs : c.steps delta = .ok n) (s : Delay) (hl : s.mem.length = n)
    (flows : List Vec) (t : Nat) (ht : t ≤ flows.length) (sc : Nat) :
    ((s.reset c.initial).run n (flows.take t)).value sc =
      some (if t < n then c.initial else (flows.getD (t - n) fun _ => 0) sc) := by
  have hn := DelayCfg.steps_pos hs
  rw [Delay.value_run hn hl]
  have hlen : (flows.take t).length = t := by simp [ht]
  rw [hlen]
  split
  · rename_i h
    rw [List.getElem?_append_left (by simpa using h)]
    simp [h]
  · rename_i h
    rw [List.getElem?_append_right (by simpa using h)]
    simp only [List.length_replicate]
    have hlt : t - n < flows.length := by omega
    rw [List.getElem?_take, if_pos (by omega)]
    simp [List.getD, hlt]

/-- **C34 (days).** A delay given in days is used exactly when it is a multiple of the timestep length, and then spans that many days;
the delay is at least one timestep. -/
theorem C34_setup (c : DelayCfg) (d : Int) (hd : 0 < d) (n : Nat) :
    c.steps (some d) = .ok n ↔ 1 ≤ n ∧ ((0 < c.days ∧ (n : Int) * d = c.days) ∨ (c.days ≤ 0 ∧ c.timesteps = n)) := by
  unfold DelayCfg.steps
  by_cases h : c.days > 0
  · rw [if_pos h]
    simp only
    by_cases hm : c.days % d = 0
    · rw [if_pos hm]
      simp only
      have hdvd : c.days / d * d = c.days := Int.ediv_mul_cancel (Int.dvd_of_emod_eq_zero hm)
      constructor
      · intro hh
        split at hh
        · cases hh
        · injection hh with hh
          refine ⟨by omega, .inl ⟨h, ?_⟩⟩
          rw [← hh, Int.toNat_of_nonneg (by omega)]; exact hdvd
      · rintro ⟨h1, ⟨_, h2⟩ | ⟨h2, _⟩⟩
        · have : c.days / d = n := by
            rw [← h2]; exact Int.mul_ediv_cancel _ (by omega)
          rw [this, if_neg (by omega)]; simp
        · omega
    · rw [if_neg hm]
      refine ⟨fun hh => (by cases hh), ?_⟩
      rintro ⟨h1, ⟨-, h2⟩ | ⟨h2, -⟩⟩
      · exact absurd (by rw [← h2]; exact Int.mul_emod_left _ _) hm
      · omega
  · rw [if_neg h]
    simp only
    constructor
    · intro hh
      split at hh
      · cases hh
      · injection hh with hh
        exact ⟨by omega, .inr ⟨by omega, by omega⟩⟩
    · rintro ⟨h1, ⟨h2, _⟩ | ⟨_, h2⟩⟩
      · omega
      rw [if_neg (by omega), h2]; simp

/-- Seven days of delay with daily timesteps, and a rejected one with two-day timesteps; the memory really delays. -/
example : (⟨0, 7, 3⟩ : DelayCfg).steps (some 1) = .ok 7 ∧ (⟨0, 7, 3⟩ : DelayCfg).steps (some 2) = .error .valueError ∧
    (((Delay.setup 2).reset 3).run 2 [fun _ => 10, fun _ => 11, fun _ => 12]).value 0 = some 11 := by decide +kernel

/-! ## C29 -/

/-- **C29 (delay).** In every run of a delay node whose solutions respect the limits of its internal input, the flow leaving (which is the flow
reported for the node) in timestep `t` is the flow that arrived in timestep `t - n`, and the initial flow in the first `n` timesteps. -/
theorem C29_delay (c : DelayCfg) (delta : Option Int) (n : Nat) (hs : c.steps delta = .ok n) (s : Delay) (hl : s.mem.length = n)
    (ts : List DelayStep) (h : DelayNode.Runs n (s.reset c.initial) ts) (t : Nat) (ht : t < ts.length) :
    DelayNode.flow ts[t] = if t < n then c.initial else (ts.getD (t - n) ⟨0, 0⟩).arriving := by
  have hn := DelayCfg.steps_pos hs
  have hm : (s.reset c.initial).mem = List.replicate n fun _ => c.initial := by
    simp only [Delay.reset]
    rw [List.map_const', hl]
  have h2 := DelayNode.runs_leaving (n := n) (by rw [hm]; simp) (by simpa [Delay.reset] using hn) ts h
  have hr : (s.reset c.initial).ring.toList = List.replicate n fun _ => c.initial := by
    have : (s.reset c.initial).ring = Ring.full n fun _ => c.initial := by simp only [Delay.ring, hm]; rfl
    rw [this, Ring.toList_full]
  rw [hr] at h2
  have h3 : (ts.map DelayStep.leaving)[t]? = some ts[t].leaving := by simp [ht]
  rw [h2, List.getElem?_take, if_pos ht] at h3
  unfold DelayNode.flow
  rw [zero_add]
  split
  · rename_i hlt
    rw [List.getElem?_append_left (by simpa using hlt)] at h3
    simp [hlt] at h3
    exact h3.symm
  · rename_i hge
    rw [List.getElem?_append_right (by simpa using hge)] at h3
    have : t - n < ts.length := by omega
    simp [this] at h3
    simp [List.getD, this, h3]

/-- **C29 (conservation).** What has left plus what is still on its way equals what has arrived plus the initial store of `n` times the initial
flow; so with non-negative flows the total outflow never exceeds the total inflow plus the initial store. (Rates: a volume statement for timesteps of equal
length.) -/
theorem C29_conserved (c : DelayCfg) (delta : Option Int) (n : Nat) (hs : c.steps delta = .ok n) (s : Delay) (hl : s.mem.length = n)
    (ts : List DelayStep) (h : DelayNode.Runs n (s.reset c.initial) ts) :
    (ts.map DelayStep.leaving).sum + ((List.replicate n c.initial ++ ts.map DelayStep.arriving).drop ts.length).sum =
        n * c.initial + (ts.map DelayStep.arriving).sum ∧
      (0 ≤ c.initial → (∀ t ∈ ts, 0 ≤ t.arriving) →
        (ts.map DelayStep.leaving).sum ≤ n * c.initial + (ts.map DelayStep.arriving).sum) := by
  have hn := DelayCfg.steps_pos hs
  have hm : (s.reset c.initial).mem = List.replicate n fun _ => c.initial := by
    simp only [Delay.reset]
    rw [List.map_const', hl]
  have h2 := DelayNode.runs_leaving (n := n) (by rw [hm]; simp) (by simpa [Delay.reset] using hn) ts h
  have hr : (s.reset c.initial).ring.toList = List.replicate n fun _ => c.initial := by
    have : (s.reset c.initial).ring = Ring.full n fun _ => c.initial := by simp only [Delay.ring, hm]; rfl
    rw [this, Ring.toList_full]
  rw [hr, List.map_replicate] at h2
  have e : (ts.map DelayStep.leaving).sum + ((List.replicate n c.initial ++ ts.map DelayStep.arriving).drop ts.length).sum =
      n * c.initial + (ts.map DelayStep.arriving).sum := by
    rw [h2, ← List.sum_append, List.take_append_drop, List.sum_append, List.sum_replicate, nsmul_eq_mul]
  refine ⟨e, fun h0 ha => ?_⟩
  have : 0 ≤ ((List.replicate n c.initial ++ ts.map DelayStep.arriving).drop ts.length).sum := by
    apply List.sum_nonneg
    intro x hx
    have hx := List.mem_of_mem_drop hx
    rcases List.mem_append.1 hx with hx | hx
    · rw [(List.mem_replicate.1 hx).2]; exact h0
    · obtain ⟨t, ht, rfl⟩ := List.mem_map.1 hx
      exact ha t ht
  linarith

/-- A run of a two-step delay. -/
example : DelayNode.Runs 2 ((Delay.setup 2).reset 3) [⟨10, 3⟩, ⟨11, 3⟩, ⟨12, 10⟩] := by
  refine ⟨?_, ?_, ?_, trivial⟩ <;> intro v hv <;> simp [Delay.value, Delay.reset, Delay.setup, Delay.after] at hv <;> subst hv <;> simp

/-! ## C35 -/

/-- **C35.** In timestep `t` of a run from the first timestep, after a reset from whatever state, the value is the arithmetic mean of the node's flow in the
previous `min t n` timesteps; the initial flow in the first timestep. -/
theorem C35_value (n : Nat) (hn : 0 < n) (initial : Rat) (s : Mean) (hl : s.mem.length = n) (flows : List Vec) (sc : Nat) :
    (s.reset.run n flows).value n initial flows.length sc =
      if flows.length = 0 then initial
      else (((flows.drop (flows.length - min flows.length n)).map fun f => f sc).sum) / (min flows.length n : Nat) := by
  unfold Mean.value
  split
  · rfl
  · have hl0 : s.reset.mem.length = n := by simp [Mean.reset, hl]
    obtain ⟨-, hlen, -⟩ := Mean.ring_run hl0 (by simp [Mean.reset, hn]) flows
    simp only
    split
    · rename_i h
      rw [(Mean.filling hl hn flows h).1, min_eq_left h, Nat.sub_self, List.drop_zero]
    · rename_i h
      rw [min_eq_right (by omega), List.take_of_length_le (by omega), hlen, Mean.full_sum hl hn flows (by omega)]

/-- **C35 (window).** A window in days is rounded down to whole timesteps; a window of less than one timestep is rejected. -/
theorem C35_setup (ts ds : Int) (d : Int) (hd : 0 < d) (n : Nat) (h0 : 0 ≤ ds) :
    meanSteps (some ts) (some ds) (some d) = .ok n ↔
      1 ≤ n ∧ ((0 < ds ∧ (n : Int) * d ≤ ds ∧ ds < (n + 1) * d) ∨ (ds = 0 ∧ ts = n)) := by
  unfold meanSteps
  simp only [Option.getD_some]
  by_cases h : ds > 0
  · rw [if_neg (by omega)]
    simp only [h, if_true]
    have hdiv : ∀ m : Int, ds / d = m ↔ m * d ≤ ds ∧ ds < (m + 1) * d := by
      intro m
      rw [Int.ediv_eq_iff_of_pos hd]
      constructor
      · rintro ⟨a, b⟩; exact ⟨by linarith, by linarith⟩
      · rintro ⟨a, b⟩; exact ⟨by linarith, by linarith⟩
    constructor
    · intro hh
      split at hh
      · cases hh
      · injection hh with hh
        have : ds / d = n := by omega
        exact ⟨by omega, .inl ⟨trivial, (hdiv n).1 this⟩⟩
    · rintro ⟨h1, ⟨-, h2⟩ | ⟨h2, -⟩⟩
      · rw [(hdiv n).2 h2, if_neg (by omega)]; simp
      · omega
  · have hz : ds = 0 := by omega
    subst hz
    simp only [lt_irrefl, if_false, false_and, false_or, and_true, true_and]
    constructor
    · intro hh
      split at hh
      · cases hh
      · split at hh
        · cases hh
        · injection hh with hh
          exact ⟨by omega, by omega⟩
    · rintro ⟨h1, h2⟩
      rw [if_neg (by omega), if_neg (by omega), h2]; simp

/-- Means over a filling and over a full window. -/
example : (((⟨[fun _ => 9, fun _ => 9], 1⟩ : Mean).reset).run 2 [fun _ => 10]).value 2 7 1 0 = 10 ∧
    (((⟨[fun _ => 9, fun _ => 9], 1⟩ : Mean).reset).run 2 [fun _ => 10, fun _ => 11, fun _ => 12]).value 2 7 3 0 = 23 / 2 := by decide +kernel

/-- **C35 fails** when the run does not start at the first timestep (`Model.reset(start=...)`): the parameter looks at the timestep number instead of the
number of flows stored, so in the first timestep of such a run it is the mean of a cleared memory (0), not the initial flow. -/
theorem C35_late_start_fails : ∃ (n : Nat) (initial : Rat) (s : Mean) (k : Nat), 0 < n ∧ s.mem.length = n ∧ initial ≠ 0 ∧
    (s.reset.run n []).value n initial k 0 = 0 := by
  refine ⟨2, 7, ⟨[fun _ => 0, fun _ => 0], 0⟩, 5, by decide, rfl, by norm_num, by decide +kernel⟩

/-! ## One-step memories -/

/-- **C19/C34 (flow parameter).** A flow parameter gives the initial value in the first timestep and afterwards the flow of the previous timestep. -/
theorem C34_flow_parameter (initial : Rat) (s : Flow) (flows : List Vec) :
    Flow.run (s.reset initial) flows = ((fun _ => initial) :: flows).take flows.length := by
  have key : ∀ (s : Flow) (flows : List Vec), Flow.run s flows = (s.next :: flows).take flows.length := by
    intro s flows
    induction flows generalizing s with
    | nil => rfl
    | cons f fs ih => simp [Flow.run, Flow.calc, Flow.after, ih]
  exact key _ _

/-- **C34 (deficit parameter).** A deficit parameter is zero in the first timestep and afterwards the previous timestep's maximum flow minus flow. -/
theorem C34_deficit_parameter (steps : List (Vec × Vec)) (t : Nat) (ht : t < steps.length) (sc : Nat) :
    ((deficitRun (fun _ => 0) steps)[t]?).map (fun v => v sc) =
      some (if h : t = 0 then 0 else (steps[t - 1]).1 sc - (steps[t - 1]).2 sc) := by
  have key : ∀ (v : Vec) (steps : List (Vec × Vec)),
      deficitRun v steps = (v :: steps.map fun p i => p.1 i - p.2 i).take steps.length := by
    intro v steps
    induction steps generalizing v with
    | nil => rfl
    | cons p rest ih => obtain ⟨mx, fl⟩ := p; simp [deficitRun, ih]
  rw [key, List.getElem?_take, if_pos ht]
  cases t with
  | zero => simp
  | succ t =>
    have : t < steps.length := by omega
    simp [this]

example : Flow.run ((⟨fun _ => 1, fun _ => 1⟩ : Flow).reset 4) [fun _ => 5, fun _ => 6] = [fun _ => 4, fun _ => 5] := by
  rw [C34_flow_parameter]; rfl

/-! ## C32 -/

private theorem compare_iff (p : Predicate) (o : Observation) (sc : Nat) :
    compare p (o.x sc) (o.threshold sc) = true ↔ Satisfies p o sc := by
  unfold Satisfies
  cases hx : o.x sc with
  | none => cases p <;> simp [compare]
  | some x =>
    cases ht : o.threshold sc with
    | none => cases p <;> simp [compare]
    | some t => cases p <;> simp [compare, Predicate.Rel]

/-- Whether the value is looked at in timestep `k`. -/
private def Looks (c : ThresholdCfg) (k : Nat) : Prop := c.first = none ∨ k ≠ 0

private theorem index_spec (c : ThresholdCfg) (k : Nat) (tr : Triggered) (o : Observation) (sc : Nat) :
    (Looks c k → ((thresholdIndex c k tr o sc).1 = 1 ↔ (c.ratchet = true ∧ tr sc = true) ∨ Satisfies c.predicate o sc) ∧
      ((thresholdIndex c k tr o sc).1 = 0 ∨ (thresholdIndex c k tr o sc).1 = 1)) ∧
    ((thresholdIndex c k tr o sc).2 sc = true ↔ tr sc = true ∨
      (Looks c k ∧ Satisfies c.predicate o sc ∧ ¬ (c.ratchet = true ∧ tr sc = true))) := by
  have hb : ((baseIndex c tr o sc).1 = 1 ↔ (c.ratchet = true ∧ tr sc = true) ∨ Satisfies c.predicate o sc) ∧
      ((baseIndex c tr o sc).1 = 0 ∨ (baseIndex c tr o sc).1 = 1) ∧
      ((baseIndex c tr o sc).2 sc = true ↔ tr sc = true ∨ (Satisfies c.predicate o sc ∧ ¬ (c.ratchet = true ∧ tr sc = true))) := by
    unfold baseIndex
    by_cases h : c.ratchet = true ∧ tr sc = true
    · rw [if_pos h]; simp [h]
    · rw [if_neg h]
      simp only [← compare_iff]
      cases compare c.predicate (o.x sc) (o.threshold sc)
      · simp [h]
      · simp only [Bool.true_or, if_true, true_iff, or_true, true_and]
        tauto
  unfold thresholdIndex Looks
  cases hf : c.first with
  | none => exact ⟨fun _ => ⟨hb.1, hb.2.1⟩, by rw [hb.2.2]; tauto⟩
  | some v =>
    by_cases hk : k = 0
    · simp [hk]
    · simp only [hk, if_false]
      exact ⟨fun _ => ⟨hb.1, hb.2.1⟩, by rw [hb.2.2]; tauto⟩

private theorem run_spec (c : ThresholdCfg) (n : Nat) (os : List Observation) (k : Nat) (tr : Triggered) (out : Nat → Int) (t : Nat)
    (ht : t < os.length) (sc : Nat) (hsc : sc < n) :
    ∃ (h : t < (thresholdRun c n k tr out os).length) (tr' : Triggered),
      (thresholdRun c n k tr out os)[t] sc = (thresholdIndex c (k + t) tr' os[t] sc).1 ∧
      (tr' sc = true ↔ tr sc = true ∨ ∃ (u : Nat) (hu : u < t), Looks c (k + u) ∧ Satisfies c.predicate os[u] sc) := by
  induction os generalizing k tr out t with
  | nil => simp at ht
  | cons o os ih =>
    have hmem : sc ∈ List.range n := List.mem_range.2 hsc
    obtain ⟨h1, h2⟩ := (thresholdCalc_spec c k o (List.range n) List.nodup_range tr out sc).1 hmem
    cases t with
    | zero =>
      refine ⟨by simp [thresholdRun], tr, ?_, by simp⟩
      simp only [thresholdRun, List.getElem_cons_zero]
      exact h2
    | succ t =>
      obtain ⟨h, tr', e1, e2⟩ := ih (k + 1) (thresholdCalc c k o (List.range n) (tr, out)).1 (thresholdCalc c k o (List.range n) (tr, out)).2 t
        (by simpa using ht)
      refine ⟨by simpa [thresholdRun] using h, tr', ?_, ?_⟩
      · have e : k + 1 + t = k + (t + 1) := by omega
        rw [e] at e1
        exact e1
      · rw [e2, h1, (index_spec c k tr o sc).2]
        constructor
        · rintro ((h | ⟨h, h', -⟩) | ⟨u, hu, h, h'⟩)
          · exact .inl h
          · exact .inr ⟨0, by omega, h, h'⟩
          · refine .inr ⟨u + 1, by omega, ?_, h'⟩
            have : k + 1 + u = k + (u + 1) := by omega
            rwa [← this]
        · rintro (h | ⟨u, hu, h, h'⟩)
          · exact .inl (.inl h)
          · cases u with
            | zero =>
              by_cases htr : tr sc = true
              · exact .inl (.inl htr)
              · exact .inl (.inr ⟨h, h', fun hh => htr hh.2⟩)
            | succ u =>
              refine .inr ⟨u, by omega, ?_, h'⟩
              have : k + 1 + u = k + (u + 1) := by omega
              rwa [this]

/-- **C32 (predicate).** In every timestep in which it looks at the value, the index of a threshold parameter without ratchet is 1 exactly when the value of
that scenario satisfies the predicate, else 0. -/
theorem C32_predicate (c : ThresholdCfg) (hr : c.ratchet = false) (n : Nat) (tr : Triggered) (out : Nat → Int) (os : List Observation)
    (t : Nat) (ht : t < os.length) (hlook : c.first = none ∨ t ≠ 0) (sc : Nat) (hsc : sc < n) :
    ∃ h : t < (thresholdRun c n 0 (thresholdReset tr) out os).length,
      ((thresholdRun c n 0 (thresholdReset tr) out os)[t] sc = 1 ↔ Satisfies c.predicate os[t] sc) ∧
      ((thresholdRun c n 0 (thresholdReset tr) out os)[t] sc = 0 ↔ ¬ Satisfies c.predicate os[t] sc) := by
  obtain ⟨h, tr', e1, -⟩ := run_spec c n os 0 (thresholdReset tr) out t ht sc hsc
  refine ⟨h, ?_⟩
  rw [e1]
  obtain ⟨⟨i1, i2⟩, -⟩ := (index_spec c (0 + t) tr' os[t] sc).imp_left fun f => f (by simpa [Looks] using hlook)
  rw [hr] at i1
  simp only [Bool.false_eq_true, false_and, false_or] at i1
  refine ⟨i1, ?_⟩
  rw [← i1]
  omega

/-- **C32 (ratchet).** With ratchet the index is 1 exactly when the value of that scenario has satisfied the predicate in some timestep since the reset in
which it was looked at; hence it never goes back to 0, and other scenarios play no role. -/
theorem C32_ratchet_partial (c : ThresholdCfg) (hr : c.ratchet = true) (n : Nat) (tr : Triggered) (out : Nat → Int) (os : List Observation)
    (t : Nat) (ht : t < os.length) (hlook : c.first = none ∨ t ≠ 0) (sc : Nat) (hsc : sc < n) :
    ∃ h : t < (thresholdRun c n 0 (thresholdReset tr) out os).length,
      ((thresholdRun c n 0 (thresholdReset tr) out os)[t] sc = 1 ↔
        ∃ (u : Nat) (hu : u ≤ t), (c.first = none ∨ u ≠ 0) ∧ Satisfies c.predicate os[u] sc) ∧
      ((thresholdRun c n 0 (thresholdReset tr) out os)[t] sc = 0 ∨ (thresholdRun c n 0 (thresholdReset tr) out os)[t] sc = 1) := by
  obtain ⟨h, tr', e1, e2⟩ := run_spec c n os 0 (thresholdReset tr) out t ht sc hsc
  refine ⟨h, ?_⟩
  rw [e1]
  obtain ⟨⟨i1, i2⟩, -⟩ := (index_spec c (0 + t) tr' os[t] sc).imp_left fun f => f (by simpa [Looks] using hlook)
  refine ⟨?_, i2⟩
  rw [i1, e2, hr]
  simp only [thresholdReset, Bool.false_eq_true, false_or, true_and, Looks, zero_add]
  constructor
  · rintro (⟨u, hu, h1, h2⟩ | h2)
    · exact ⟨u, by omega, h1, h2⟩
    · exact ⟨t, le_refl _, hlook, h2⟩
  · rintro ⟨u, hu, h1, h2⟩
    by_cases hut : u = t
    · subst hut; exact .inr h2
    · exact .inl ⟨u, by omega, h1, h2⟩

/-- **C32 (value).** The value of a threshold parameter with two values and without ratchet is the second one when the predicate holds, otherwise the first one; without values there is none (NaN). -/
theorem C32_value (c : ThresholdCfg) (hr : c.ratchet = false) (n : Nat) (tr : Triggered) (out : Nat → Int) (os : List Observation)
    (t : Nat) (ht : t < os.length) (hlook : c.first = none ∨ t ≠ 0) (sc : Nat) (hsc : sc < n) (below above : Rat) :
    ∃ h : t < (thresholdRun c n 0 (thresholdReset tr) out os).length,
      (Satisfies c.predicate os[t] sc → thresholdValue (some [below, above]) ((thresholdRun c n 0 (thresholdReset tr) out os)[t] sc) = some above) ∧
      (¬ Satisfies c.predicate os[t] sc → thresholdValue (some [below, above]) ((thresholdRun c n 0 (thresholdReset tr) out os)[t] sc) = some below) ∧
      thresholdValue none ((thresholdRun c n 0 (thresholdReset tr) out os)[t] sc) = none := by
  obtain ⟨h, h1, h0⟩ := C32_predicate c hr n tr out os t ht hlook sc hsc
  exact ⟨h, fun hs => by rw [h1.2 hs]; rfl, fun hs => by rw [h0.2 hs]; rfl, rfl⟩

example : Satisfies .lt (⟨fun _ => some 3, fun _ => some 5⟩ : Observation) 0 ∧
    ((thresholdRun ⟨.lt, false, none⟩ 1 0 (thresholdReset fun _ => false) (fun _ => 0) [⟨fun _ => some 3, fun _ => some 5⟩]).map fun f => thresholdValue (some [10, 20]) (f 0)) = [some 20] := by
  refine ⟨by norm_num [Satisfies, Predicate.Rel], by decide +kernel⟩

/-- **C32 (first timestep).** Node and recorder thresholds return their fixed first value in the first timestep. -/
theorem C32_first (c : ThresholdCfg) (v : Int) (hf : c.first = some v) (n : Nat) (tr : Triggered) (out : Nat → Int) (os : List Observation)
    (ht : 0 < os.length) (sc : Nat) (hsc : sc < n) :
    ∃ h : 0 < (thresholdRun c n 0 (thresholdReset tr) out os).length, (thresholdRun c n 0 (thresholdReset tr) out os)[0] sc = v := by
  obtain ⟨h, tr', e1, -⟩ := run_spec c n os 0 (thresholdReset tr) out 0 ht sc hsc
  refine ⟨h, ?_⟩
  rw [e1]
  simp [thresholdIndex, hf]

/-- **C32 (first timestep, recorders).** As documented, in the first timestep the predicate of a recorder threshold counts as true in every scenario, unless
another initial value was given. -/
theorem C32_first_recorder (p : Predicate) (ratchet : Bool) (n : Nat) (tr : Triggered) (out : Nat → Int) (os : List Observation)
    (ht : 0 < os.length) (sc : Nat) (hsc : sc < n) :
    (∃ h : 0 < (thresholdRun (recorderThreshold p ratchet none) n 0 (thresholdReset tr) out os).length,
      (thresholdRun (recorderThreshold p ratchet none) n 0 (thresholdReset tr) out os)[0] sc = 1) ∧
    (∀ v : Int, ∃ h : 0 < (thresholdRun (recorderThreshold p ratchet (some v)) n 0 (thresholdReset tr) out os).length,
      (thresholdRun (recorderThreshold p ratchet (some v)) n 0 (thresholdReset tr) out os)[0] sc = v) :=
  ⟨C32_first _ 1 rfl n tr out os ht sc hsc, fun v => C32_first _ v rfl n tr out os ht sc hsc⟩

/-- **C32 fails** for node thresholds: the documentation says that in the first timestep the predicate is true (`_thresholds.pyx:42-45`), yet for every predicate,
every flow and every scenario the index is then 0, also when the comparison itself would hold. -/
theorem C32_first_fails (p : Predicate) (ratchet : Bool) (n : Nat) (tr : Triggered) (out : Nat → Int) (os : List Observation)
    (ht : 0 < os.length) (sc : Nat) (hsc : sc < n) :
    ∃ h : 0 < (thresholdRun (nodeThreshold p ratchet) n 0 (thresholdReset tr) out os).length,
      (thresholdRun (nodeThreshold p ratchet) n 0 (thresholdReset tr) out os)[0] sc = 0 :=
  C32_first _ 0 rfl n tr out os ht sc hsc

/-- No flow, threshold 5, "less than": not triggered in the first timestep by a node threshold, triggered by a recorder threshold. -/
example : ((thresholdRun (nodeThreshold .lt false) 1 0 (thresholdReset fun _ => false) (fun _ => 7)
      [⟨fun _ => some 0, fun _ => some 5⟩, ⟨fun _ => some 0, fun _ => some 5⟩]).map fun f => f 0) = [0, 1] ∧
    ((thresholdRun (recorderThreshold .lt false none) 1 0 (thresholdReset fun _ => false) (fun _ => 7)
      [⟨fun _ => some 8, fun _ => some 5⟩, ⟨fun _ => some 8, fun _ => some 5⟩]).map fun f => f 0) = [1, 0] := by decide +kernel

/-- **C32 fails** for a recorder threshold with ratchet: its first value 1 (the default) is not remembered, so the index falls back from 1
to 0 in spite of the ratchet. -/
theorem C32_ratchet_fails : ∃ (c : ThresholdCfg) (os : List Observation), c.ratchet = true ∧
    ((thresholdRun c 1 0 (thresholdReset fun _ => false) (fun _ => 0) os).map fun f => f 0) = [1, 0] :=
  ⟨⟨.lt, true, some 1⟩, [⟨fun _ => some 5, fun _ => some 3⟩, ⟨fun _ => some 5, fun _ => some 3⟩], rfl, by decide +kernel⟩

/-- Two scenarios with ratchet: only the triggered one stays at 1. -/
example : ((thresholdRun ⟨.lt, true, none⟩ 2 0 (thresholdReset fun _ => true) (fun _ => 7)
    [⟨fun i => some (i : Rat), fun _ => some 1⟩, ⟨fun _ => some 5, fun _ => some 1⟩]).map fun f => (f 0, f 1)) = [(1, 0), (1, 0)] := by decide +kernel

/-- **C32 (multiple thresholds).** The index is the position of the first threshold the value is at or above, or their number. -/
theorem C32_multiple (x : Rat) (ts : List Rat) :
    firstAbove x ts ≤ ts.length ∧ (∀ (j : Nat) (h : j < ts.length), j < firstAbove x ts → x < ts[j]) ∧
      (∀ h : firstAbove x ts < ts.length, ts[firstAbove x ts] ≤ x) := by
  induction ts with
  | nil => simp [firstAbove]
  | cons t ts ih =>
    obtain ⟨h1, h2, h3⟩ := ih
    unfold firstAbove
    by_cases h : x ≥ t
    · simp [h]
    · simp only [h, if_false]
      refine ⟨by simpa using h1, ?_, ?_⟩
      · intro j hj hlt
        cases j with
        | zero => simpa using h
        | succ j => simpa using h2 j (by simpa using hj) (by omega)
      · intro hh
        simpa using h3 (by simpa using hh)

end Verif.Memory

import Verif.Proof.Storage

/-! # C10, C11, C12, C13: storage volumes -/

namespace Verif.Storage

open Verif.Bounds

private theorem step_bounds {tol mn mx : Rat} {s : State} {t : Step} (h : mn ≤ mx)
    (hs : mn ≤ s.volume ∧ s.volume ≤ mx) (htmn : t.mn = mn) (htmx : t.mx = mx) (hd : 0 < t.days)
    (htol : tol * t.days < e6) (hbig : (mx - mn) / t.days < dblMax)
    (hr : Respects tol (storageRow s.volume mx mn t.days) (t.commits.map Commit.net).sum) :
    mn ≤ (s.step t).volume ∧ (s.step t).volume ≤ mx := by
  obtain ⟨y, hy, hxy⟩ := hr
  obtain ⟨h1, h2⟩ := storageRow_admits hs.1 hs.2 hd hbig hy
  rw [step_volume, htmx, htmn]
  rw [abs_le] at hxy
  have m1 := mul_le_mul_of_nonneg_right hxy.1 hd.le
  have m2 := mul_le_mul_of_nonneg_right hxy.2 hd.le
  apply snap_mem h <;> unfold Step.netVolume <;> linarith

/-- **C10.** In every run in which each solver answer respects the storage constraint up to the feasibility tolerance, the
volume after every timestep is between the (fixed) minimum and maximum - exactly, without any accumulation of the
tolerance. -/
theorem C10_volume_in_bounds (tol mn mx : Rat) (h : mn ≤ mx) (s : State) (hs : mn ≤ s.volume ∧ s.volume ≤ mx)
    (ts : List Step) (hrun : FeasibleRun tol mn mx s ts) :
    ∀ k ≤ ts.length, mn ≤ (s.run (ts.take k)).volume ∧ (s.run (ts.take k)).volume ≤ mx := by
  induction ts generalizing s with
  | nil => intro k hk; simpa [State.run] using hs
  | cons t ts ih =>
    obtain ⟨a1, a2, a3, a4, a5, a6, a7⟩ := hrun
    intro k hk
    cases k with
    | zero => simpa [State.run] using hs
    | succ k =>
      have := ih (s.step t) (step_bounds h hs a1 a2 a3 a4 a5 a6) a7 k (by simpa using hk)
      simpa [State.run] using this

/-- **C10 (the constraint is not too strict).** Every net inflow that keeps the volume within the bounds is admitted by the
storage row, except that changes smaller than 1e-8 per day may be rounded to none. -/
theorem C10_row_complete (v mx mn days y : Rat) (hlt : mn < mx) (hd : 0 < days)
    (h1 : mn ≤ v + y * days) (h2 : v + y * days ≤ mx) (hv1 : mn ≤ v) (hv2 : v ≤ mx)
    (hlo : e8 ≤ (v - mn) / days) (hhi : e8 ≤ (mx - v) / days) :
    (storageRow v mx mn days).Admits y := by
  unfold storageRow
  simp only [ne_of_gt hlt, if_false]
  rw [max_eq_left (by linarith), max_eq_left (by linarith)]
  have e8p : (0 : Rat) < e8 := by unfold e8; norm_num
  have n1 : ¬ |(-(v - mn)) / days| < e8 := by
    rw [neg_div, abs_neg, abs_of_nonneg (by linarith)]; linarith
  have n2 : ¬ |(mx - v) / days| < e8 := by rw [abs_of_nonneg (by linarith)]; linarith
  simp only [n1, n2, if_false]
  have y1 : -(v - mn) / days ≤ y := by rw [div_le_iff₀ hd]; linarith
  have y2 : y ≤ (mx - v) / days := by rw [le_div_iff₀ hd]; linarith
  unfold constraintType
  have n3 : ¬ |(-(v - mn)) / days - (mx - v) / days| < e8 := by
    rw [neg_div, abs_sub_comm, abs_of_nonneg (by linarith)]; linarith
  simp only [n3, if_false]
  split_ifs <;> simp only [Row.Admits, y1, y2, and_self]

/-- **C10 (varying maximum).** When the maximum volume falls below the current volume the volume never rises, and never falls
below the minimum. -/
theorem C10_above_maximum (s : State) (t : Step) (hne : t.mx ≠ t.mn) (hd : 0 < t.days)
    (hv : t.mx + e6 ≤ s.volume) (hmn : t.mn ≤ t.mx)
    (hr : (storageRow s.volume t.mx t.mn t.days).Admits (t.commits.map Commit.net).sum)
    (hbig : (s.volume - t.mn) / t.days < dblMax) :
    (s.step t).volume ≤ s.volume ∧ t.mn ≤ (s.step t).volume := by
  have he := e6_pos
  have hD := lt_of_le_of_lt (div_nonneg (by linarith : (0:Rat) ≤ s.volume - t.mn) hd.le) hbig
  have e8p : (0 : Rat) < e8 := by unfold e8; norm_num
  unfold storageRow at hr
  simp only [hne, if_false] at hr
  rw [max_eq_left (by linarith), max_eq_right (by linarith), zero_div, abs_zero, if_pos e8p] at hr
  set lb := -(s.volume - t.mn) / t.days with hlb
  have e1 : lb * t.days = -(s.volume - t.mn) := by rw [hlb]; field_simp
  have hlb0 : lb ≤ 0 := div_nonpos_of_nonpos_of_nonneg (by linarith) hd.le
  have hlb1 : -dblMax < lb := by rw [hlb, neg_div]; linarith
  have hy : lb ≤ (t.commits.map Commit.net).sum ∧ (t.commits.map Commit.net).sum ≤ 0 := by
    have key : ∀ a : Rat, lb ≤ a → a ≤ 0 → (Row.mk (constraintType a 0) a 0).Admits (t.commits.map Commit.net).sum →
        lb ≤ (t.commits.map Commit.net).sum ∧ (t.commits.map Commit.net).sum ≤ 0 := by
      intro a ha ha0 hy
      unfold constraintType at hy
      rw [if_neg (show ¬ (0:Rat) = dblMax by intro hb'; linarith), if_neg (show ¬ a = -dblMax by intro ha'; linarith)] at hy
      by_cases hc : |a - 0| < e8
      · simp only [hc, if_true, Row.Admits] at hy; rw [hy]; constructor <;> linarith
      · simp only [hc, if_false, Row.Admits] at hy; constructor <;> linarith [hy.1, hy.2]
    exact key (if |lb| < e8 then 0 else lb) (by split_ifs <;> linarith) (by split_ifs <;> linarith) hr
  have m1 := mul_le_mul_of_nonneg_right hy.1 hd.le
  have m2 := mul_le_mul_of_nonneg_right hy.2 hd.le
  rw [step_volume]
  unfold Step.netVolume
  set x := s.volume + (t.commits.map Commit.net).sum * t.days with hx
  have hx1 : t.mn ≤ x := by linarith
  have hx2 : x ≤ s.volume := by linarith
  rcases snap_cases t.mx t.mn x with h | h | h <;> rw [h] <;> constructor <;> linarith

example : FeasibleRun (1 / 10000000) 0 10 ⟨5, 0, 0, none⟩
    [⟨1, 10, 0, [.toStore 4, .fromStore 1]⟩, ⟨1, 10, 0, [.fromStore 8]⟩] := by
  refine ⟨rfl, rfl, by norm_num, by unfold e6; norm_num, ?_, ⟨3, ?_, ?_⟩, rfl, rfl, by norm_num, by unfold e6; norm_num,
    ?_, ⟨-8, ?_, ?_⟩, trivial⟩
  · norm_num; unfold dblMax; exact_mod_cast (by decide +kernel : (10 : Int) < 2 ^ 1024 - 2 ^ 971)
  · decide +kernel
  · norm_num [Commit.net]
  · norm_num; unfold dblMax; exact_mod_cast (by decide +kernel : (10 : Int) < 2 ^ 1024 - 2 ^ 971)
  · decide +kernel
  · norm_num [Commit.net]

/-! ## C11 -/

/-- **C11 (mass balance).** Over every run the volume equals the initial volume plus the net volume that entered, up to at
most 1e-6 per timestep, provided in each timestep the bounds are equal or at least 1e-6 apart. -/
theorem C11_mass_balance (s : State) (ts : List Step) (hw : ∀ t ∈ ts, e6 ≤ |t.mx - t.mn| ∨ t.mx = t.mn) :
    |(s.run ts).volume - (s.volume + (ts.map Step.netVolume).sum)| ≤ ts.length * e6 := by
  induction ts generalizing s with
  | nil => simp [State.run]
  | cons t ts ih =>
    have h1 := ih (s.step t) (fun t' ht' => hw t' (by simp [ht']))
    have hw' := hw t (by simp)
    have h2 := snap_err t.mx t.mn (s.volume + t.netVolume) (by tauto)
    rw [← step_volume] at h2
    simp only [State.run, List.foldl_cons, List.map_cons, List.sum_cons, List.length_cons, Nat.cast_add, Nat.cast_one]
      at h1 ⊢
    rw [abs_le] at h1 h2 ⊢
    constructor <;> linarith [h1.1, h1.2, h2.1, h2.2]

/-- **C11 (any bounds).** Without any assumption on the bounds the error is at most 2e-6 per timestep. -/
theorem C11_mass_balance_any (s : State) (ts : List Step) :
    |(s.run ts).volume - (s.volume + (ts.map Step.netVolume).sum)| ≤ ts.length * (2 * e6) := by
  induction ts generalizing s with
  | nil => simp [State.run]
  | cons t ts ih =>
    have h1 := ih (s.step t)
    have h2 := snap_err2 t.mx t.mn (s.volume + t.netVolume)
    rw [← step_volume] at h2
    simp only [State.run, List.foldl_cons, List.map_cons, List.sum_cons, List.length_cons, Nat.cast_add, Nat.cast_one]
      at h1 ⊢
    rw [abs_le] at h1 h2 ⊢
    constructor <;> linarith [h1.1, h1.2, h2.1, h2.2]

/-- **C11 (the bound 2e-6 is needed).** With bounds less than 1e-6 apart a single timestep can change the volume by more than
1e-6. -/
theorem C11_narrow_bounds_fails : ∃ s t, e6 < |(State.step s t).volume - (s.volume + t.netVolume)| :=
  ⟨⟨0, 0, 0, none⟩, ⟨1, 9 / 10000000, 0, [.toStore (18 / 10000000)]⟩, by decide +kernel⟩

/-- **C11 (exactness).** If in no timestep the new volume is within 1e-6 of a bound, the balance is exact. -/
theorem C11_exact (s : State) (ts : List Step)
    (hfar : ∀ k t, ts[k]? = some t →
      e6 ≤ |s.volume + ((ts.take (k + 1)).map Step.netVolume).sum - t.mx| ∧
      e6 ≤ |s.volume + ((ts.take (k + 1)).map Step.netVolume).sum - t.mn|) :
    (s.run ts).volume = s.volume + (ts.map Step.netVolume).sum := by
  induction ts generalizing s with
  | nil => simp [State.run]
  | cons t ts ih =>
    have h0 := hfar 0 t (by simp)
    simp only [zero_add, List.take_succ_cons, List.take_zero, List.map_cons, List.map_nil, List.sum_cons, List.sum_nil,
      add_zero] at h0
    have hv : (s.step t).volume = s.volume + t.netVolume := by
      rw [step_volume]; exact snap_exact (not_lt.2 h0.1) (not_lt.2 h0.2)
    have := ih (s.step t) (by
      intro k t' hk
      have := hfar (k + 1) t' (by simpa using hk)
      rw [hv]
      simpa [add_assoc] using this)
    simp only [State.run, List.foldl_cons, List.map_cons, List.sum_cons] at this ⊢
    rw [this, hv]; ring

example : ∀ k (t : Step), [(⟨1, 10, 0, [.toStore 4, .fromStore 1]⟩ : Step)][k]? = some t →
      e6 ≤ |(5:Rat) + (([(⟨1, 10, 0, [.toStore 4, .fromStore 1]⟩ : Step)].take (k + 1)).map Step.netVolume).sum - t.mx| := by
  intro k t hk
  cases k with
  | zero => simp at hk; subst hk; norm_num [Step.netVolume, Commit.net, e6]
  | succ k => simp at hk

/-! ## C12 -/

/-- **C12 (range).** Whatever the stored fraction (including NaN), the reported fraction is in [0, 1]. -/
theorem C12_range (pc : Option Rat) : 0 ≤ getCurrentPc pc ∧ getCurrentPc pc ≤ 1 := by
  unfold getCurrentPc
  cases pc with
  | none => norm_num
  | some p => simp only; split_ifs <;> constructor <;> linarith

/-- **C12 (meaning after a timestep).** After every timestep the reported fraction is the volume divided by the maximum volume,
clamped to [0, 1]; it is 1 (full) when the maximum volume is zero. -/
theorem C12_after (s : State) (days mx mn : Rat) (adj : Option Rat) :
    getCurrentPc (s.after days mx mn adj).pc =
      if mx = 0 then 1 else max 0 (min 1 ((s.after days mx mn adj).volume / mx)) := by
  have hpc : (s.after days mx mn adj).pc = fraction (s.after days mx mn adj).volume mx := rfl
  rw [hpc]; unfold fraction
  by_cases h : mx = 0
  · simp [h, getCurrentPc]
  · simp only [h, if_false, getCurrentPc]
    generalize (s.after days mx mn adj).volume / mx = p
    split_ifs with h1 h2
    · rw [min_eq_left h1.le]; norm_num
    · rw [min_eq_right (by linarith), max_eq_left h2.le]
    · rw [min_eq_right (by linarith), max_eq_right (by linarith)]

/-- **C12 (meaning after a reset).** The same after `reset`, for a non-zero constant maximum volume. -/
theorem C12_reset (i : Initial) (s s' : State) (m : Rat) (hm : m ≠ 0)
    (hmx : i.mx = .number m ∨ i.mx = .constantParam m) (h : reset i s = .ok s') :
    getCurrentPc s'.pc = max 0 (min 1 (s'.volume / m)) := by
  have clampEq : ∀ p : Rat, getCurrentPc (some p) = max 0 (min 1 p) := by
    intro p; simp only [getCurrentPc]
    split_ifs with h1 h2
    · rw [min_eq_left h1.le]; norm_num
    · rw [min_eq_right (by linarith), max_eq_left h2.le]
    · rw [min_eq_right (by linarith), max_eq_right (by linarith)]
  unfold reset resetStorageOnly at h
  simp only [if_true] at h
  rcases hmx with hmx | hmx <;> simp only [getInitialVolume, getInitialPc, hmx] at h <;>
    cases hp : i.pc with
    | some p => simp only [hp] at h; cases h; simp only; rw [clampEq, mul_div_cancel_right₀ _ hm]
    | none =>
      cases hv : i.volume with
      | none => simp [hp, hv] at h
      | some v => simp only [hp, hv] at h; cases h; simp only [fraction, hm, if_false]; rw [clampEq]

example : (⟨5, 7, 0, none⟩ : State).after 1 10 0 none = ⟨12, 7, 7, some (12 / 10)⟩ ∧
    getCurrentPc (some (12 / 10)) = 1 := by decide +kernel

/-! ## C13 -/

/-- **C13 (volume).** With a constant maximum: fraction times maximum if a fraction is given, else the given volume; refused
iff neither is given. -/
theorem C13_volume_constant (i : Initial) (m : Rat) (hmx : i.mx = .number m ∨ i.mx = .constantParam m) :
    (∀ p, i.pc = some p → getInitialVolume i = .ok (p * m)) ∧
    (∀ v, i.pc = none → i.volume = some v → getInitialVolume i = .ok v) ∧
    ((∃ e, getInitialVolume i = .error e) ↔ i.pc = none ∧ i.volume = none) ∧
    ((∃ e, getInitialPc i = .error e) ↔ i.pc = none ∧ i.volume = none) := by
  rcases hmx with hmx | hmx <;> cases hp : i.pc <;> cases hv : i.volume <;>
    simp [getInitialVolume, getInitialPc, hmx, hp, hv]

/-- **C13 (consistency).** With a constant non-zero maximum the initial fraction is the initial volume divided by the maximum. -/
theorem C13_fraction_constant (i : Initial) (m v : Rat) (hm : m ≠ 0)
    (hmx : i.mx = .number m ∨ i.mx = .constantParam m) (h : getInitialVolume i = .ok v) :
    getInitialPc i = .ok (some (v / m)) := by
  rcases hmx with hmx | hmx <;> cases hp : i.pc <;> cases hv : i.volume <;>
    simp only [getInitialVolume, getInitialPc, hmx, hp, hv, fraction, hm, if_false, Except.ok.injEq, reduceCtorEq,
      Option.some.injEq] at h ⊢ <;> subst h <;> field_simp

/-- **C13 (zero maximum).** With a zero maximum and only a volume given the fraction is undefined (NaN); if a fraction is given
it is reported as given and the volume is zero. -/
theorem C13_zero_maximum (i : Initial) (hmx : i.mx = .number 0 ∨ i.mx = .constantParam 0) :
    (∀ v, i.pc = none → i.volume = some v → getInitialPc i = .ok none) ∧
    (∀ p, i.pc = some p → getInitialPc i = .ok (some p) ∧ getInitialVolume i = .ok 0) := by
  rcases hmx with hmx | hmx <;> cases hp : i.pc <;> cases hv : i.volume <;>
    simp [getInitialVolume, getInitialPc, hmx, hp, hv, fraction]

/-- **C13 (varying maximum).** Both must be given and are used verbatim, otherwise the run is refused (at `reset`). -/
theorem C13_varying (i : Initial) (s : State) (hmx : i.mx = .varyingParam) :
    ((∃ e, reset i s = .error e) ↔ i.pc = none ∨ i.volume = none) ∧
    ((∃ e, getInitialPc i = .error e) ↔ i.pc = none ∨ i.volume = none) ∧ ((∃ e, getInitialVolume i = .error e) ↔ i.pc = none ∨ i.volume = none) ∧
    ∀ p v, i.pc = some p → i.volume = some v →
      ∃ s', reset i s = .ok s' ∧ s'.volume = v ∧ s'.pc = some p ∧ s'.flow = 0 ∧ s'.prevFlow = 0 := by
  cases hp : i.pc <;> cases hv : i.volume <;>
    simp [reset, resetStorageOnly, getInitialVolume, getInitialPc, hmx, hp, hv]

example : getInitialVolume ⟨none, some (1 / 2), .number 10⟩ = .ok 5 ∧
    getInitialPc ⟨some 5, none, .constantParam 10⟩ = .ok (some (1 / 2)) := by decide +kernel

end Verif.Storage

import Verif.Proof.Float64Storage
/-!
C109: storages in double precision.
-/

namespace Verif.Float64

open Verif.Bounds Verif.Storage

/-! ## Rounding -/

/-- **C109 (rounding).** The model's rounding is that of IEEE 754: the result is a double, no double is nearer, and if another one is as near, the one chosen is an even multiple of the distance of the two. -/
theorem C109_nearest (x : Rat) :
    IsDouble (fl x) ∧ (∀ y, IsDouble y → |fl x - x| ≤ |y - x|) ∧
    (∀ y, IsDouble y → y ≠ fl x → |y - x| = |fl x - x| → ∃ m e : Int, 2 ∣ m ∧ fl x = m * (2 : Rat) ^ e ∧ |y - fl x| = (2 : Rat) ^ e) :=
  ⟨fl_double x, fl_nearest x, fl_tie x⟩

/-- **C109 (rounding).** The error is at most 2^-53 of the number (and 2^-1075 for tiny ones); doubles are unchanged and the order of numbers is kept. -/
theorem C109_error (x : Rat) : |fl x - x| ≤ |x| / 2 ^ 53 + 1 / 2 ^ 1075 ∧ (IsDouble x → fl x = x) ∧ ∀ y, x ≤ y → fl x ≤ fl y :=
  ⟨fl_err x, fl_self, fun _ => fl_mono⟩

/-! ## Volumes -/

theorem step_in {tol V : Rat} {s : State} {t : Step} (hm : Moderate tol V t) (hv : t.mn ≤ s.volume ∧ s.volume ≤ t.mx)
    (hr : Respects tol (storageRow s.volume t.mx t.mn t.days) (t.commits.map Commit.net).sum) :
    (t.mn ≤ (step s t).volume ∧ (step s t).volume ≤ t.mx) ∧ |(step s t).volume - (s.volume + t.netVolume)| ≤ 3 / 1000000 := by
  obtain ⟨h1, h2, h3⟩ := raw_volume hm hv.1 hv.2 hr
  rw [step_volume]
  refine ⟨snap_mem hm.volumes.2.2.1 h1 h2, ?_⟩
  have h4 := snap_err t.mx t.mn (fl (s.volume + fl ((t.commits.foldl commit s.before).flow * t.days)))
  generalize fl (s.volume + fl ((t.commits.foldl commit s.before).flow * t.days)) = w at *
  rw [abs_le] at *
  constructor <;> linarith

/-- **C109 (bounds).** If the numbers are of moderate size (volumes up to about 1.6·10⁹ units) the volumes stay in their bounds in every run although every operation is rounded and the solver's answers are
only feasible up to its tolerance: what is lost is made up for by the snapping. -/
theorem C109_volume_partial (tol V mn mx : Rat) (s : State) (hs : mn ≤ s.volume ∧ s.volume ≤ mx) (ts : List Step) (hrun : FeasibleRun tol V mn mx s ts) :
    ∀ k ≤ ts.length, mn ≤ (run s (ts.take k)).volume ∧ (run s (ts.take k)).volume ≤ mx := by
  induction ts generalizing s with
  | nil => intro k _; simpa [run] using hs
  | cons t ts ih =>
    obtain ⟨rfl, rfl, a3, a4, a5⟩ := hrun
    intro k hk
    cases k with
    | zero => simpa [run] using hs
    | succ k =>
      simp only [List.length_cons] at hk
      exact ih (step s t) (step_in a3 hs a4).1 a5 k (by omega)

/-- **C109 (balance).** In such a run the volume differs from the initial one plus what the solver put in and took out by at most 3·10⁻⁶ per timestep. -/
theorem C109_balance (tol V mn mx : Rat) (s : State) (hs : mn ≤ s.volume ∧ s.volume ≤ mx) (ts : List Step) (hrun : FeasibleRun tol V mn mx s ts) :
    |(run s ts).volume - (s.volume + (ts.map Step.netVolume).sum)| ≤ ts.length * (3 / 1000000) := by
  induction ts generalizing s with
  | nil => simp [run]
  | cons t ts ih =>
    obtain ⟨rfl, rfl, a3, a4, a5⟩ := hrun
    obtain ⟨h1, h2⟩ := step_in a3 hs a4
    have h3 := ih (step s t) h1 a5
    have e : run s (t :: ts) = run (step s t) ts := rfl
    rw [e, List.map_cons, List.sum_cons, List.length_cons]
    push_cast
    rw [abs_le] at *
    constructor <;> linarith

/-- **C109 (fraction).** The fraction reported for a volume in the bounds is between 0 and 1 without clipping and off by at most 2^-53 (and 2^-1075). -/
theorem C109_fraction (s : State) (days mx mn : Rat) (adj : Option Rat) (hmx : 0 < mx) (h0 : 0 ≤ (after s days mx mn adj).volume) (h1 : (after s days mx mn adj).volume ≤ mx) :
    ∃ p, (after s days mx mn adj).pc = some p ∧ 0 ≤ p ∧ p ≤ 1 ∧ |p - (after s days mx mn adj).volume / mx| ≤ 1 / 2 ^ 53 + 1 / 2 ^ 1075 := by
  refine ⟨fl ((after s days mx mn adj).volume / mx), ?_, fl_nonneg (div_nonneg h0 hmx.le), ?_, ?_⟩
  · show (if mx = 0 then none else some _) = _
    rw [if_neg hmx.ne']
    rfl
  · have := fl_mono ((div_le_one hmx).2 h1)
    have e : fl 1 = 1 := by
      have := fl_int (n := 1) (by norm_num)
      exact_mod_cast this
    rwa [e] at this
  · refine (fl_err _).trans ?_
    have h2 : |(after s days mx mn adj).volume / mx| ≤ 1 := by
      rw [abs_of_nonneg (div_nonneg h0 hmx.le)]
      exact (div_le_one hmx).2 h1
    have : |(after s days mx mn adj).volume / mx| / 2 ^ 53 ≤ 1 / 2 ^ 53 := by gcongr
    linarith

/-- **C109 (adjustment).** After an adjustment of the volume (storages that follow other volumes) it is in the bounds, whatever the numbers, and so it stays when it is snapped. -/
theorem C109_adjusted (s : State) (days mx mn a : Rat) (h : mn ≤ mx) : mn ≤ (after s days mx mn (some a)).volume ∧ (after s days mx mn (some a)).volume ≤ mx := by
  show mn ≤ snap mx mn (min mx (max mn (fl (fl (s.volume + fl (s.flow * days)) + a)))) ∧ snap mx mn (min mx (max mn (fl (fl (s.volume + fl (s.flow * days)) + a)))) ≤ mx
  have h1 : mn ≤ min mx (max mn (fl (fl (s.volume + fl (s.flow * days)) + a))) := le_min h (le_max_left _ _)
  have h2 : min mx (max mn (fl (fl (s.volume + fl (s.flow * days)) + a))) ≤ mx := min_le_left _ _
  generalize min mx (max mn (fl (fl (s.volume + fl (s.flow * days)) + a))) = v at *
  unfold snap
  simp only
  split <;> split <;> constructor <;> first | assumption | exact le_refl _

/-! ## Whole numbers -/

private theorem whole_flow (cs : List Commit) (s : State) (hs : s.flow = 0) (hw : ∀ c ∈ cs, ∃ n : Int, c.net = n) (hA : total cs ≤ 2 ^ 51) :
    (cs.foldl commit s).flow = (cs.map Commit.net).sum ∧ ∃ n : Int, (cs.map Commit.net).sum = n := by
  induction cs using List.reverseRecOn with
  | nil => exact ⟨by simpa using hs, 0, by simp⟩
  | append_singleton cs c ih =>
    have hA2 := sum_le_total (cs ++ [c])
    rw [total_append] at hA hA2
    obtain ⟨h1, n, hn⟩ := ih (fun c hc => hw c (by simp [hc])) (by linarith [abs_nonneg c.net])
    obtain ⟨m, hm⟩ := hw c (by simp)
    rw [List.foldl_append, List.foldl_cons, List.foldl_nil, commit_flow, h1]
    simp only [List.map_append, List.sum_append, List.map_cons, List.map_nil, List.sum_cons, List.sum_nil, add_zero] at *
    rw [hn, hm]
    rw [hn, hm] at hA2
    rw [hm] at hA
    have e : (n : Rat) + m = ((n + m : Int) : Rat) := by push_cast; ring
    refine ⟨?_, n + m, e⟩
    rw [e]
    apply fl_int
    rw [e] at hA2
    have : |((n + m : Int) : Rat)| ≤ 2 ^ 53 := by
      have h53 : (2 : Rat) ^ 51 ≤ 2 ^ 53 := by norm_num
      linarith
    exact_mod_cast this

private theorem int_small (n : Int) (h : |n| ≤ 2 ^ 53) : (|fl (n : Rat)| < fl e6 ↔ n = 0) ∧ (|(n : Rat)| < e6 ↔ n = 0) := by
  have he := e6_near
  rw [fl_int h]
  have key : ∀ e : Rat, 0 < e → e < 1 → (|(n : Rat)| < e ↔ n = 0) := by
    intro e e0 e1
    constructor
    · intro hlt
      by_contra hne
      have := Int.one_le_abs hne
      have : (1 : Rat) ≤ |(n : Rat)| := by exact_mod_cast this
      linarith
    · rintro rfl
      simpa using e0
  exact ⟨key _ (by linarith) (by linarith), key _ (by unfold e6; norm_num) (by unfold e6; norm_num)⟩

private theorem whole_snap (a b v : Int) (ha : |a| ≤ 2 ^ 50) (hb : |b| ≤ 2 ^ 50) (hv : |v| ≤ 2 ^ 52) : snap (a : Rat) b v = Storage.snap (a : Rat) b v := by
  have small : ∀ x y : Int, |x| ≤ 2 ^ 52 → |y| ≤ 2 ^ 50 → (|fl ((x : Rat) - y)| < fl e6 ↔ |(x : Rat) - y| < e6) := by
    intro x y hx hy
    have e : (x : Rat) - y = ((x - y : Int) : Rat) := by push_cast; ring
    rw [e]
    have hxy : |x - y| ≤ 2 ^ 53 := (abs_sub _ _).trans (by linarith)
    rw [(int_small _ hxy).1, (int_small _ hxy).2]
  unfold snap Storage.snap
  simp only
  by_cases h1 : |(v : Rat) - a| < e6
  · rw [if_pos ((small v a hv ha).2 h1), if_pos h1]
    by_cases h2 : |(a : Rat) - b| < e6
    · rw [if_pos ((small a b (by linarith) hb).2 h2), if_pos h2]
    · rw [if_neg (fun h => h2 ((small a b (by linarith) hb).1 h)), if_neg h2]
  · rw [if_neg (fun h => h1 ((small v a hv ha).1 h)), if_neg h1]
    by_cases h2 : |(v : Rat) - b| < e6
    · rw [if_pos ((small v b hv hb).2 h2), if_pos h2]
    · rw [if_neg (fun h => h2 ((small v b hv hb).1 h)), if_neg h2]

private theorem whole_step {s s' : State} {t : Step} (hw : Whole s t) (he : s'.volume = s.volume) : (step s' t).volume = (s.step t).volume := by
  obtain ⟨⟨n, hn⟩, ⟨a, b, ha, hb, ha1, hb1⟩, ⟨d, hd⟩, hf, hsize⟩ := hw
  have hA0 := total_nonneg t.commits
  have hp : 0 ≤ total t.commits * |t.days| := by positivity
  obtain ⟨h1, m, hm⟩ := whole_flow t.commits s'.before rfl hf (by linarith [abs_nonneg s.volume])
  have hS := sum_le_total t.commits
  rw [step_volume, Storage.step_volume, h1, he]
  unfold Step.netVolume
  have hSd : |(t.commits.map Commit.net).sum * t.days| ≤ total t.commits * |t.days| := by
    rw [abs_mul]
    gcongr
  have hall : |s.volume + (t.commits.map Commit.net).sum * t.days| ≤ 2 ^ 51 := (abs_add_le _ _).trans (by linarith)
  have hSd' : |(t.commits.map Commit.net).sum * t.days| ≤ 2 ^ 51 := hSd.trans (by linarith [abs_nonneg s.volume])
  rw [hm, hn, hd] at *
  have e1 : (m : Rat) * d = ((m * d : Int) : Rat) := by push_cast; ring
  rw [e1] at *
  have e2 : (n : Rat) + ((m * d : Int) : Rat) = ((n + m * d : Int) : Rat) := by push_cast; ring
  have b1 : |m * d| ≤ 2 ^ 51 := by exact_mod_cast hSd'
  rw [fl_int (by linarith)]
  rw [e2] at *
  have b2 : |n + m * d| ≤ 2 ^ 51 := by exact_mod_cast hall
  rw [fl_int (by linarith), ha, hb]
  exact whole_snap a b _ ha1 hb1 (by linarith)

/-- **C109 (whole numbers).** A run in which volumes, flows and numbers of days are whole and of moderate size is computed exactly: rounding changes nothing. -/
theorem C109_exact (s : State) (ts : List Step) (hw : WholeRun s ts) : (run s ts).volume = (s.run ts).volume := by
  have key : ∀ (ts : List Step) (s s' : State), WholeRun s ts → s'.volume = s.volume → (run s' ts).volume = (s.run ts).volume := by
    intro ts
    induction ts with
    | nil => intro s s' _ h; exact h
    | cons t ts ih => intro s s' hw h; exact ih (s.step t) (step s' t) hw.2 (whole_step hw.1 h)
  exact key ts s s hw rfl

/-! ## Large volumes -/

/-- The reservoir of 134 km³ measured in m³, weekly timesteps; everything is taken out. -/
def lake : State := ⟨134029913756, 0, 0, none⟩

/-- The flow that empties it, as the solver's row gives it. -/
def week : Step := ⟨7, 200000000000, 0, [.fromStore (fl (134029913756 / 7))]⟩

/-- **C109 (large volumes).** With volumes of this size the bounds are not kept: a flow that the storage's row admits exactly empties the storage to below its minimum, and the snapping does not catch it. All
numbers are doubles. -/
theorem C109_volume_fails :
    ∃ s t, IsDouble s.volume ∧ (∀ c ∈ t.commits, IsDouble c.net) ∧ t.mn ≤ s.volume ∧ s.volume ≤ t.mx ∧
      (storageRow s.volume t.mx t.mn t.days).Admits (t.commits.map Commit.net).sum ∧ (step s t).volume < t.mn := by
  refine ⟨lake, week, ⟨134029913756, 0, by norm_num, by norm_num, by norm_num [lake]⟩, ?_, by decide +kernel, by decide +kernel, by decide +kernel, by decide +kernel⟩
  intro c hc
  simp only [week, List.mem_singleton] at hc
  subst hc
  obtain ⟨m, e, h1, h2, h3⟩ := fl_double (134029913756 / 7)
  exact ⟨-m, e, by rwa [abs_neg], h2, by simp only [Commit.net]; rw [h3]; push_cast; ring⟩

/-! ## Concrete cases -/

/-- Rounding a third. -/
example : fl (1 / 3) = 6004799503160661 / 18014398509481984 := by decide +kernel

/-- A tie: to even. -/
example : fl (2 ^ 53 + 1) = 2 ^ 53 ∧ fl (2 ^ 53 + 3) = 2 ^ 53 + 4 ∧ fl (-(2 ^ 53 + 3)) = -(2 ^ 53 + 4) := by decide +kernel

/-- A tie as in `C109_nearest`. -/
example : IsDouble (2 ^ 53 + 2) ∧ (2 ^ 53 + 2 : Rat) ≠ fl (2 ^ 53 + 1) ∧ |(2 ^ 53 + 2 : Rat) - (2 ^ 53 + 1)| = |fl (2 ^ 53 + 1) - (2 ^ 53 + 1)| :=
  ⟨⟨2 ^ 52 + 1, 1, by norm_num, by norm_num, by norm_num⟩, by decide +kernel, by decide +kernel⟩

/-- The smallest double is kept, less than half of it becomes zero. -/
example : fl (1 / 2 ^ 1074) = 1 / 2 ^ 1074 ∧ fl (1 / 2 ^ 1076) = 0 := by decide +kernel

/-- A run as in `C109_volume_partial`: a third of 100 in a day, then everything else in three. -/
example : FeasibleRun (1 / 10000000) 1000 0 1000 ⟨100, 0, 0, none⟩
    [⟨1, 1000, 0, [.fromStore (fl (100 / 3)), .toStore (fl (1 / 10))]⟩, ⟨3, 1000, 0, [.fromStore (fl (200 / 9))]⟩] := by
  refine ⟨rfl, rfl, ⟨by norm_num, by norm_num, by norm_num, by norm_num, by decide +kernel⟩, ⟨_, ?_, by rw [sub_self, abs_zero]; norm_num⟩,
    rfl, rfl, ⟨by norm_num, by norm_num, by norm_num, by norm_num, by decide +kernel⟩, ⟨_, ?_, by rw [sub_self, abs_zero]; norm_num⟩, trivial⟩
  · decide +kernel
  · decide +kernel

/-- Two days with whole numbers as in `C109_exact`. -/
example : WholeRun ⟨100, 0, 0, none⟩ [⟨1, 1000, 0, [.fromStore 30, .toStore 5]⟩, ⟨7, 1000, 0, [.toStore 20]⟩] := by
  refine ⟨⟨⟨100, by norm_num⟩, ⟨1000, 0, by norm_num, by norm_num, by norm_num, by norm_num⟩, ⟨1, by norm_num⟩, ?_, by decide +kernel⟩,
    ⟨⟨75, by decide +kernel⟩, ⟨1000, 0, by norm_num, by norm_num, by norm_num, by norm_num⟩, ⟨7, by norm_num⟩, ?_, by decide +kernel⟩, trivial⟩
  · intro c hc
    simp only [List.mem_cons, List.not_mem_nil, or_false] at hc
    rcases hc with rfl | rfl
    · exact ⟨-30, by norm_num [Commit.net]⟩
    · exact ⟨5, by norm_num [Commit.net]⟩
  · intro c hc
    simp only [List.mem_cons, List.not_mem_nil, or_false] at hc
    subst hc
    exact ⟨20, by norm_num [Commit.net]⟩

/-- A fraction. -/
example : (after ⟨10, 1, 0, none⟩ 1 33 0 none).volume = 11 ∧ (after ⟨10, 1, 0, none⟩ 1 33 0 none).pc = some (fl (1 / 3)) := by decide +kernel

end Verif.Float64

import Verif.Proof.Doubles
import Verif.Spec.Doubles
import Verif.Model.ControlCurve
import Verif.Props.Float64
/-!
C111: totals, virtual storages and control curves in double precision.
-/

namespace Verif.Float64

open Verif.Bounds Verif.Storage

/-! ## Totals -/

private theorem hn_of {n : Nat} (h : 2 * n + 5 ≤ 2 ^ 53) {u : Rat} (hu : u = 1 / 2 ^ 53) : (2 * (n : Rat) + 5) * u ≤ 1 := by
  have : 2 * (n : Rat) + 5 ≤ 2 ^ 53 := by exact_mod_cast h
  rw [hu, mul_one_div]
  exact (div_le_one (by positivity)).2 this

/-- **C111 (total flow).** The total differs from the exact sum of flow × factor × days by at most (2n+5)·2⁻⁵³ of the sum of the sizes of the terms (and a multiple of 2⁻¹⁰⁷⁵), whatever the flows. -/
theorem C111_total (factor D : Rat) (ts : List (Rat × Rat)) (hD : ∀ t ∈ ts, |t.2| ≤ D) (hD0 : 0 ≤ D) (hn : 2 * ts.length + 5 ≤ 2 ^ 53) :
    |totalFlow factor ts - (ts.map fun t => t.1 * factor * t.2).sum| ≤
      (2 * ts.length + 5) / 2 ^ 53 * (ts.map fun t => |t.1 * factor * t.2|).sum + ts.length * (6 * D + 5) / 2 ^ 1075 := by
  obtain ⟨u, τ, eu, eτ, hu, hu1, hτ, -, hfl⟩ := rounding
  have := sum_err hu hu1 hτ (η := (2 * D + 1) * τ) (by positivity) hfl (ts.map fun t => (t.1 * factor * t.2, fl (fl (t.1 * factor) * t.2))) ?_ (by simpa using hn_of hn eu)
  · simp only [List.foldl_map, List.map_map, Function.comp_def, List.length_map] at this
    unfold totalFlow
    refine this.trans (le_of_eq ?_)
    rw [div_eq_mul_one_div _ ((2 : Rat) ^ 53), div_eq_mul_one_div _ ((2 : Rat) ^ 1075), ← eu, ← eτ]
    ring
  · intro p hp
    obtain ⟨t, ht, rfl⟩ := List.mem_map.mp hp
    exact term_err hu hu1 hτ hfl _ _ _ D (hfl _) (hD t ht)

/-- **C111 (total deficit).** Likewise for the sum of (maximum flow - flow) × days. -/
theorem C111_deficit (D : Rat) (ts : List (Rat × Rat × Rat)) (hD : ∀ t ∈ ts, |t.2.2| ≤ D) (hD0 : 0 ≤ D) (hn : 2 * ts.length + 5 ≤ 2 ^ 53) :
    |totalDeficit ts - (ts.map fun t => (t.1 - t.2.1) * t.2.2).sum| ≤
      (2 * ts.length + 5) / 2 ^ 53 * (ts.map fun t => |(t.1 - t.2.1) * t.2.2|).sum + ts.length * (6 * D + 5) / 2 ^ 1075 := by
  obtain ⟨u, τ, eu, eτ, hu, hu1, hτ, -, hfl⟩ := rounding
  have := sum_err hu hu1 hτ (η := (2 * D + 1) * τ) (by positivity) hfl (ts.map fun t => ((t.1 - t.2.1) * t.2.2, fl (fl (t.1 - t.2.1) * t.2.2))) ?_ (by simpa using hn_of hn eu)
  · simp only [List.foldl_map, List.map_map, Function.comp_def, List.length_map] at this
    unfold totalDeficit
    refine this.trans (le_of_eq ?_)
    rw [div_eq_mul_one_div _ ((2 : Rat) ^ 53), div_eq_mul_one_div _ ((2 : Rat) ^ 1075), ← eu, ← eτ]
    ring
  · intro p hp
    obtain ⟨t, ht, rfl⟩ := List.mem_map.mp hp
    exact term_err hu hu1 hτ hfl _ _ _ D (hfl _) (hD t ht)

/-- **C111 (mean flow).** The mean over `nt` timesteps is off by at most (2n+7)·2⁻⁵³ of the mean size (and a multiple of 2⁻¹⁰⁷⁵). -/
theorem C111_mean (factor : Rat) (flows : List Rat) (nt : Nat) (h0 : 0 < nt) (hn : 2 * flows.length + 5 ≤ 2 ^ 53) :
    |meanFlow factor flows nt - (flows.map fun q => q * factor).sum / nt| ≤
      (2 * flows.length + 7) / 2 ^ 53 * ((flows.map fun q => |q * factor|).sum / nt) + (6 * flows.length + 1) / 2 ^ 1075 := by
  obtain ⟨u, τ, eu, eτ, hu, hu1, hτ, -, hfl⟩ := rounding
  have hN := hn_of hn eu
  have := sum_err hu hu1 hτ (η := τ) hτ.le hfl (flows.map fun q => (q * factor, fl (q * factor))) ?_ (by simpa using hN)
  · simp only [List.foldl_map, List.map_map, Function.comp_def, List.length_map] at this
    unfold meanFlow
    have habs : |(flows.map fun q => q * factor).sum| ≤ (flows.map fun q => |q * factor|).sum := by
      clear this hN hn
      induction flows with
      | nil => simp
      | cons a k ih =>
        simp only [List.map_cons, List.sum_cons]
        exact (abs_add_le _ _).trans (by linarith)
    rw [div_eq_mul_one_div _ ((2 : Rat) ^ 53), div_eq_mul_one_div _ ((2 : Rat) ^ 1075), ← eu, ← eτ]
    have hA : 0 ≤ (flows.map fun q => |q * factor|).sum := (abs_nonneg _).trans habs
    generalize flows.foldl (fun v q => fl (v + fl (q * factor))) 0 = s at *
    generalize (flows.map fun q => q * factor).sum = X at *
    generalize (flows.map fun q => |q * factor|).sum = A at *
    have hl0 : (0 : Rat) ≤ flows.length := by positivity
    generalize (flows.length : Rat) = n at *
    have hm : (1 : Rat) ≤ nt := by exact_mod_cast h0
    generalize (nt : Rat) = m at *
    have hm0 : 0 < m := by linarith
    have h1 := hfl (s / m)
    have h2 : |fl (s / m) - X / m| ≤ |fl (s / m) - s / m| + |s - X| / m := by
      have e : |s - X| / m = |s / m - X / m| := by rw [← sub_div, abs_div, abs_of_pos hm0]
      rw [e]
      have := abs_add_le (fl (s / m) - s / m) (s / m - X / m)
      simpa using this
    have h3 : |s / m| ≤ (|s - X| + A) / m := by
      rw [abs_div, abs_of_pos hm0]
      apply div_le_div_of_nonneg_right _ hm0.le
      have := abs_add_le (s - X) X
      simp only [sub_add_cancel] at this
      linarith
    have h4 : |s - X| / m ≤ (2 * n + 5) * u * (A / m) + n * (3 * τ + 2 * τ) := by
      have hq : |s - X| / m ≤ ((2 * n + 5) * u * A + n * (3 * τ + 2 * τ)) / m := div_le_div_of_nonneg_right this hm0.le
      have hr : n * (3 * τ + 2 * τ) / m ≤ n * (3 * τ + 2 * τ) := div_le_self (by positivity) hm
      rw [add_div, mul_div_assoc] at hq
      linarith
    rw [add_div] at h3
    have hAm : 0 ≤ A / m := by positivity
    generalize A / m = B at *
    generalize |s - X| / m = E at *
    have k1 : u * |s / m| ≤ u * (E + B) := mul_le_mul_of_nonneg_left h3 hu.le
    have k2 : u * E ≤ u * ((2 * n + 5) * u * B + n * (3 * τ + 2 * τ)) := mul_le_mul_of_nonneg_left h4 hu.le
    have k3 : u * ((2 * n + 5) * u * B) ≤ u * B := by
      have : (2 * n + 5) * u * B ≤ 1 * B := mul_le_mul_of_nonneg_right hN hAm
      nlinarith
    have k4 : u * (n * (3 * τ + 2 * τ)) ≤ n * τ := by
      have : u * (n * (3 * τ + 2 * τ)) ≤ 1 / 1000 * (n * (3 * τ + 2 * τ)) := mul_le_mul_of_nonneg_right hu1 (by positivity)
      have : 0 ≤ n * τ := by positivity
      nlinarith
    nlinarith
  · intro p hp
    obtain ⟨q, -, rfl⟩ := List.mem_map.mp hp
    have := hfl (q * factor)
    have h0 : 0 ≤ u * |q * factor| := by positivity
    simp only
    linarith

private theorem total_double (factor : Rat) (ts : List (Rat × Rat)) : IsDouble (totalFlow factor ts) := by
  unfold totalFlow
  induction ts using List.reverseRecOn with
  | nil => exact isDouble_zero
  | append_singleton ts t ih =>
    rw [List.foldl_append]
    exact fl_double _

/-- **C111 (total flow).** A total of flows that are not negative is never negative and never decreases, in spite of the rounding. -/
theorem C111_total_grows (factor : Rat) (ts more : List (Rat × Rat)) (hf : 0 ≤ factor) (h : ∀ t ∈ ts ++ more, 0 ≤ t.1 ∧ 0 ≤ t.2) :
    0 ≤ totalFlow factor ts ∧ totalFlow factor ts ≤ totalFlow factor (ts ++ more) := by
  have key : ∀ (more ts : List (Rat × Rat)), (∀ t ∈ more, 0 ≤ t.1 ∧ 0 ≤ t.2) → totalFlow factor ts ≤ totalFlow factor (ts ++ more) := by
    intro more
    induction more with
    | nil => intro ts _; simp
    | cons t more ih =>
      intro ts ht
      have h1 : totalFlow factor ts ≤ totalFlow factor (ts ++ [t]) := by
        obtain ⟨a, b⟩ := ht t (by simp)
        have e : totalFlow factor (ts ++ [t]) = fl (totalFlow factor ts + fl (fl (t.1 * factor) * t.2)) := by unfold totalFlow; rw [List.foldl_append]; rfl
        have hy : 0 ≤ fl (fl (t.1 * factor) * t.2) := fl_nonneg (mul_nonneg (fl_nonneg (mul_nonneg a hf)) b)
        calc totalFlow factor ts = fl (totalFlow factor ts) := (fl_self (total_double factor ts)).symm
          _ ≤ _ := by rw [e]; exact fl_mono (by linarith)
      have h2 := ih (ts ++ [t]) (fun q hq => ht q (by simp [hq]))
      rw [List.append_assoc] at h2
      exact h1.trans h2
  refine ⟨?_, key more ts fun t ht => h t (by simp [ht])⟩
  simpa [totalFlow] using key ts [] fun t ht => h t (by simp [ht])

/-- **C111 (whole numbers).** Totals of whole numbers whose sizes add up to at most 2⁵³ are exact. -/
theorem C111_total_exact (factor : Rat) (ts : List (Rat × Rat)) (hw : ∀ t ∈ ts, (∃ a d : Int, t.1 * factor = a ∧ t.2 = d ∧ |a| ≤ 2 ^ 53))
    (hs : (ts.map fun t => |t.1 * factor * t.2|).sum ≤ 2 ^ 53) : totalFlow factor ts = (ts.map fun t => t.1 * factor * t.2).sum := by
  have key : totalFlow factor ts = (ts.map fun t => t.1 * factor * t.2).sum ∧ (∃ n : Int, (ts.map fun t => t.1 * factor * t.2).sum = n) ∧
      |(ts.map fun t => t.1 * factor * t.2).sum| ≤ (ts.map fun t => |t.1 * factor * t.2|).sum := by
    induction ts using List.reverseRecOn with
    | nil => exact ⟨rfl, ⟨0, by simp⟩, by simp⟩
    | append_singleton ts t ih =>
      simp only [List.map_append, List.map_cons, List.map_nil, List.sum_append, List.sum_cons, List.sum_nil, add_zero] at hs ⊢
      obtain ⟨h1, ⟨n, h2⟩, h3⟩ := ih (fun q hq => hw q (by simp [hq])) (by linarith [abs_nonneg (t.1 * factor * t.2)])
      obtain ⟨a, d, ha, hd, hb⟩ := hw t (by simp)
      have hA := abs_nonneg (ts.map fun t => t.1 * factor * t.2).sum
      have e : totalFlow factor (ts ++ [t]) = fl (totalFlow factor ts + fl (fl (t.1 * factor) * t.2)) := by unfold totalFlow; rw [List.foldl_append]; rfl
      have h4 : |(ts.map fun t => t.1 * factor * t.2).sum + t.1 * factor * t.2| ≤ (ts.map fun t => |t.1 * factor * t.2|).sum + |t.1 * factor * t.2| := (abs_add_le _ _).trans (by linarith)
      have e1 : (a : Rat) * d = ((a * d : Int) : Rat) := by push_cast; ring
      have e2 : (n : Rat) + ((a * d : Int) : Rat) = ((n + a * d : Int) : Rat) := by push_cast; ring
      have hS := hA.trans h3
      rw [e, h1, h2, ha, hd, fl_int hb, e1]
      rw [h2, ha, hd, e1] at h4
      rw [h2] at h3
      rw [ha, hd, e1] at hs
      have b1 : |a * d| ≤ 2 ^ 53 := by
        have : |((a * d : Int) : Rat)| ≤ 2 ^ 53 := by linarith
        exact_mod_cast this
      rw [fl_int b1, e2]
      rw [e2] at h4
      have b2 : |n + a * d| ≤ 2 ^ 53 := by
        have : |((n + a * d : Int) : Rat)| ≤ 2 ^ 53 := by linarith
        exact_mod_cast this
      exact ⟨fl_int b2, ⟨_, rfl⟩, h4⟩
  exact key.1

/-- **C111 (large totals).** A total is not exact however many timesteps follow: from 2⁵³ on, adding a flow of 1 per day changes nothing, so that any amount of water may be missing. -/
theorem C111_total_fails (n : Nat) : totalFlow 1 ((2 ^ 53, 1) :: List.replicate n (1, 1)) = 2 ^ 53 ∧ ((((2 : Rat) ^ 53, (1 : Rat)) :: List.replicate n (1, 1)).map fun t => t.1 * 1 * t.2).sum = (2 ^ 53 + n : Rat) := by
  constructor
  · have h1 : fl (0 + fl (fl ((2 : Rat) ^ 53 * 1) * 1)) = 2 ^ 53 := by decide +kernel
    have h2 : fl ((2 : Rat) ^ 53 + fl (fl (1 * 1) * 1)) = 2 ^ 53 := by decide +kernel
    unfold totalFlow
    rw [List.foldl_cons]
    simp only [h1]
    induction n with
    | zero => rfl
    | succ n ih =>
      rw [List.replicate_succ, List.foldl_cons]
      simp only [h2]
      exact ih
  · simp

/-! ## Virtual storages -/

private def commits (us : List VirtualStorage.Use) : List Commit := us.map fun u => .direct (-(fl (u.factor * u.flow)))

private theorem depletion_commits (us : List VirtualStorage.Use) (s : State) (hs : s.flow = 0) : ((commits us).foldl commit s).flow = depletion us := by
  unfold depletion commits
  rw [← hs]
  clear hs
  induction us generalizing s with
  | nil => rfl
  | cons u us ih =>
    simp only [List.map_cons, List.foldl_cons]
    rw [ih, commit_flow]
    simp only [Commit.net, ← sub_eq_add_neg]

private theorem virtual_volume (mx mn : Rat) (s : State) (t : Used) (h : t.active = true) : (virtualStep mx mn s t).volume = (step s ⟨t.days, mx, mn, commits t.uses⟩).volume := by
  rw [step_volume, depletion_commits _ _ rfl]
  unfold virtualStep
  rw [if_pos h]
  rfl

private theorem uses_err {u τ : Rat} (hfl : ∀ x, |fl x - x| ≤ u * |x| + τ) (us : List VirtualStorage.Use) :
    |((commits us).map Commit.net).sum - -used us| ≤ u * usedSize us + us.length * τ ∧ total (commits us) ≤ usedSize us + (u * usedSize us + us.length * τ) := by
  induction us with
  | nil => simp [commits, used, usedSize, total]
  | cons v us ih =>
    have hv := hfl (v.factor * v.flow)
    simp only [commits, used, usedSize, total, List.map_cons, List.sum_cons, List.length_cons, Commit.net, abs_neg] at ih ⊢
    push_cast
    have h1 : |fl (v.factor * v.flow)| ≤ |fl (v.factor * v.flow) - v.factor * v.flow| + |v.factor * v.flow| := by
      have := abs_add_le (fl (v.factor * v.flow) - v.factor * v.flow) (v.factor * v.flow)
      simpa using this
    obtain ⟨i1, i2⟩ := ih
    constructor
    · rw [abs_le] at *
      constructor <;> linarith [i1.1, i1.2, hv.1, hv.2]
    · linarith

private theorem uses_nonneg (us : List VirtualStorage.Use) : 0 ≤ usedSize us := by
  apply List.sum_nonneg
  intro x hx
  obtain ⟨c, -, rfl⟩ := List.mem_map.1 hx
  exact abs_nonneg _

private theorem virtual_in {tol V mn mx : Rat} {s : State} {t : Used} (ha : t.active = true) (hm : ModerateUse tol V mn mx t) (hv : mn ≤ s.volume ∧ s.volume ≤ mx)
    (hr : Respects tol (storageRow s.volume mx mn t.days) (-used t.uses)) :
    (mn ≤ (virtualStep mx mn s t).volume ∧ (virtualStep mx mn s t).volume ≤ mx) ∧ |(virtualStep mx mn s t).volume - (s.volume - used t.uses * t.days)| ≤ 4 / 1000000 := by
  obtain ⟨u, τ, eu, eτ, hu, hu1, hτ, hτu, hfl⟩ := rounding
  obtain ⟨h1, h2⟩ := uses_err hfl t.uses
  have hS := uses_nonneg t.uses
  obtain ⟨m1, ⟨d1, d2⟩, m3, m4, m5⟩ := hm
  have hn0 : (0 : Rat) ≤ t.uses.length := by positivity
  have hn1 : (t.uses.length : Rat) ≤ 2 ^ 20 := by exact_mod_cast m3
  have hd0 : 0 ≤ t.days := le_trans (by norm_num) d1
  have hτ2 : (2 : Rat) ^ 62 * τ ≤ u := by rw [eu, eτ]; decide +kernel
  have key : (tol + (u * usedSize t.uses + t.uses.length * τ)) * t.days + (2 * t.uses.length * total (commits t.uses) * t.days + 5 * V) / 2 ^ 53 ≤ 9 / 10000000 ∧
      (u * usedSize t.uses + t.uses.length * τ) * t.days ≤ 9 / 10000000 := by
    rw [div_eq_mul_one_div _ ((2 : Rat) ^ 53), ← eu] at m5 ⊢
    generalize usedSize t.uses = S at *
    generalize total (commits t.uses) = T at *
    generalize (t.uses.length : Rat) = n at *
    generalize t.days = d at *
    have a1 : n * d ≤ 2 ^ 40 := by
      calc n * d ≤ 2 ^ 20 * 2 ^ 20 := mul_le_mul hn1 d2 hd0 (by norm_num)
        _ = 2 ^ 40 := by norm_num
    have hnd : 0 ≤ n * d := by positivity
    have a2 : n * d * τ ≤ 2 ^ 40 * τ := mul_le_mul_of_nonneg_right a1 hτ.le
    have a3 : 2 * n * T * d * u ≤ 2 * n * (S + (u * S + n * τ)) * d * u := by
      have : 2 * n * d * u * T ≤ 2 * n * d * u * (S + (u * S + n * τ)) := mul_le_mul_of_nonneg_left h2 (by positivity)
      nlinarith
    have a4 : n * (n * d * τ) ≤ 2 ^ 20 * (2 ^ 40 * τ) := mul_le_mul hn1 a2 (by positivity) (by norm_num)
    have a5 : 2 * n * S * d * u * u ≤ 2 * n * S * d * u := by
      have : 0 ≤ 2 * n * S * d * u := by positivity
      nlinarith
    have a6 : n * (n * d * τ) * u ≤ n * (n * d * τ) := by
      have : 0 ≤ n * (n * d * τ) := by positivity
      nlinarith
    have hVu : u ≤ V * u := by nlinarith [m1.1]
    have hSdu : 0 ≤ S * d * u := by positivity
    have hnSdu : 0 ≤ n * S * d * u := by positivity
    have htd : 0 ≤ tol * d := by positivity
    constructor
    · nlinarith
    · nlinarith
  obtain ⟨k1, k2⟩ := key
  have hmod : Moderate (tol + (u * usedSize t.uses + t.uses.length * τ)) V ⟨t.days, mx, mn, commits t.uses⟩ := by
    refine ⟨m1, ⟨d1, d2⟩, by simpa [commits] using m3, by positivity, ?_⟩
    have hl : (commits t.uses).length = t.uses.length := by simp [commits]
    simp only [hl]
    exact k1
  have hres : Respects (tol + (u * usedSize t.uses + t.uses.length * τ)) (storageRow s.volume mx mn t.days) ((commits t.uses).map Commit.net).sum := by
    obtain ⟨y, hy, hy2⟩ := hr
    refine ⟨y, hy, ?_⟩
    have := abs_add_le (((commits t.uses).map Commit.net).sum - -used t.uses) (-used t.uses - y)
    simp only [sub_add_sub_cancel] at this
    linarith
  have := step_in (s := s) hmod hv hres
  rw [virtual_volume _ _ _ _ ha]
  refine ⟨this.1, ?_⟩
  have h3 := this.2
  simp only [Step.netVolume] at h3
  have h4 : |((commits t.uses).map Commit.net).sum * t.days - -used t.uses * t.days| ≤ 9 / 10000000 := by
    rw [← sub_mul, abs_mul, abs_of_nonneg hd0]
    exact (mul_le_mul_of_nonneg_right h1 hd0).trans k2
  rw [abs_le] at *
  constructor <;> linarith [h3.1, h3.2, h4.1, h4.2]

/-- **C111 (virtual storages).** With numbers of moderate size the volume left in a licence or other virtual storage stays in its bounds in every run, although the factors, flows and volumes are multiplied and added
with rounding and the solver's answers are feasible only up to its tolerance. -/
theorem C111_virtual_partial (tol V mn mx : Rat) (s : State) (hs : mn ≤ s.volume ∧ s.volume ≤ mx) (ts : List Used) (hrun : FeasibleUse tol V mn mx s ts) :
    ∀ k ≤ ts.length, mn ≤ (virtualRun mx mn s (ts.take k)).volume ∧ (virtualRun mx mn s (ts.take k)).volume ≤ mx := by
  induction ts generalizing s with
  | nil => intro k _; simpa [virtualRun] using hs
  | cons t ts ih =>
    obtain ⟨h1, h2⟩ := hrun
    intro k hk
    cases k with
    | zero => simpa [virtualRun] using hs
    | succ k =>
      simp only [List.length_cons] at hk
      refine ih (virtualStep mx mn s t) ?_ h2 k (by omega)
      by_cases ha : t.active = true
      · exact (virtual_in ha (h1 ha).1 hs (h1 ha).2).1
      · unfold virtualStep
        rwa [if_neg ha]

/-- **C111 (virtual storages).** In such a run the volume differs from the initial one less what was used while the storage was active by at most 4·10⁻⁶ per timestep. -/
theorem C111_virtual_balance (tol V mn mx : Rat) (s : State) (hs : mn ≤ s.volume ∧ s.volume ≤ mx) (ts : List Used) (hrun : FeasibleUse tol V mn mx s ts) :
    |(virtualRun mx mn s ts).volume - (s.volume - (ts.map fun t => if t.active then used t.uses * t.days else 0).sum)| ≤ ts.length * (4 / 1000000) := by
  induction ts generalizing s with
  | nil => simp [virtualRun]
  | cons t ts ih =>
    obtain ⟨h1, h2⟩ := hrun
    have e : virtualRun mx mn s (t :: ts) = virtualRun mx mn (virtualStep mx mn s t) ts := rfl
    rw [e, List.map_cons, List.sum_cons, List.length_cons]
    push_cast
    by_cases ha : t.active = true
    · obtain ⟨h3, h4⟩ := virtual_in ha (h1 ha).1 hs (h1 ha).2
      have h5 := ih _ h3 h2
      rw [if_pos ha]
      rw [abs_le] at *
      constructor <;> linarith [h4.1, h4.2, h5.1, h5.2]
    · have e2 : virtualStep mx mn s t = s := by unfold virtualStep; rw [if_neg ha]
      rw [e2] at h2 ⊢
      have h5 := ih _ hs h2
      rw [if_neg ha]
      rw [abs_le] at *
      constructor <;> linarith [h5.1, h5.2]

/-! ## Control curves -/

/-- **C111 (curves).** The comparison of a storage's fraction with a control curve given as a decimal number, both rounded to doubles: a storage exactly on the curve or above counts as above, and one below it by more
than the rounding of the two numbers counts as below. -/
theorem C111_curve (v mx q : Rat) :
    (q ≤ v / mx → fl q ≤ fl (v / mx)) ∧ (v / mx + ((|v / mx| + |q|) / 2 ^ 53 + 2 / 2 ^ 1075) < q → fl (v / mx) < fl q) := by
  refine ⟨fl_mono, fun h => ?_⟩
  obtain ⟨u, τ, eu, eτ, hu, -, hτ, -, hfl⟩ := rounding
  have h1 := hfl (v / mx)
  have h2 := hfl q
  rw [div_eq_mul_one_div _ ((2 : Rat) ^ 53), div_eq_mul_one_div _ ((2 : Rat) ^ 1075), ← eu, ← eτ] at h
  rw [abs_le] at h1 h2
  nlinarith [h1.1, h1.2, h2.1, h2.2]

private theorem indexLoop_le (pc pc' : Rat) (n : Nat) (f : Rat → Rat) (qs : List Rat) (j : Nat) (hj : j + qs.length = n) (h : ∀ q ∈ qs, q ≤ pc → f q ≤ pc') :
    ControlCurve.indexLoop pc' n j (qs.map f) ≤ ControlCurve.indexLoop pc n j qs := by
  induction qs generalizing j with
  | nil => exact le_refl _
  | cons q qs ih =>
    simp only [List.map_cons, ControlCurve.indexLoop, List.length_cons] at *
    have lower : ∀ (l : List Rat) (i : Nat), i + l.length = n → i ≤ ControlCurve.indexLoop pc n i l := by
      intro l
      induction l with
      | nil => intro i hi; simp only [ControlCurve.indexLoop]; simp at hi; omega
      | cons a l ihl =>
        intro i hi
        simp only [ControlCurve.indexLoop, List.length_cons] at *
        split
        · exact le_refl _
        · exact le_trans (by omega) (ihl (i + 1) (by omega))
    by_cases h1 : f q ≤ pc'
    · rw [if_pos h1]
      split
      · exact le_refl _
      · exact le_trans (by omega) (lower qs (j + 1) (by omega))
    · have h2 : ¬ q ≤ pc := fun h2 => h1 (h q (by simp) h2)
      rw [if_neg h1, if_neg h2]
      exact ih (j + 1) (by omega) fun r hr => h r (by simp [hr])

private theorem indexLoop_congr (pc pc' : Rat) (n : Nat) (f : Rat → Rat) (qs : List Rat) (j : Nat) (h : ∀ q ∈ qs, q ≤ pc ↔ f q ≤ pc') :
    ControlCurve.indexLoop pc' n j (qs.map f) = ControlCurve.indexLoop pc n j qs := by
  induction qs generalizing j with
  | nil => rfl
  | cons q qs ih =>
    simp only [List.map_cons, ControlCurve.indexLoop]
    rw [ih (j + 1) fun r hr => h r (by simp [hr])]
    exact if_congr (h q (by simp)).symm rfl rfl

/-- **C111 (curves).** The control curve index computed with doubles is never greater than the exact one (a storage is never taken to be in a lower band), and it is the exact one unless the storage is below a curve by no more than
the rounding of the two numbers. -/
theorem C111_index (v mx : Rat) (qs : List Rat) :
    ControlCurve.index (fl (v / mx)) (qs.map fl) ≤ ControlCurve.index (v / mx) qs ∧
    ((∀ q ∈ qs, q ≤ v / mx ∨ v / mx + ((|v / mx| + |q|) / 2 ^ 53 + 2 / 2 ^ 1075) < q) → ControlCurve.index (fl (v / mx)) (qs.map fl) = ControlCurve.index (v / mx) qs) := by
  unfold ControlCurve.index
  rw [List.length_map]
  refine ⟨indexLoop_le _ _ _ _ _ _ (by simp) fun q _ => (C111_curve v mx q).1, fun h => indexLoop_congr _ _ _ _ _ _ fun q hq => ?_⟩
  constructor
  · exact (C111_curve v mx q).1
  · intro hle
    rcases h q hq with h1 | h1
    · exact h1
    · exact absurd hle (not_le.mpr ((C111_curve v mx q).2 h1))

/-- **C111 (curves).** The exact band is not always found: a storage below its curve by less than the rounding counts as above it. -/
theorem C111_index_fails : ∃ v mx q : Rat, IsDouble v ∧ IsDouble mx ∧ 0 < mx ∧ v / mx < q ∧ ControlCurve.index (fl (v / mx)) [fl q] = 0 ∧ ControlCurve.index (v / mx) [q] = 1 :=
  ⟨1, 10, 1 / 10 + 1 / 10 ^ 20, ⟨1, 0, by norm_num, by norm_num, by norm_num⟩, ⟨10, 0, by norm_num, by norm_num, by norm_num⟩, by norm_num, by norm_num, by decide +kernel, by decide +kernel⟩

/-! ## Interpolation -/

private theorem fl_one : fl 1 = 1 := by
  have := fl_int (n := 1) (by norm_num)
  exact_mod_cast this

private theorem weight_mem {pc cc prev : Rat} (h1 : cc ≤ pc) (h2 : pc ≤ prev) (hne : fl (prev - cc) ≠ 0) : 0 ≤ fl (fl (pc - cc) / fl (prev - cc)) ∧ fl (fl (pc - cc) / fl (prev - cc)) ≤ 1 := by
  have a := fl_nonneg (show 0 ≤ pc - cc by linarith)
  have b : fl (pc - cc) ≤ fl (prev - cc) := fl_mono (by linarith)
  have c : 0 < fl (prev - cc) := lt_of_le_of_ne (fl_nonneg (by linarith)) (Ne.symm hne)
  refine ⟨fl_nonneg (div_nonneg a c.le), ?_⟩
  have := fl_mono ((div_le_one c).2 b)
  rwa [fl_one] at this

private theorem weighted_core {u τ : Rat} (hu : 0 < u) (hu1 : u ≤ 1 / 1000) (hτ : 0 < τ) (hτu : τ ≤ u / 1000) (hfl : ∀ x, |fl x - x| ≤ u * |x| + τ) (a b w : Rat) (w0 : 0 ≤ w) (w1 : w ≤ 1) :
    |fl (fl (a * w) + fl (b * fl (1 - w))) - (a * w + b * (1 - w))| ≤ 4 * (|a| + |b|) * u + 4 * τ := by
  have v0 := fl_nonneg (show 0 ≤ 1 - w by linarith)
  have v1 : fl (1 - w) ≤ 1 := by
    have := fl_mono (show 1 - w ≤ 1 by linarith)
    rwa [fl_one] at this
  have hv := hfl (1 - w)
  rw [abs_of_nonneg (show 0 ≤ 1 - w by linarith)] at hv
  generalize fl (1 - w) = w' at *
  have e1 := hfl (a * w)
  have e2 := hfl (b * w')
  have ha := abs_nonneg a
  have hb := abs_nonneg b
  have f1 : |a * w| ≤ |a| := by rw [abs_mul, abs_of_nonneg w0]; nlinarith
  have f2 : |b * w'| ≤ |b| := by rw [abs_mul, abs_of_nonneg v0]; nlinarith
  have g1 : u * |a * w| ≤ u * |a| := mul_le_mul_of_nonneg_left f1 hu.le
  have g2 : u * |b * w'| ≤ u * |b| := mul_le_mul_of_nonneg_left f2 hu.le
  have e3 := hfl (fl (a * w) + fl (b * w'))
  have f3 : |fl (a * w) + fl (b * w')| ≤ (|a| + |b|) + (u * (|a| + |b|) + 2 * τ) := by
    have := abs_add_le (fl (a * w)) (fl (b * w'))
    have i1 := abs_add_le (fl (a * w) - a * w) (a * w)
    have i2 := abs_add_le (fl (b * w') - b * w') (b * w')
    simp only [sub_add_cancel] at i1 i2
    linarith
  have g3 : u * |fl (a * w) + fl (b * w')| ≤ u * ((|a| + |b|) + (u * (|a| + |b|) + 2 * τ)) := mul_le_mul_of_nonneg_left f3 hu.le
  generalize fl (fl (a * w) + fl (b * w')) = r at *
  generalize fl (a * w) = p at *
  generalize fl (b * w') = q at *
  have e4 : |b * w' - b * (1 - w)| ≤ |b| * (u + τ) := by
    rw [← mul_sub, abs_mul]
    apply mul_le_mul_of_nonneg_left _ hb
    have : u * (1 - w) ≤ u := by nlinarith
    linarith
  have g4 : |b| * τ ≤ |b| * u / 1000 := by nlinarith
  have g5 : u * (u * (|a| + |b|)) ≤ u * (|a| + |b|) / 1000 := by
    have : 0 ≤ u * (|a| + |b|) := by positivity
    nlinarith
  have g6 : u * τ ≤ τ / 1000 := by nlinarith
  have hab : 0 ≤ |a| * u := by positivity
  have hbb : 0 ≤ |b| * u := by positivity
  rw [abs_le] at e1 e2 e3 e4 ⊢
  constructor
  · linarith [e1.1, e2.1, e3.1, e4.1]
  · linarith [e1.2, e2.2, e3.2, e4.2]

private theorem weighted_near {pc cc prev a b : Rat} (h1 : cc ≤ pc) (h2 : pc ≤ prev) {same : Rat} (hs : same = a ∨ same = b) :
    min a b - (4 * (|a| + |b|) / 2 ^ 53 + 4 / 2 ^ 1075) ≤ weighted pc cc prev a b same ∧ weighted pc cc prev a b same ≤ max a b + (4 * (|a| + |b|) / 2 ^ 53 + 4 / 2 ^ 1075) := by
  obtain ⟨u, τ, eu, eτ, hu, hu1, hτ, hτu, hfl⟩ := rounding
  rw [div_eq_mul_one_div _ ((2 : Rat) ^ 53), div_eq_mul_one_div _ ((2 : Rat) ^ 1075), ← eu, ← eτ]
  have hE : 0 ≤ 4 * (|a| + |b|) * u + 4 * τ := by positivity
  unfold weighted
  by_cases hz : fl (prev - cc) = 0
  · rw [if_pos hz]
    rcases hs with rfl | rfl
    · exact ⟨by linarith [min_le_left same b], by linarith [le_max_left same b]⟩
    · exact ⟨by linarith [min_le_right a same], by linarith [le_max_right a same]⟩
  rw [if_neg hz]
  obtain ⟨w0, w1⟩ := weight_mem h1 h2 hz
  simp only
  generalize fl (fl (pc - cc) / fl (prev - cc)) = w at *
  have e := weighted_core hu hu1 hτ hτu hfl a b w w0 w1
  have lo : min a b ≤ a * w + b * (1 - w) := by nlinarith [min_le_left a b, min_le_right a b]
  have hi : a * w + b * (1 - w) ≤ max a b := by nlinarith [le_max_left a b, le_max_right a b]
  rw [abs_le] at e
  constructor
  · linarith [e.1]
  · linarith [e.2]

private theorem factor_err {u τ : Rat} (eu : u = 1 / 2 ^ 53) (hu : 0 < u) (hu1 : u ≤ 1 / 1000) (hfl : ∀ x, |fl x - x| ≤ u * |x| + τ) {x lo hi : Rat} (h1 : lo ≤ x) (h2 : x ≤ hi) (hne : hi ≠ lo)
    (dx : IsDouble x) (dl : IsDouble lo) (dh : IsDouble hi) : fl (hi - lo) ≠ 0 ∧ |fl (fl (x - lo) / fl (hi - lo)) - (x - lo) / (hi - lo)| ≤ 6 * u + τ := by
  have hz : fl (hi - lo) ≠ 0 := fun h => hne (fl_sub_zero dh dl h)
  have hpos : 0 < hi - lo := lt_of_le_of_ne (by linarith) (fun h => hne (by linarith))
  refine ⟨hz, weight_err hu hu1 hfl (by linarith) (by linarith) hpos (fl_nonneg (by linarith)) (fl_mono (by linarith)) (lt_of_le_of_ne (fl_nonneg hpos.le) (Ne.symm hz)) ?_ ?_⟩
  · have := fl_sub_err eu dx dl
    rwa [abs_of_nonneg (show 0 ≤ x - lo by linarith)] at this
  · have := fl_sub_err eu dh dl
    rwa [abs_of_pos hpos] at this

private theorem weighted_exact {u τ : Rat} (eu : u = 1 / 2 ^ 53) (hu : 0 < u) (hu1 : u ≤ 1 / 1000) (hτ : 0 < τ) (hτu : τ ≤ u / 1000) (hfl : ∀ x, |fl x - x| ≤ u * |x| + τ) {pc cc prev : Rat} (a b same : Rat)
    (h1 : cc ≤ pc) (h2 : pc ≤ prev) (d0 : IsDouble pc) (d1 : IsDouble cc) (d2 : IsDouble prev) :
    |weighted pc cc prev a b same - (if prev - cc = 0 then same else a * ((pc - cc) / (prev - cc)) + b * (1 - (pc - cc) / (prev - cc)))| ≤ 11 * (|a| + |b|) * u + 4 * τ := by
  have hE : 0 ≤ 11 * (|a| + |b|) * u + 4 * τ := by positivity
  unfold weighted
  by_cases hne : prev = cc
  · subst hne
    simp only [sub_self, fl_zero, if_true, abs_zero]
    exact hE
  obtain ⟨hz, hw⟩ := factor_err eu hu hu1 hfl h1 h2 hne d0 d1 d2
  obtain ⟨w0, w1⟩ := weight_mem h1 h2 hz
  rw [if_neg hz, if_neg (fun h => hne (by linarith))]
  simp only
  generalize fl (fl (pc - cc) / fl (prev - cc)) = w at *
  generalize (pc - cc) / (prev - cc) = v at *
  have e := weighted_core hu hu1 hτ hτu hfl a b w w0 w1
  have e2 : |(a * w + b * (1 - w)) - (a * v + b * (1 - v))| ≤ (|a| + |b|) * (6 * u + τ) := by
    rw [show (a * w + b * (1 - w)) - (a * v + b * (1 - v)) = (a - b) * (w - v) by ring, abs_mul]
    exact mul_le_mul (abs_sub _ _) hw (abs_nonneg _) (by positivity)
  have g : (|a| + |b|) * τ ≤ (|a| + |b|) * (u / 1000) := mul_le_mul_of_nonneg_left hτu (by positivity)
  have g2 : 0 ≤ (|a| + |b|) * u := by positivity
  have t := abs_add_le (fl (fl (a * w) + fl (b * fl (1 - w))) - (a * w + b * (1 - w))) ((a * w + b * (1 - w)) - (a * v + b * (1 - v)))
  simp only [sub_add_sub_cancel] at t
  linarith

private theorem loop_near (pc : Rat) (values : List Rat) (h0 : 0 ≤ pc) (qs : List Rat) (prev : Rat) (j : Nat) (hp : pc ≤ prev) (hl : values.length = j + qs.length + 2) :
    let i := ControlCurve.indexLoop pc (j + qs.length) j qs
    let a := values.getD i 0
    let b := values.getD (i + 1) 0
    min a b - (4 * (|a| + |b|) / 2 ^ 53 + 4 / 2 ^ 1075) ≤ interpolatedLoop pc values prev j qs ∧ interpolatedLoop pc values prev j qs ≤ max a b + (4 * (|a| + |b|) / 2 ^ 53 + 4 / 2 ^ 1075) := by
  induction qs generalizing prev j with
  | nil =>
    simp only [List.length_nil, Nat.add_zero] at hl
    simp only [interpolatedLoop, ControlCurve.indexLoop, List.length_nil, Nat.add_zero, hl, Nat.add_sub_cancel, show j + 2 - 1 = j + 1 by omega]
    exact weighted_near h0 hp (Or.inl rfl)
  | cons q qs ih =>
    simp only [List.length_cons] at hl
    simp only [interpolatedLoop, ControlCurve.indexLoop, List.length_cons]
    by_cases h : pc ≥ q
    · rw [if_pos h, if_pos h]
      exact weighted_near h hp (Or.inr rfl)
    · rw [if_neg h, if_neg h]
      have := ih q (j + 1) (by linarith) (by omega)
      rwa [show j + 1 + qs.length = j + (qs.length + 1) by omega] at this

/-- **C111 (interpolating control curves).** For a fraction between 0 and 1 the value lies between the two values of the band the storage is in, up to 4·2⁻⁵³ of their sizes (and 2⁻¹⁰⁷³). -/
theorem C111_interpolated_partial (pc : Rat) (curves values : List Rat) (h0 : 0 ≤ pc) (h1 : pc ≤ 1) (hl : values.length = curves.length + 2) :
    let a := values.getD (ControlCurve.index pc curves) 0
    let b := values.getD (ControlCurve.index pc curves + 1) 0
    min a b - (4 * (|a| + |b|) / 2 ^ 53 + 4 / 2 ^ 1075) ≤ interpolated pc curves values ∧ interpolated pc curves values ≤ max a b + (4 * (|a| + |b|) / 2 ^ 53 + 4 / 2 ^ 1075) := by
  have := loop_near pc values h0 curves 1 0 h1 (by omega)
  rwa [Nat.zero_add] at this

private theorem loop_exact {u τ : Rat} (eu : u = 1 / 2 ^ 53) (hu : 0 < u) (hu1 : u ≤ 1 / 1000) (hτ : 0 < τ) (hτu : τ ≤ u / 1000) (hfl : ∀ x, |fl x - x| ≤ u * |x| + τ) (pc M : Rat) (values : List Rat) (h0 : 0 ≤ pc)
    (d0 : IsDouble pc) (hM : ∀ v ∈ values, |v| ≤ M) (hM0 : 0 ≤ M) (qs : List Rat) (prev : Rat) (j : Nat) (hp : pc ≤ prev) (d1 : IsDouble prev) (hq : ∀ q ∈ qs, IsDouble q) :
    |interpolatedLoop pc values prev j qs - ControlCurve.interpolatedLoop pc values prev j qs| ≤ 22 * M * u + 4 * τ := by
  have hget : ∀ i, |values.getD i 0| ≤ M := by
    intro i
    rw [List.getD_eq_getElem?_getD]
    cases h : values[i]? with
    | none => simpa using hM0
    | some v => exact hM v (List.mem_of_getElem? h)
  have fin : ∀ {x y : Rat} {i k : Nat}, |x - y| ≤ 11 * (|values.getD i 0| + |values.getD k 0|) * u + 4 * τ → |x - y| ≤ 22 * M * u + 4 * τ := by
    intro x y i k h
    have : (|values.getD i 0| + |values.getD k 0|) * u ≤ (M + M) * u := mul_le_mul_of_nonneg_right (add_le_add (hget i) (hget k)) hu.le
    linarith
  induction qs generalizing prev j with
  | nil => exact fin (weighted_exact eu hu hu1 hτ hτu hfl _ _ _ h0 hp d0 isDouble_zero d1)
  | cons q qs ih =>
    simp only [interpolatedLoop, ControlCurve.interpolatedLoop]
    by_cases h : pc ≥ q
    · rw [if_pos h, if_pos h]
      exact fin (weighted_exact eu hu hu1 hτ hτu hfl _ _ _ h hp d0 (hq q (by simp)) d1)
    · rw [if_neg h, if_neg h]
      exact ih q (j + 1) (by linarith) (hq q (by simp)) fun r hr => hq r (by simp [hr])

private theorem isDouble_one : IsDouble 1 := ⟨1, 0, by norm_num, by norm_num, by norm_num⟩

/-- **C111 (interpolating control curves).** The value computed with doubles differs from the exact interpolation (`Model/ControlCurve`, C30) by at most 22·2⁻⁵³ of the greatest value (and 2⁻¹⁰⁷³), however close the curves lie
to each other. -/
theorem C111_interpolated_error (pc M : Rat) (curves values : List Rat) (h0 : 0 ≤ pc) (h1 : pc ≤ 1) (d0 : IsDouble pc) (hq : ∀ q ∈ curves, IsDouble q) (hM : ∀ v ∈ values, |v| ≤ M) (hM0 : 0 ≤ M) :
    |interpolated pc curves values - ControlCurve.interpolated pc curves values| ≤ 22 * M / 2 ^ 53 + 4 / 2 ^ 1075 := by
  obtain ⟨u, τ, eu, eτ, hu, hu1, hτ, hτu, hfl⟩ := rounding
  have := loop_exact eu hu hu1 hτ hτu hfl pc M values h0 d0 hM hM0 curves 1 0 h1 isDouble_one hq
  rw [div_eq_mul_one_div _ ((2 : Rat) ^ 53), div_eq_mul_one_div _ ((2 : Rat) ^ 1075), ← eu, ← eτ]
  exact this

/-- **C111 (interpolating control curves).** The value does not lie between the two values exactly: with 10 at the top, at the curve 0.4 and at the bottom, a storage filled to 45 % gives more than 10. -/
theorem C111_interpolated_fails : interpolated (fl (45 / 100)) [fl (4 / 10)] [10, 10, 10] > 10 := by decide +kernel

/-- **C111 (interpolating control curves).** The division by the difference of two curves is left out exactly if they are equal: the difference of different doubles is never rounded to zero. -/
theorem C111_same_curves (pc cc prev above below same : Rat) (h1 : IsDouble cc) (h2 : IsDouble prev) (hne : prev ≠ cc) :
    fl (prev - cc) ≠ 0 ∧ (pc = prev → weighted pc cc prev above below same = fl (fl above + fl (below * 0))) := by
  have hz : fl (prev - cc) ≠ 0 := fun h => hne (fl_sub_zero h2 h1 h)
  refine ⟨hz, ?_⟩
  rintro rfl
  unfold weighted
  rw [if_neg hz, div_self hz, fl_one]
  simp

/-- **C111 (interpolating control curves).** On a curve and at 100 % the value is the one given for it, exactly. -/
theorem C111_ends (cc prev above below same : Rat) (h1 : IsDouble cc) (h2 : IsDouble prev) (h3 : IsDouble above) (h4 : IsDouble below) (hne : prev ≠ cc) :
    weighted prev cc prev above below same = above ∧ weighted cc cc prev above below same = below := by
  have hz : fl (prev - cc) ≠ 0 := fun h => hne (fl_sub_zero h2 h1 h)
  constructor
  · rw [(C111_same_curves prev cc prev above below same h1 h2 hne).2 rfl]
    simp [fl_self h3]
  · unfold weighted
    rw [if_neg hz]
    simp [fl_one, fl_self h4]

/-- **C111 (piecewise interpolation).** `_interpolate` gives the lower value exactly at the lower end and everywhere if the two values are equal; between the ends it is never on the wrong side of the lower value and never beyond what rounding makes of lower value + (upper value - lower value). -/
theorem C111_piecewise_partial (x lower upper l h : Rat) (hx : lower ≤ x) (hx2 : x ≤ upper) (hl : IsDouble l) (d1 : IsDouble lower) (d2 : IsDouble upper) :
    interpolate lower lower upper l h = l ∧ interpolate x lower upper l l = l ∧
    (l ≤ h → l ≤ interpolate x lower upper l h ∧ interpolate x lower upper l h ≤ fl (l + fl (h - l))) ∧
    (h ≤ l → fl (l + fl (h - l)) ≤ interpolate x lower upper l h ∧ interpolate x lower upper l h ≤ l) := by
  have key : ∀ (x h : Rat), lower ≤ x → x ≤ upper → upper ≠ lower → ∃ f, 0 ≤ f ∧ f ≤ 1 ∧ (x = lower → f = 0) ∧ interpolate x lower upper l h = fl (l + fl (fl (h - l) * f)) := by
    intro x h a b hne
    have hz : fl (upper - lower) ≠ 0 := fun h => hne (fl_sub_zero d2 d1 h)
    obtain ⟨f0, f1⟩ := weight_mem a b hz
    refine ⟨_, f0, f1, ?_, ?_⟩
    · rintro rfl
      simp
    · unfold interpolate
      rw [if_neg (not_lt.mpr a), if_neg (not_lt.mpr b), if_neg hne]
  have hlu := hx.trans hx2
  by_cases hne : upper = lower
  · have hall : ∀ y h, lower ≤ y → y ≤ upper → interpolate y lower upper l h = l := by
      intro y h a b
      unfold interpolate
      rw [if_neg (not_lt.mpr a), if_neg (not_lt.mpr b), if_pos hne]
    rw [hall lower h (le_refl _) hlu, hall x l hx hx2, hall x h hx hx2]
    refine ⟨rfl, rfl, fun hh => ⟨le_refl _, ?_⟩, fun hh => ⟨?_, le_refl _⟩⟩
    · have := fl_mono (show l ≤ l + fl (h - l) by linarith [fl_nonneg (show 0 ≤ h - l by linarith)])
      rwa [fl_self hl] at this
    · have := fl_mono (show l + fl (h - l) ≤ l by linarith [fl_nonpos (show h - l ≤ 0 by linarith)])
      rwa [fl_self hl] at this
  · refine ⟨?_, ?_, ?_, ?_⟩
    · obtain ⟨f, -, -, h0, e⟩ := key lower h (le_refl _) hlu hne
      rw [e, h0 rfl]
      simp [fl_self hl]
    · obtain ⟨f, -, -, -, e⟩ := key x l hx hx2 hne
      rw [e]
      simp [fl_self hl]
    · intro hh
      obtain ⟨f, f0, f1, -, e⟩ := key x h hx hx2 hne
      rw [e]
      have hd := fl_nonneg (show 0 ≤ h - l by linarith)
      have a := fl_nonneg (mul_nonneg hd f0)
      have b := fl_mono (show fl (h - l) * f ≤ fl (h - l) by nlinarith)
      rw [fl_self (fl_double (h - l))] at b
      refine ⟨?_, fl_mono (by linarith)⟩
      have := fl_mono (show l ≤ l + fl (fl (h - l) * f) by linarith)
      rwa [fl_self hl] at this
    · intro hh
      obtain ⟨f, f0, f1, -, e⟩ := key x h hx hx2 hne
      rw [e]
      have hd := fl_nonpos (show h - l ≤ 0 by linarith)
      have a := fl_nonpos (mul_nonpos_of_nonpos_of_nonneg hd f0)
      have b := fl_mono (show fl (h - l) ≤ fl (h - l) * f by nlinarith)
      rw [fl_self (fl_double (h - l))] at b
      refine ⟨fl_mono (by linarith), ?_⟩
      have := fl_mono (show l + fl (fl (h - l) * f) ≤ l by linarith)
      rwa [fl_self hl] at this

/-- **C111 (piecewise interpolation).** `_interpolate` computed with doubles differs from the exact interpolation by at most 12·2⁻⁵³ of the sizes of the two values (and 2⁻¹⁰⁷²); beyond the ends it is the same. -/
theorem C111_interpolate_error (x lower upper l h : Rat) (dx : IsDouble x) (d1 : IsDouble lower) (d2 : IsDouble upper) :
    |interpolate x lower upper l h - ControlCurve.interpolate x lower upper l h| ≤ 12 * (|l| + |h|) / 2 ^ 53 + 5 / 2 ^ 1075 ∧
    (x < lower ∨ upper < x → interpolate x lower upper l h = ControlCurve.interpolate x lower upper l h) := by
  obtain ⟨u, τ, eu, eτ, hu, hu1, hτ, hτu, hfl⟩ := rounding
  rw [div_eq_mul_one_div _ ((2 : Rat) ^ 53), div_eq_mul_one_div _ ((2 : Rat) ^ 1075), ← eu, ← eτ]
  have hE : 0 ≤ 12 * (|l| + |h|) * u + 5 * τ := by positivity
  unfold interpolate ControlCurve.interpolate
  refine ⟨?_, fun hx => ?_⟩
  · by_cases c1 : x < lower
    · rw [if_pos c1, if_pos c1, sub_self, abs_zero]; exact hE
    rw [if_neg c1, if_neg c1]
    by_cases c2 : x > upper
    · rw [if_pos c2, if_pos c2, sub_self, abs_zero]; exact hE
    rw [if_neg c2, if_neg c2]
    by_cases c3 : upper = lower
    · rw [if_pos c3, if_pos c3, sub_self, abs_zero]; exact hE
    rw [if_neg c3, if_neg c3]
    obtain ⟨hz, hw⟩ := factor_err eu hu hu1 hfl (not_lt.mp c1) (not_lt.mp c2) c3 dx d1 d2
    obtain ⟨w0, w1⟩ := weight_mem (not_lt.mp c1) (not_lt.mp c2) hz
    simp only
    generalize fl (fl (x - lower) / fl (upper - lower)) = w at *
    generalize (x - lower) / (upper - lower) = v at *
    have hS : |h - l| ≤ |l| + |h| := (abs_sub _ _).trans (by linarith)
    have e1 := hfl (h - l)
    generalize fl (h - l) = d at *
    have hl0 := abs_nonneg l
    have hh0 := abs_nonneg h
    have k1 : u * |h - l| ≤ u * (|l| + |h|) := mul_le_mul_of_nonneg_left hS hu.le
    have hd : |d| ≤ (|l| + |h|) + (u * (|l| + |h|) + τ) := by
      have := abs_add_le (d - (h - l)) (h - l)
      simp only [sub_add_cancel] at this
      linarith
    have e2 := hfl (d * w)
    have hdw : |d * w| ≤ |d| := by rw [abs_mul, abs_of_nonneg w0]; nlinarith [abs_nonneg d]
    have k2 : u * |d * w| ≤ u * ((|l| + |h|) + (u * (|l| + |h|) + τ)) := mul_le_mul_of_nonneg_left (hdw.trans hd) hu.le
    have e3 := hfl (l + fl (d * w))
    have hq : |l + fl (d * w)| ≤ 3 * (|l| + |h|) + 3 * τ := by
      have t1 := abs_add_le l (fl (d * w))
      have t2 := abs_add_le (fl (d * w) - d * w) (d * w)
      simp only [sub_add_cancel] at t2
      have t3 : u * (|l| + |h|) ≤ 1 / 1000 * (|l| + |h|) := mul_le_mul_of_nonneg_right hu1 (by positivity)
      have t4 : u * (u * (|l| + |h|)) ≤ 1 / 1000 * (u * (|l| + |h|)) := mul_le_mul_of_nonneg_right hu1 (by positivity)
      have t5 : u * τ ≤ 1 / 1000 * τ := mul_le_mul_of_nonneg_right hu1 hτ.le
      linarith
    have k3 : u * |l + fl (d * w)| ≤ u * (3 * (|l| + |h|) + 3 * τ) := mul_le_mul_of_nonneg_left hq hu.le
    generalize fl (l + fl (d * w)) = r at *
    generalize fl (d * w) = q at *
    have e4 : |d * w - (h - l) * w| ≤ u * (|l| + |h|) + τ := by
      rw [← sub_mul, abs_mul, abs_of_nonneg w0]
      nlinarith [abs_nonneg (d - (h - l))]
    have e5 : |(h - l) * w - (h - l) * v| ≤ (|l| + |h|) * (6 * u + τ) := by
      rw [← mul_sub, abs_mul]
      exact mul_le_mul hS hw (abs_nonneg _) (by positivity)
    have k4 : (|l| + |h|) * τ ≤ (|l| + |h|) * (u / 1000) := mul_le_mul_of_nonneg_left hτu (by positivity)
    have k5 : u * (u * (|l| + |h|)) ≤ 1 / 1000 * (u * (|l| + |h|)) := mul_le_mul_of_nonneg_right hu1 (by positivity)
    have k6 : u * τ ≤ 1 / 1000 * τ := mul_le_mul_of_nonneg_right hu1 hτ.le
    have k7 : 0 ≤ u * (|l| + |h|) := by positivity
    rw [abs_le] at e2 e3 e4 e5 ⊢
    constructor
    · linarith [e2.1, e3.1, e4.1, e5.1]
    · linarith [e2.2, e3.2, e4.2, e5.2]
  · rcases hx with hx | hx
    · rw [if_pos hx, if_pos hx]
    · by_cases c1 : x < lower
      · rw [if_pos c1, if_pos c1]
      · rw [if_neg c1, if_neg c1, if_pos hx, if_pos hx]

/-- **C111 (piecewise interpolation).** At the upper end the upper value is not always reached, and it may be exceeded: from 0.2 to 0.9 gives less than 0.9 for a full storage, from 0.3 to 0.9 more. -/
theorem C111_piecewise_fails : interpolate 1 0 1 (fl (2 / 10)) (fl (9 / 10)) < fl (9 / 10) ∧ interpolate 1 0 1 (fl (3 / 10)) (fl (9 / 10)) > fl (9 / 10) := by decide +kernel

/-- **C111 (piecewise interpolation).** That bound differs from the upper value by at most 3·2⁻⁵³ of the sizes of the two values (and 2⁻¹⁰⁷³). -/
theorem C111_piecewise_error (l h : Rat) : |fl (l + fl (h - l)) - h| ≤ 3 * (|l| + |h|) / 2 ^ 53 + 4 / 2 ^ 1075 := by
  obtain ⟨u, τ, eu, eτ, hu, hu1, hτ, -, hfl⟩ := rounding
  rw [div_eq_mul_one_div _ ((2 : Rat) ^ 53), div_eq_mul_one_div _ ((2 : Rat) ^ 1075), ← eu, ← eτ]
  have a := hfl (h - l)
  have b := hfl (l + fl (h - l))
  have c : |h - l| ≤ |l| + |h| := (abs_sub _ _).trans (by linarith)
  have d : u * |h - l| ≤ u * (|l| + |h|) := mul_le_mul_of_nonneg_left c hu.le
  have e : |l + fl (h - l)| ≤ |h| + (u * (|l| + |h|) + τ) := by
    have := abs_add_le (fl (h - l) - (h - l)) h
    rw [show fl (h - l) - (h - l) + h = l + fl (h - l) by ring] at this
    linarith
  have f : u * |l + fl (h - l)| ≤ u * (|h| + (u * (|l| + |h|) + τ)) := mul_le_mul_of_nonneg_left e hu.le
  have g : u * (u * (|l| + |h|)) ≤ 1 / 1000 * (u * (|l| + |h|)) := mul_le_mul_of_nonneg_right hu1 (by positivity)
  have i : u * τ ≤ 1 / 1000 * τ := mul_le_mul_of_nonneg_right hu1 hτ.le
  have j : 0 ≤ u * |l| := by positivity
  have k : 0 ≤ u * |h| := by positivity
  have m := abs_add_le (fl (l + fl (h - l)) - (l + fl (h - l))) (fl (h - l) - (h - l))
  rw [show fl (l + fl (h - l)) - (l + fl (h - l)) + (fl (h - l) - (h - l)) = fl (l + fl (h - l)) - h by ring] at m
  linarith

/-! ## Concrete cases -/

/-- A total that is not exact: three days of a flow of 0.1, each rounded. -/
example : totalFlow 1 [(fl (1 / 10), 1), (fl (1 / 10), 1), (fl (1 / 10), 1)] = 5404319552844596 / 18014398509481984 ∧
    totalFlow 1 [(fl (1 / 10), 1), (fl (1 / 10), 1), (fl (1 / 10), 1)] ≠ fl (3 / 10) := by decide +kernel

/-- `C111_total` and `C111_total_grows` apply to it. -/
example : (∀ t ∈ [(fl (1 / 10), (1 : Rat)), (fl (1 / 10), 1)] ++ [(fl (1 / 10), 1)], 0 ≤ t.1 ∧ 0 ≤ t.2) ∧ (∀ t ∈ [(fl (1 / 10), (1 : Rat)), (fl (1 / 10), 7)], |t.2| ≤ 7) := by decide +kernel

/-- `C111_total_exact` applies: flows of 0.5 and 3.5 with factor 2 over 7 days. -/
example : totalFlow 2 [(1 / 2, 7), (7 / 2, 7)] = 56 := by
  rw [C111_total_exact 2 [(1 / 2, 7), (7 / 2, 7)] ?_ (by decide +kernel)]
  · norm_num
  · intro t ht
    simp only [List.mem_cons, List.not_mem_nil, or_false] at ht
    rcases ht with rfl | rfl
    · exact ⟨1, 7, by norm_num, by norm_num, by norm_num⟩
    · exact ⟨7, 7, by norm_num, by norm_num, by norm_num⟩

/-- A licence of 1000 with two nodes, over an active week and an inactive one. -/
def licence : List Used := [⟨true, 7, [⟨1, 30⟩, ⟨1 / 2, 40⟩]⟩, ⟨false, 7, [⟨1, 300⟩]⟩]

/-- `C111_virtual_partial` and `C111_virtual_balance` apply to it. -/
example : FeasibleUse (1 / 100000000) 1000 0 1000 ⟨1000, 0, 0, none⟩ licence ∧ (virtualRun 1000 0 ⟨1000, 0, 0, none⟩ licence).volume = 650 := by
  refine ⟨⟨fun _ => ⟨⟨by norm_num, by norm_num, by decide, by norm_num, by decide +kernel⟩, -50, by decide +kernel, by decide +kernel⟩, ⟨fun h => absurd h (by decide), trivial⟩⟩, by decide +kernel⟩

/-- `C111_index`: a storage of 30 % exactly at its curve is in the upper band although 0.3 is not a double. -/
example : ControlCurve.index (fl (30 / 100)) ([8 / 10, 3 / 10].map fl) = 1 := by decide +kernel

/-- `C111_interpolated_partial` applies, and the value is off by rounding only. -/
example : interpolated (fl (45 / 100)) [fl (4 / 10)] [20, 10, 5] ≠ 10 + 10 / 12 ∧ |interpolated (fl (45 / 100)) [fl (4 / 10)] [20, 10, 5] - (10 + 10 / 12)| ≤ 1 / 10 ^ 14 := by decide +kernel

/-- `C111_piecewise_partial` applies to an increasing and a decreasing pair. -/
example : interpolate (1 / 2) 0 1 1 3 = 2 ∧ interpolate (1 / 4) 0 1 3 1 = 5 / 2 := by decide +kernel

end Verif.Float64

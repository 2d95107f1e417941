import Verif.Proof.Kde
/-!
C101: the estimated probability of a low volume is a probability, and the density belongs to it.
-/

namespace Verif.Kde

open ProbabilityTheory MeasureTheory

private theorem neg_sub_form (vs : List ℝ) : (vs.map fun v => -v) = vs.map fun v => 0 - v := by simp

private theorem estimate_reflected {vs : List ℝ} (h : Varies vs) (t : ℝ) (pts : List ℝ) :
    estimate true t vs pts = some (box (vs, bandwidth vs) 0 t + box (vs.map fun v => 0 - v, bandwidth vs) 0 t + box (vs.map fun v => 2 - v, bandwidth vs) 0 t,
      pts.map fun x => density (vs, bandwidth vs) x + density (vs.map fun v => 0 - v, bandwidth vs) x + density (vs.map fun v => 2 - v, bandwidth vs) x) := by
  unfold estimate
  rw [neg_sub_form, fit_reflect, fit_reflect, fit_some h]
  rfl

private theorem estimate_plain {vs : List ℝ} (h : Varies vs) (t : ℝ) (pts : List ℝ) :
    estimate false t vs pts = some (box (vs, bandwidth vs) 0 t, pts.map fun x => density (vs, bandwidth vs) x) := by
  unfold estimate
  rw [fit_some h]
  rfl

private theorem average_add (vs : List ℝ) (f g : ℝ → ℝ) : average vs f + average vs g = average vs fun v => f v + g v := by
  unfold average
  rw [List.sum_map_add]; ring

private theorem average_mono {vs : List ℝ} {f g : ℝ → ℝ} (h : ∀ v ∈ vs, f v ≤ g v) : average vs f ≤ average vs g := by
  unfold average
  have : (vs.map f).sum ≤ (vs.map g).sum := List.sum_le_sum h
  gcongr

private theorem average_const {vs : List ℝ} (h : vs ≠ []) (c : ℝ) : average vs (fun _ => c) = c := by
  unfold average
  have : (vs.length : ℝ) ≠ 0 := by simpa using h
  rw [List.map_const', List.sum_replicate, nsmul_eq_mul, mul_div_cancel_left₀ _ this]

private theorem average_lt {vs : List ℝ} {f g : ℝ → ℝ} (hn : vs ≠ []) (h : ∀ v ∈ vs, f v < g v) : average vs f < average vs g := by
  unfold average
  have hl : (0 : ℝ) < vs.length := by exact_mod_cast List.length_pos_iff.2 hn
  have : (vs.map f).sum < (vs.map g).sum := by
    clear hl
    induction vs with
    | nil => exact absurd rfl hn
    | cons a l ih =>
      simp only [List.map_cons, List.sum_cons]
      rcases l with _ | ⟨b, l⟩
      · simpa using h a (by simp)
      · exact add_lt_add (h a (by simp)) (ih (by simp) fun v hv => h v (List.mem_cons_of_mem _ hv))
  gcongr

private theorem Varies.ne_nil {vs : List ℝ} (h : Varies vs) : vs ≠ [] := by
  rintro rfl; obtain ⟨v, hv, _⟩ := h; cases hv

/-- **C101.** An estimate is made exactly if at least two of the recorded volumes differ. -/
theorem C101_made (reflect : Bool) (t : ℝ) (num : Nat) (vs : List ℝ) : (finish reflect t num vs).isSome ↔ Varies vs := by
  unfold finish
  rw [Option.isSome_map]
  by_cases h : Varies vs
  · cases reflect
    · rw [estimate_plain h]; simp [h]
    · rw [estimate_reflected h]; simp [h]
  · unfold estimate; rw [fit_none h]; simp [h]

/-- **C101.** With reflection the probability is the average over the recorded volumes `v` of the mass that a normal distribution around `v` gives to the volumes up to the target, together with the mass that leaves
at the bottom and at the top and is folded back once. -/
theorem C101_meaning (t : ℝ) (ht : 0 ≤ t) (num : Nat) (vs : List ℝ) (h : Varies vs) :
    ∃ h, Scott vs h ∧ ∃ pdf, finish true t num vs = some (average vs fun v => mass v h 0 t + mass v h (-t) 0 + mass v h (2 - t) 2, pdf) := by
  obtain ⟨pdf, he⟩ : ∃ pdf, finish true t num vs =
      some (box (vs, bandwidth vs) 0 t + box (vs.map fun v => 0 - v, bandwidth vs) 0 t + box (vs.map fun v => 2 - v, bandwidth vs) 0 t, pdf) :=
    ⟨_, by unfold finish; rw [estimate_reflected h, Option.map_some]⟩
  simp only [box_reflect] at he
  rw [box_mass (bandwidth_pos h) ht, box_mass (bandwidth_pos h) (by linarith), box_mass (bandwidth_pos h) (by linarith), average_add, average_add] at he
  simp only [zero_sub, sub_zero] at he
  exact ⟨bandwidth vs, bandwidth_scott h, _, he⟩

/-- **C101.** Without reflection the mass that leaves at the bottom and at the top is lost. -/
theorem C101_plain (t : ℝ) (ht : 0 ≤ t) (num : Nat) (vs : List ℝ) (h : Varies vs) :
    ∃ h, Scott vs h ∧ (∃ pdf, finish false t num vs = some (average vs fun v => mass v h 0 t, pdf)) ∧
      ∃ pdf, finishNormalised false num vs = some (average vs fun v => mass v h (-1) 0, pdf) := by
  refine ⟨bandwidth vs, bandwidth_scott h, ⟨_, by unfold finish; rw [estimate_plain h, box_mass (bandwidth_pos h) ht, Option.map_some]⟩, ?_⟩
  unfold finishNormalised estimateNormalised
  rw [fit_some h]
  simp only [Option.bind_some, Bool.false_eq_true, if_false, Option.map_some]
  rw [box_mass (bandwidth_pos h) (by norm_num)]
  exact ⟨_, rfl⟩

private theorem mass_join {v h a b c : ℝ} (hh : 0 < h) (hab : a ≤ b) (hbc : b ≤ c) : mass v h a b + mass v h b c = mass v h a c := by
  rw [mass_eq hh hab, mass_eq hh hbc, mass_eq hh (hab.trans hbc)]; ring

private theorem mass_le_one (v h a b : ℝ) : mass v h a b ≤ 1 := measureReal_le_one

private theorem mass_lt_one {v h a b : ℝ} (hh : 0 < h) (hab : a ≤ b) : mass v h a b < 1 := by
  rw [mass_eq hh hab]
  have := ndtr_lt_one ((b - v) / h)
  have := ndtr_nonneg ((a - v) / h)
  linarith

/-- **C101.** It is between zero and one, zero for a target of zero, and grows with the target. -/
theorem C101_probability (vs : List ℝ) (h : Varies vs) (num : Nat) :
    ∃ p : ℝ → ℝ, (∀ t, ∃ pdf, finish true t num vs = some (p t, pdf)) ∧ p 0 = 0 ∧ (∀ t, 0 ≤ t → t ≤ 1 → 0 ≤ p t ∧ p t ≤ 1) ∧ ∀ s t, 0 ≤ s → s ≤ t → p s ≤ p t := by
  have hp := bandwidth_pos h
  refine ⟨fun t => box (vs, bandwidth vs) 0 t + box (vs.map fun v => 0 - v, bandwidth vs) 0 t + box (vs.map fun v => 2 - v, bandwidth vs) 0 t, fun t => ?_, ?_, fun t ht ht1 => ?_, fun s t hs hst => ?_⟩
  · exact ⟨_, by unfold finish; rw [estimate_reflected h, Option.map_some]⟩
  · simp [box, mean, Function.comp_def]
  · simp only [box_reflect]
    rw [box_mass hp ht, box_mass hp (by linarith), box_mass hp (by linarith), average_add, average_add]
    simp only [zero_sub, sub_zero]
    constructor
    · rw [← average_const h.ne_nil 0]
      exact average_mono fun v _ => add_nonneg (add_nonneg (mass_nonneg _ _ _ _) (mass_nonneg _ _ _ _)) (mass_nonneg _ _ _ _)
    · rw [← average_const h.ne_nil 1]
      refine average_mono fun v _ => ?_
      have h1 : mass v (bandwidth vs) 0 t + mass v (bandwidth vs) (-t) 0 = mass v (bandwidth vs) (-t) t := by
        rw [add_comm, mass_join hp (by linarith) ht]
      have h2 : mass v (bandwidth vs) (-t) t + mass v (bandwidth vs) t (2 - t) = mass v (bandwidth vs) (-t) (2 - t) := mass_join hp (by linarith) (by linarith)
      have h3 : mass v (bandwidth vs) (-t) (2 - t) + mass v (bandwidth vs) (2 - t) 2 = mass v (bandwidth vs) (-t) 2 := mass_join hp (by linarith) (by linarith)
      have h4 := mass_le_one v (bandwidth vs) (-t) 2
      have h5 := mass_nonneg v (bandwidth vs) t (2 - t)
      linarith
  · simp only [box_reflect]
    rw [box_mass hp hs, box_mass hp (by linarith), box_mass hp (by linarith), box_mass hp (hs.trans hst), box_mass hp (by linarith), box_mass hp (by linarith), average_add, average_add,
      average_add, average_add]
    simp only [zero_sub, sub_zero]
    refine average_mono fun v _ => ?_
    have h1 := mass_join (v := v) hp hs hst
    have h2 := mass_join (v := v) hp (show -t ≤ -s by linarith) (show -s ≤ 0 by linarith)
    have h3 := mass_join (v := v) hp (show 2 - t ≤ 2 - s by linarith) (show 2 - s ≤ 2 by linarith)
    have := mass_nonneg v (bandwidth vs) s t
    have := mass_nonneg v (bandwidth vs) (-t) (-s)
    have := mass_nonneg v (bandwidth vs) (2 - t) (2 - s)
    linarith

/-- **C101.** The density is that of the probability: it is continuous and nowhere negative, and its integral up to the target is the probability; with and without reflection. -/
theorem C101_density (reflect : Bool) (vs : List ℝ) (h : Varies vs) (num : Nat) :
    ∃ d : ℝ → ℝ, (∀ x, 0 ≤ d x) ∧ Continuous d ∧ ∀ t, 0 ≤ t → finish reflect t num vs = some (∫ x in (0 : ℝ)..t, d x, (points num).map fun x => (x, d x)) := by
  have hp := bandwidth_pos h
  have hd : ∀ (ws : List ℝ) (x : ℝ), 0 ≤ density (ws, bandwidth vs) x := by
    intro ws x
    unfold density mean
    refine div_nonneg (List.sum_nonneg ?_) (by positivity)
    intro y hy
    obtain ⟨v, _, rfl⟩ := List.mem_map.1 hy
    exact div_nonneg (gaussianPDFReal_nonneg _ _ _) hp.le
  have hz : ∀ f : ℝ → ℝ, (points num).zip ((points num).map f) = (points num).map fun x => (x, f x) := by
    intro f
    generalize points num = l
    induction l with
    | nil => rfl
    | cons a l ih => simp [ih]
  cases reflect
  · refine ⟨density (vs, bandwidth vs), hd _, density_continuous _, fun t ht => ?_⟩
    unfold finish
    rw [estimate_plain h, Option.map_some, (box_integral (k := (vs, bandwidth vs)) hp ht).2, hz]
  · refine ⟨fun x => density (vs, bandwidth vs) x + density (vs.map fun v => 0 - v, bandwidth vs) x + density (vs.map fun v => 2 - v, bandwidth vs) x,
      fun x => add_nonneg (add_nonneg (hd _ _) (hd _ _)) (hd _ _),
      ((density_continuous _).add (density_continuous _)).add (density_continuous _), fun t ht => ?_⟩
    have b1 := box_integral (k := (vs, bandwidth vs)) hp ht
    have b2 := box_integral (k := (vs.map fun v => 0 - v, bandwidth vs)) hp ht
    have b3 := box_integral (k := (vs.map fun v => 2 - v, bandwidth vs)) hp ht
    unfold finish
    rw [estimate_reflected h, Option.map_some, hz, b1.2, b2.2, b3.2, ← intervalIntegral.integral_add b1.1 b2.1, ← intervalIntegral.integral_add (b1.1.add b2.1) b3.1]

/-- **C101.** The points of the density go from zero to one in equal steps. -/
theorem C101_points (num : Nat) (hn : 2 ≤ num) : (points num).length = num ∧ (points num)[0]? = some 0 ∧ (points num)[num - 1]? = some 1 ∧
    ∀ (i : Nat) (x y : ℝ), (points num)[i]? = some x → (points num)[i + 1]? = some y → y - x = 1 / ((num : ℝ) - 1) := by
  have h1 : ((num : ℝ) - 1) ≠ 0 := by
    have : (2 : ℝ) ≤ num := by exact_mod_cast hn
    intro e; linarith
  unfold points
  refine ⟨by simp, ?_, ?_, ?_⟩
  · rw [List.getElem?_map, List.getElem?_range (by omega)]; simp
  · rw [List.getElem?_map, List.getElem?_range (by omega)]
    simp only [Option.map_some, Option.some.injEq]
    rw [Nat.cast_sub (by omega), Nat.cast_one, div_self h1]
  · intro i x y hx hy
    rw [List.getElem?_map] at hx hy
    obtain ⟨a, ha, rfl⟩ := Option.map_eq_some_iff.1 hx
    obtain ⟨b, hb, rfl⟩ := Option.map_eq_some_iff.1 hy
    obtain ⟨_, rfl⟩ := List.getElem?_eq_some_iff.1 ha
    obtain ⟨_, rfl⟩ := List.getElem?_eq_some_iff.1 hb
    simp only [List.getElem_range]
    push_cast; ring

/-! ## Normalised volumes -/

private theorem normalised_reflected {vs : List ℝ} (h : Varies vs) (pts : List ℝ) : ∃ pdf,
    estimateNormalised true vs pts = some (box (vs, bandwidth vs) (-1) 0 + box (vs.map fun v => -2 - v, bandwidth vs) (-1) 0 + box (vs.map fun v => 2 - v, bandwidth vs) (-1) 0, pdf) ∧ pdf.length = pts.length := by
  refine ⟨pts.map fun x => density (vs, bandwidth vs) x + density (vs.map fun v => -2 - v, bandwidth vs) x + density (vs.map fun v => 2 - v, bandwidth vs) x, ?_, by simp⟩
  unfold estimateNormalised
  rw [fit_reflect, fit_reflect, fit_some h]
  rfl

/-- **C101.** The probability of a normalised volume of at most zero is the average mass between -1 and 0, with the mass that leaves at the bottom and at the top folded back once; it is between zero and one. -/
theorem C101_normalised (num : Nat) (vs : List ℝ) (h : Varies vs) :
    ∃ h, Scott vs h ∧ ∃ p pdf, finishNormalised true num vs = some (p, pdf) ∧ p = average vs (fun v => mass v h (-1) 0 + mass v h (-2) (-1) + mass v h 2 3) ∧ 0 ≤ p ∧ p ≤ 1 := by
  have hp := bandwidth_pos h
  obtain ⟨pdf, he, _⟩ := normalised_reflected h (points num)
  have hb : box (vs, bandwidth vs) (-1) 0 + box (vs.map fun v => -2 - v, bandwidth vs) (-1) 0 + box (vs.map fun v => 2 - v, bandwidth vs) (-1) 0 =
      average vs (fun v => mass v (bandwidth vs) (-1) 0 + mass v (bandwidth vs) (-2) (-1) + mass v (bandwidth vs) 2 3) := by
    rw [box_reflect, box_reflect, box_mass hp (by norm_num), box_mass hp (by norm_num), box_mass hp (by norm_num), average_add, average_add]
    norm_num
  refine ⟨bandwidth vs, bandwidth_scott h, _, (points num).zip pdf, by unfold finishNormalised; rw [he]; rfl, hb, ?_, ?_⟩
  · rw [hb, ← average_const h.ne_nil 0]
    exact average_mono fun v _ => add_nonneg (add_nonneg (mass_nonneg _ _ _ _) (mass_nonneg _ _ _ _)) (mass_nonneg _ _ _ _)
  · rw [hb]
    refine (average_mono (g := fun _ => 1) fun v _ => ?_).trans (average_const h.ne_nil 1).le
    have h1 := mass_join (v := v) hp (show (-2 : ℝ) ≤ -1 by norm_num) (show (-1 : ℝ) ≤ 0 by norm_num)
    have h2 := mass_join (v := v) hp (show (-2 : ℝ) ≤ 0 by norm_num) (show (0 : ℝ) ≤ 2 by norm_num)
    have h3 := mass_join (v := v) hp (show (-2 : ℝ) ≤ 2 by norm_num) (show (2 : ℝ) ≤ 3 by norm_num)
    have := mass_nonneg v (bandwidth vs) 0 2
    have := mass_le_one v (bandwidth vs) (-2) 3
    linarith

/-! ## Cases -/

example : Varies [1 / 4, 1 / 2, 1 / 4, 1] := ⟨1 / 4, by simp, 1 / 2, by simp, by norm_num⟩

/-! ## What does not hold -/

/-- A volume that never changes, such as that of a reservoir that is always full, or a single value after resampling: an exception instead of an estimate, at the end of the run. -/
theorem C101_constant_fails (reflect : Bool) (t : ℝ) (num n : Nat) (v : ℝ) : finish reflect t num (List.replicate n v) = none := by
  have : ¬ Varies (List.replicate n v) := by
    rintro ⟨a, ha, b, hb, hne⟩
    exact hne ((List.eq_of_mem_replicate ha).trans (List.eq_of_mem_replicate hb).symm)
  rw [← Option.not_isSome_iff_eq_none, C101_made]
  exact this

/-- The probability of a volume of at most 100% is never 1, as what has been folded back once and leaves on the other side is lost. -/
theorem C101_full_fails (vs : List ℝ) (h : Varies vs) (num : Nat) (p : ℝ) (pdf : List (ℝ × ℝ)) (he : finish true 1 num vs = some (p, pdf)) : p < 1 := by
  obtain ⟨w, hw, pdf', he'⟩ := C101_meaning 1 (by norm_num) num vs h
  rw [he] at he'
  cases he'
  refine (average_lt (g := fun _ => 1) h.ne_nil fun v _ => ?_).trans_eq (average_const h.ne_nil 1)
  have hw := hw.1
  have h1 := mass_join (v := v) hw (show (-1 : ℝ) ≤ 0 by norm_num) (show (0 : ℝ) ≤ 1 by norm_num)
  have h2 := mass_join (v := v) hw (show (-1 : ℝ) ≤ 1 by norm_num) (show (1 : ℝ) ≤ 2 by norm_num)
  have h3 := mass_lt_one (v := v) hw (show (-1 : ℝ) ≤ 2 by norm_num)
  have h4 : (2 : ℝ) - 1 = 1 := by norm_num
  rw [h4]
  linarith

/-- The density of normalised volumes, which are between -1 and 1, is given from 0 to 1 only: nothing of what the probability is about. -/
theorem C101_normalised_density_fails (num : Nat) (vs : List ℝ) (h : Varies vs) :
    ∃ p pdf, finishNormalised true num vs = some (p, pdf) ∧ pdf.length = num ∧ ∀ e ∈ pdf, 0 ≤ e.1 := by
  obtain ⟨pdf, he, hl⟩ := normalised_reflected h (points num)
  have hn : (points num).length = num := by simp [points]
  refine ⟨_, (points num).zip pdf, by unfold finishNormalised; rw [he]; rfl, by rw [List.length_zip, hl, hn, min_self], ?_⟩
  intro e hm
  have := (List.of_mem_zip hm).1
  obtain ⟨i, hi, rfl'⟩ := List.mem_map.1 this
  rw [← rfl']
  have hi := List.mem_range.1 hi
  have : (1 : ℝ) ≤ num := by exact_mod_cast (by omega : 1 ≤ num)
  exact div_nonneg (by positivity) (by linarith)

end Verif.Kde

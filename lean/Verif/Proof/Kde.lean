import Verif.Spec.Kde
import Mathlib.Tactic.Linarith
import Mathlib.Tactic.FieldSimp
import Mathlib.Tactic.Ring
import Mathlib.Tactic.Positivity
import Mathlib.Algebra.Order.BigOperators.Group.List
import Mathlib.MeasureTheory.Integral.IntervalIntegral.Basic
/-! Lemmas for C101. -/

namespace Verif.Kde

open ProbabilityTheory MeasureTheory

theorem ndtr_eq (x : ℝ) : ndtr x = (gaussianReal 0 1).real (Set.Iic x) := cdf_eq_real _ x

theorem ndtr_mono {x y : ℝ} (h : x ≤ y) : ndtr x ≤ ndtr y := monotone_cdf _ h

/-- Mass of an interval of the standard normal distribution. -/
theorem ndtr_sub {x y : ℝ} (h : x ≤ y) : ndtr y - ndtr x = (gaussianReal 0 1).real (Set.Ioc x y) := by
  rw [ndtr_eq, ndtr_eq, ← Set.Iic_sdiff_Iic, measureReal_sdiff (Set.Iic_subset_Iic.2 h) measurableSet_Iic]

theorem ndtr_neg (x : ℝ) : ndtr (-x) = 1 - ndtr x := by
  have hm : (gaussianReal 0 1).map (fun x : ℝ => -x) = gaussianReal 0 1 := by rw [gaussianReal_map_neg, neg_zero]
  have h1 : (gaussianReal 0 1).real (Set.Iic (-x)) = (gaussianReal 0 1).real (Set.Ici x) := by
    conv_lhs => rw [← hm]
    rw [map_measureReal_apply measurable_neg measurableSet_Iic]
    congr 1; ext y; simp
  rw [ndtr_eq, ndtr_eq, h1]
  have := nullSingletonClass_gaussianReal (μ := 0) (v := 1) one_ne_zero
  have h2 : (gaussianReal 0 1).real (Set.Ici x) = (gaussianReal 0 1).real (Set.Ioi x) := by
    unfold Measure.real; rw [measure_congr Ioi_ae_eq_Ici]
  rw [h2, ← Set.compl_Iic, measureReal_compl measurableSet_Iic]
  simp

theorem ndtr_lt {x y : ℝ} (h : x < y) : ndtr x < ndtr y := by
  rw [← sub_pos, ndtr_sub h.le]
  refine lt_of_le_of_ne measureReal_nonneg (Ne.symm ?_)
  rw [measureReal_ne_zero_iff]
  intro h0
  have := gaussianReal_absolutelyContinuous' 0 (v := 1) one_ne_zero h0
  rw [Real.volume_Ioc, ENNReal.ofReal_eq_zero] at this
  linarith

theorem ndtr_lt_one (x : ℝ) : ndtr x < 1 := lt_of_lt_of_le (ndtr_lt (lt_add_one x)) (cdf_le_one _ _)

theorem ndtr_nonneg (x : ℝ) : 0 ≤ ndtr x := cdf_nonneg _ _

theorem mass_eq {v h a b : ℝ} (hh : 0 < h) (hab : a ≤ b) : mass v h a b = ndtr ((b - v) / h) - ndtr ((a - v) / h) := by
  have hm : gaussianReal v (.mk (h ^ 2) (sq_nonneg h)) = (gaussianReal 0 1).map fun x => v + h * x := by
    have h1 := gaussianReal_map_const_mul (μ := 0) (v := 1) h
    have h2 := gaussianReal_map_const_add (μ := h * 0) (v := .mk (h ^ 2) (sq_nonneg h) * 1) v
    rw [← h1, Measure.map_map (measurable_const_add v) (measurable_const_mul h)] at h2
    rw [mul_zero, zero_add, mul_one] at h2
    exact h2.symm
  rw [ndtr_sub (by gcongr), mass, hm, map_measureReal_apply ((measurable_const_mul h).const_add v) measurableSet_Ioc]
  congr 1
  ext x
  simp only [Set.mem_preimage, Set.mem_Ioc]
  rw [div_lt_iff₀ hh, le_div_iff₀ hh, mul_comm]
  constructor <;> rintro ⟨h1, h2⟩ <;> constructor <;> linarith

theorem mass_nonneg (v h a b : ℝ) : 0 ≤ mass v h a b := measureReal_nonneg

/-- The density of the standard normal distribution is the derivative of its distribution function. -/
theorem integral_pdf {x y : ℝ} (h : x ≤ y) : ∫ t in x..y, gaussianPDFReal 0 1 t = ndtr y - ndtr x := by
  rw [ndtr_sub h, intervalIntegral.integral_of_le h, Measure.real, gaussianReal_apply_eq_integral _ one_ne_zero, ENNReal.toReal_ofReal]
  exact integral_nonneg fun t => gaussianPDFReal_nonneg _ _ _

theorem integral_kernel {v h a b : ℝ} (hh : 0 < h) (hab : a ≤ b) :
    ∫ x in a..b, gaussianPDFReal 0 1 ((x - v) / h) / h = ndtr ((b - v) / h) - ndtr ((a - v) / h) := by
  rw [intervalIntegral.integral_div]
  have : ∀ x, (x - v) / h = x / h - v / h := fun x => sub_div _ _ _
  simp only [this]
  rw [intervalIntegral.integral_comp_div_sub _ hh.ne', integral_pdf (by gcongr), smul_eq_mul, mul_div_cancel_left₀ _ hh.ne']

theorem integrable_kernel {v h a b : ℝ} (hh : 0 < h) : IntervalIntegrable (fun x => gaussianPDFReal 0 1 ((x - v) / h) / h) volume a b := by
  refine Integrable.intervalIntegrable ?_
  refine Integrable.div_const ?_ h
  have := (integrable_gaussianPDFReal 0 1).comp_div hh.ne'
  exact this.comp_sub_right v

theorem integral_sum {h a b : ℝ} (hh : 0 < h) (hab : a ≤ b) (vs : List ℝ) :
    IntervalIntegrable (fun x => (vs.map fun v => gaussianPDFReal 0 1 ((x - v) / h) / h).sum) volume a b ∧
    ∫ x in a..b, (vs.map fun v => gaussianPDFReal 0 1 ((x - v) / h) / h).sum = (vs.map fun v => ndtr ((b - v) / h) - ndtr ((a - v) / h)).sum := by
  induction vs with
  | nil => simp
  | cons v vs ih =>
    simp only [List.map_cons, List.sum_cons]
    refine ⟨(integrable_kernel hh).add ih.1, ?_⟩
    rw [intervalIntegral.integral_add (integrable_kernel hh) ih.1, integral_kernel hh hab, ih.2]

/-- The probability of an interval is the integral of the density. -/
theorem box_integral {k : List ℝ × ℝ} (hk : 0 < k.2) {a b : ℝ} (hab : a ≤ b) :
    IntervalIntegrable (density k) volume a b ∧ box k a b = ∫ x in a..b, density k x := by
  unfold box density mean
  simp only [List.length_map]
  refine ⟨(integral_sum hk hab k.1).1.div_const _, ?_⟩
  rw [intervalIntegral.integral_div, (integral_sum hk hab k.1).2]

/-! ## Reflections -/

theorem mean_reflect (c : ℝ) {vs : List ℝ} (h : vs ≠ []) : mean (vs.map fun v => c - v) = c - mean vs := by
  have hl : (vs.length : ℝ) ≠ 0 := by simpa using h
  have : ∀ l : List ℝ, (l.map fun v => c - v).sum = l.length * c - l.sum := by
    intro l
    induction l with
    | nil => simp
    | cons a l ih => simp only [List.map_cons, List.sum_cons, ih, List.length_cons]; push_cast; ring
  unfold mean
  rw [this, List.length_map]
  field_simp

theorem variance_reflect (c : ℝ) (vs : List ℝ) : variance (vs.map fun v => c - v) = variance vs := by
  by_cases h : vs = []
  · subst h; rfl
  · unfold variance
    rw [mean_reflect c h, List.map_map, List.length_map]
    congr 2
    refine List.map_congr_left fun v _ => ?_
    simp only [Function.comp]; ring

theorem bandwidth_reflect (c : ℝ) (vs : List ℝ) : bandwidth (vs.map fun v => c - v) = bandwidth vs := by
  unfold bandwidth; rw [variance_reflect, List.length_map]

theorem fit_reflect (c : ℝ) (vs : List ℝ) : fit (vs.map fun v => c - v) = (fit vs).map fun k => (k.1.map fun v => c - v, k.2) := by
  unfold fit
  rw [variance_reflect, List.length_map, bandwidth_reflect]
  split <;> rfl

theorem sum_sq_eq_zero {l : List ℝ} (m : ℝ) (h : (l.map fun v => (v - m) ^ 2).sum = 0) : ∀ v ∈ l, v = m := by
  induction l with
  | nil => simp
  | cons a l ih =>
    simp only [List.map_cons, List.sum_cons] at h
    have h1 : 0 ≤ (l.map fun v => (v - m) ^ 2).sum := List.sum_nonneg (by simp; intro v _; positivity)
    have h2 := sq_nonneg (a - m)
    intro v hv
    rcases List.mem_cons.1 hv with rfl | hv
    · have : (v - m) ^ 2 = 0 := by linarith
      have := pow_eq_zero_iff (two_ne_zero) |>.1 this
      linarith
    · exact ih (by linarith) v hv

theorem varies_iff (vs : List ℝ) : ¬ (vs.length < 2 ∨ variance vs = 0) ↔ Varies vs := by
  constructor
  · intro h
    push Not at h
    obtain ⟨hl, hv⟩ := h
    by_contra hc
    apply hv
    cases vs with
    | nil => simp at hl
    | cons a l =>
      have hall : ∀ v ∈ a :: l, v = a := by
        intro v hm
        by_contra hne
        exact hc ⟨v, hm, a, by simp, hne⟩
      have hm : mean (a :: l) = a := by
        have hsum : ∀ l : List ℝ, (∀ v ∈ l, v = a) → l.sum = l.length * a := by
          intro l hl
          induction l with
          | nil => simp
          | cons b l ih => rw [List.sum_cons, ih fun v hv => hl v (List.mem_cons_of_mem _ hv), hl b (by simp), List.length_cons]; push_cast; ring
        unfold mean
        rw [hsum _ hall, mul_div_cancel_left₀]
        simp only [List.length_cons]; positivity
      unfold variance
      rw [hm]
      have : ((a :: l).map fun v => (v - a) ^ 2).sum = 0 := by
        apply List.sum_eq_zero
        intro x hx
        obtain ⟨v, hv, rfl⟩ := List.mem_map.1 hx
        rw [hall v hv]; simp
      rw [this, zero_div]
  · rintro ⟨v, hv, w, hw, hne⟩ (h | h)
    · cases vs with
      | nil => cases hv
      | cons a l =>
        cases l with
        | nil => rw [List.mem_singleton] at hv hw; exact hne (hv.trans hw.symm)
        | cons b l => simp at h
    · have hl : 2 ≤ vs.length := by
        by_contra hl
        cases vs with
        | nil => cases hv
        | cons a l =>
          cases l with
          | nil => rw [List.mem_singleton] at hv hw; exact hne (hv.trans hw.symm)
          | cons b l => simp at hl
      unfold variance at h
      have h2 : (vs.length : ℝ) - 1 ≠ 0 := by
        have : (2 : ℝ) ≤ vs.length := by exact_mod_cast hl
        intro e; linarith
      have := sum_sq_eq_zero _ ((div_eq_zero_iff.1 h).resolve_right h2)
      exact hne ((this v hv).trans (this w hw).symm)

theorem bandwidth_pos {vs : List ℝ} (h : Varies vs) : 0 < bandwidth vs := by
  have hv := (varies_iff vs).2 h
  push Not at hv
  have hl : (2 : ℝ) ≤ vs.length := by exact_mod_cast hv.1
  have h0 : 0 ≤ variance vs := div_nonneg (List.sum_nonneg (by simp; intro v _; positivity)) (by linarith)
  exact mul_pos (Real.sqrt_pos.2 (lt_of_le_of_ne h0 (Ne.symm hv.2))) (Real.rpow_pos_of_pos (by linarith) _)

theorem bandwidth_scott {vs : List ℝ} (h : Varies vs) : Scott vs (bandwidth vs) := by
  refine ⟨bandwidth_pos h, ?_⟩
  have hv := (varies_iff vs).2 h
  push Not at hv
  have hl : (2 : ℝ) ≤ vs.length := by exact_mod_cast hv.1
  have h0 : 0 ≤ variance vs := div_nonneg (List.sum_nonneg (by simp; intro v _; positivity)) (by linarith)
  have hm : ((vs.map fun v => (v - average vs fun w => w) ^ 2).sum / (vs.length - 1)) = variance vs := by simp [variance, mean, average]
  have hr : (((vs.length : ℝ) ^ (-(1 / 5) : ℝ)) ^ 2) ^ 5 * (vs.length : ℝ) ^ 2 = 1 := by
    rw [← pow_mul, ← Real.rpow_natCast, ← Real.rpow_mul (by linarith), ← Real.rpow_natCast (vs.length : ℝ) 2, ← Real.rpow_add (by linarith)]
    norm_num
  rw [hm]
  unfold bandwidth
  rw [mul_pow, Real.sq_sqrt h0, mul_pow, mul_assoc, hr, mul_one]

theorem density_continuous (k : List ℝ × ℝ) : Continuous (density k) := by
  unfold density mean
  refine Continuous.div_const ?_ _ |>.congr fun x => by rw [List.length_map]
  have : ∀ l : List ℝ, Continuous fun x => (l.map fun v => gaussianPDFReal 0 1 ((x - v) / k.2) / k.2).sum := by
    intro l
    induction l with
    | nil => simpa using continuous_const
    | cons a l ih =>
      simp only [List.map_cons, List.sum_cons]
      refine Continuous.add (Continuous.div_const ?_ _) ih
      unfold gaussianPDFReal
      fun_prop
  exact this k.1

theorem fit_some {vs : List ℝ} (h : Varies vs) : fit vs = some (vs, bandwidth vs) := if_neg ((varies_iff vs).2 h)

theorem fit_none {vs : List ℝ} (h : ¬ Varies vs) : fit vs = none := if_pos (not_not.1 fun h' => h ((varies_iff vs).1 h'))

/-- The reflected kernel gives an interval the mass that the kernel gives the reflected interval. -/
theorem box_reflect (c : ℝ) (vs : List ℝ) {h : ℝ} (a b : ℝ) : box (vs.map fun v => c - v, h) a b = box (vs, h) (c - b) (c - a) := by
  unfold box
  rw [List.map_map]
  congr 1
  refine List.map_congr_left fun v _ => ?_
  simp only [Function.comp]
  have h1 : (b - (c - v)) / h = -((c - b - v) / h) := by ring
  have h2 : (a - (c - v)) / h = -((c - a - v) / h) := by ring
  rw [h1, h2, ndtr_neg, ndtr_neg]; ring

theorem box_mass {vs : List ℝ} {h a b : ℝ} (hh : 0 < h) (hab : a ≤ b) : box (vs, h) a b = average vs fun v => mass v h a b := by
  unfold box average mean
  simp only [List.length_map]
  congr 2
  exact List.map_congr_left fun v _ => (mass_eq hh hab).symm

end Verif.Kde

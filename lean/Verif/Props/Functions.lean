import Verif.Model.Functions
import Verif.Proof.NodeRun
import Mathlib.Analysis.Complex.Exponential
import Mathlib.Tactic.Ring
import Mathlib.Tactic.Linarith
import Mathlib.Tactic.FieldSimp
import Mathlib.Algebra.Order.Field.Basic
import Mathlib.Tactic.Positivity
/-! # C39: piecewise integral; C60: polynomials and activation functions -/

namespace Verif.Functions

/-! ## C39 -/

/-- Breakpoints that start at `prev` or later and never decrease. -/
private def Sorted : Rat → List (Rat × Rat) → Prop
  | _, [] => True
  | prev, p :: rest => prev ≤ p.1 ∧ Sorted p.1 rest

private theorem loop_acc (x prev acc : Rat) (l : List (Rat × Rat)) : integralLoop x prev acc l = acc + integralLoop x prev 0 l := by
  induction l generalizing prev acc with
  | nil => simp [integralLoop]
  | cons p l ih =>
    obtain ⟨xi, yi⟩ := p
    unfold integralLoop
    simp only
    generalize (if x < xi then x - prev else xi - prev) = dx
    split
    · simp
    · rw [ih, ih _ (0 + _)]; ring

private theorem loop_le (x prev : Rat) (l : List (Rat × Rat)) (hs : Sorted prev l) (hx : x ≤ prev) : integralLoop x prev 0 l = 0 := by
  induction l generalizing prev with
  | nil => rfl
  | cons p l ih =>
    obtain ⟨xi, yi⟩ := p
    obtain ⟨h1, h2⟩ := hs
    simp only at h1 h2
    unfold integralLoop
    simp only
    rcases lt_or_eq_of_le hx with h | h
    · rw [if_pos (lt_of_lt_of_le h h1), if_pos (by linarith)]
    · subst h
      by_cases h3 : x < xi
      · rw [if_pos h3, if_neg (by linarith), sub_self, zero_mul, add_zero]
        exact ih xi h2 h1
      · have : xi = x := le_antisymm (not_lt.1 h3) h1
        subst this
        rw [if_neg h3, if_neg (by linarith), sub_self, zero_mul, add_zero]
        exact ih xi h2 (le_refl _)

/-- Value of the remaining integral: this segment's part and the rest. -/
private theorem loop_cons (x prev xi yi : Rat) (l : List (Rat × Rat)) (hs : Sorted prev ((xi, yi) :: l)) (hx : prev ≤ x) :
    integralLoop x prev 0 ((xi, yi) :: l) = (min x xi - prev) * yi + integralLoop x xi 0 l := by
  obtain ⟨h1, h2⟩ := hs
  simp only at h1 h2
  conv_lhs => unfold integralLoop
  simp only
  by_cases h3 : x < xi
  · rw [if_pos h3, if_neg (by linarith), zero_add, loop_acc, min_eq_left h3.le]
  · rw [if_neg h3, if_neg (by linarith), zero_add, loop_acc, min_eq_right (not_lt.1 h3)]

/-- The function to be integrated: `y[i]` from `x[i-1]` (0 for the first) up to `x[i]`, zero outside. -/
def stepAt (xs ys : List Rat) (t : Rat) : Rat :=
  if t < 0 then 0 else (((xs.zip ys).find? fun p => decide (t < p.1)).map (·.2)).getD 0

private theorem sorted_of_accepted (xs ys : List Rat) (h : integralAccepted xs ys = true) (h0 : ∀ a ∈ xs.head?, 0 ≤ a) : Sorted 0 (xs.zip ys) := by
  unfold integralAccepted at h
  simp only [Bool.and_eq_true, beq_iff_eq] at h
  obtain ⟨hl, ha⟩ := h
  have key : ∀ (xs ys : List Rat) (prev : Rat), (∀ a ∈ xs.head?, prev ≤ a) →
      ((xs.zip xs.tail).all fun p : Rat × Rat => decide (¬ (p.2 - p.1 < 0))) = true → Sorted prev (xs.zip ys) := by
    intro xs
    induction xs with
    | nil => intro ys prev _ _; simp [Sorted]
    | cons a xs ih =>
      intro ys prev hp hall
      cases ys with
      | nil => simp [Sorted]
      | cons b ys =>
        refine ⟨hp a rfl, ?_⟩
        cases xs with
        | nil => simp [Sorted]
        | cons a' xs =>
          simp only [List.tail_cons, List.zip_cons_cons, List.all_cons, Bool.and_eq_true, decide_eq_true_eq, not_lt] at hall
          apply ih
          · intro c hc
            simp only [List.head?_cons, Option.mem_def, Option.some.injEq] at hc
            subst hc; linarith [hall.1]
          · simpa using hall.2
  exact key xs ys 0 h0 ha

private theorem loop_diff (l : List (Rat × Rat)) (prev a b : Rat) (hs : Sorted prev l) (ha : prev ≤ a) (hab : a ≤ b)
    (hc : ∀ p ∈ l, p.1 ≤ a ∨ b ≤ p.1) :
    integralLoop b prev 0 l - integralLoop a prev 0 l = ((l.find? fun p => decide (a < p.1)).map (·.2)).getD 0 * (b - a) := by
  induction l generalizing prev with
  | nil => simp [integralLoop]
  | cons p l ih =>
    obtain ⟨xi, yi⟩ := p
    rw [loop_cons _ _ _ _ _ hs (le_trans ha hab), loop_cons _ _ _ _ _ hs ha]
    obtain ⟨h1, h2⟩ := hs
    simp only at h1 h2
    by_cases hx : a < xi
    · have hbx : b ≤ xi := by
        rcases hc (xi, yi) (by simp) with h | h
        · exact absurd hx (not_lt.2 h)
        · exact h
      rw [min_eq_left hbx, min_eq_left hx.le, loop_le b xi l h2 hbx, loop_le a xi l h2 hx.le]
      simp [hx]
      ring
    · have hx' := not_lt.1 hx
      rw [min_eq_right (le_trans hx' hab), min_eq_right hx']
      have := ih xi h2 hx' fun p hp => hc p (by simp [hp])
      simp only [List.find?_cons, hx, decide_false]
      linarith

/-- The arrays are accepted exactly if they have the same length and the breakpoints never decrease. -/
theorem C39_accepted (xs ys : List Rat) : integralAccepted xs ys = true ↔ xs.length = ys.length ∧ xs.Pairwise (· ≤ ·) := by
  unfold integralAccepted
  rw [Bool.and_eq_true, beq_iff_eq]
  refine and_congr_right fun hl => ?_
  clear hl
  rw [← List.isChain_iff_pairwise]
  induction xs with
  | nil => simp
  | cons a xs ih =>
    cases xs with
    | nil => simp
    | cons b xs =>
      rw [List.isChain_cons_cons, ← ih]
      simp

/-- **C39 (integral).** For breakpoints that are accepted and start at zero or later, the value is zero for inputs up to zero, and between two inputs with no
breakpoint strictly between them it changes by the value of the function there times their distance. (These two facts determine the integral of a function with
finitely many steps.) -/
theorem C39_integral (xs ys : List Rat) (h : integralAccepted xs ys = true) (h0 : ∀ a ∈ xs.head?, 0 ≤ a) :
    (∀ x ≤ 0, integral xs ys x = 0) ∧
    ∀ a b, 0 ≤ a → a ≤ b → (∀ x ∈ xs, x ≤ a ∨ b ≤ x) → integral xs ys b - integral xs ys a = stepAt xs ys a * (b - a) := by
  have hs := sorted_of_accepted xs ys h h0
  refine ⟨fun x hx => loop_le x 0 _ hs hx, fun a b ha hab hc => ?_⟩
  unfold integral
  rw [loop_diff _ 0 a b hs ha hab fun p hp => hc p.1 (List.of_mem_zip hp).1]
  unfold stepAt
  rw [if_neg (not_lt.2 ha)]

private theorem loop_clamp (x prev xi yi : Rat) (l : List (Rat × Rat)) (hs : Sorted prev ((xi, yi) :: l)) :
    integralLoop x prev 0 ((xi, yi) :: l) = (max x prev + xi - prev - max x xi) * yi + integralLoop x xi 0 l := by
  have h1 : prev ≤ xi := hs.1
  by_cases hx : prev ≤ x
  · rw [loop_cons _ _ _ _ _ hs hx, max_eq_left hx]
    congr 2
    rcases le_total x xi with h | h
    · rw [min_eq_left h, max_eq_right h]; ring
    · rw [min_eq_right h, max_eq_left h]; ring
  · have hx := (not_le.1 hx).le
    rw [loop_le x _ _ hs hx, loop_le x xi l hs.2 (le_trans hx h1), max_eq_right hx, max_eq_right (le_trans hx h1)]
    ring

private theorem clamp_mono (a b prev xi : Rat) (h1 : prev ≤ xi) (hab : a ≤ b) : max a prev + xi - prev - max a xi ≤ max b prev + xi - prev - max b xi := by
  rcases le_total a prev with h | h <;> rcases le_total a xi with h' | h' <;> rcases le_total b prev with g | g <;> rcases le_total b xi with g' | g' <;>
    simp only [max_eq_left, max_eq_right, h, h', g, g'] <;> linarith

private theorem loop_bounds (l : List (Rat × Rat)) (prev a b M : Rat) (hs : Sorted prev l) (hab : a ≤ b) (hM : ∀ p ∈ l, |p.2| ≤ M) :
    |integralLoop b prev 0 l - integralLoop a prev 0 l| ≤ |M| * (max b prev - max a prev) := by
  induction l generalizing prev with
  | nil =>
    simp only [integralLoop, sub_self, abs_zero]
    exact mul_nonneg (abs_nonneg _) (by have := max_le_max hab (le_refl prev); linarith)
  | cons p l ih =>
    obtain ⟨xi, yi⟩ := p
    have hy := abs_le.1 (le_trans (hM (xi, yi) (by simp)) (le_abs_self M))
    simp only at hy
    have ih := abs_le.1 (ih xi hs.2 fun p hp => hM p (by simp [hp]))
    have hc := clamp_mono a b prev xi hs.1 hab
    rw [loop_clamp _ _ _ _ _ hs, loop_clamp _ _ _ _ _ hs, abs_le]
    have e1 := mul_le_mul_of_nonneg_left hy.2 (sub_nonneg.2 hc)
    have e2 := mul_le_mul_of_nonneg_left hy.1 (sub_nonneg.2 hc)
    constructor <;> nlinarith

private theorem loop_mono (l : List (Rat × Rat)) (prev a b : Rat) (hs : Sorted prev l) (hab : a ≤ b) (hy : ∀ p ∈ l, 0 ≤ p.2) :
    integralLoop a prev 0 l ≤ integralLoop b prev 0 l := by
  induction l generalizing prev with
  | nil => exact le_refl _
  | cons p l ih =>
    obtain ⟨xi, yi⟩ := p
    have ih := ih xi hs.2 fun p hp => hy p (by simp [hp])
    have hc := clamp_mono a b prev xi hs.1 hab
    rw [loop_clamp _ _ _ _ _ hs, loop_clamp _ _ _ _ _ hs]
    have := mul_le_mul_of_nonneg_right hc (hy (xi, yi) (by simp))
    simp only at this
    linarith

/-- **C39 (continuous, non-decreasing).** With all steps at most `M` in absolute value, the value changes by at most `M` times the change of the input; with non-negative steps
it never decreases when the input increases. -/
theorem C39_continuous_monotone (xs ys : List Rat) (h : integralAccepted xs ys = true) (h0 : ∀ a ∈ xs.head?, 0 ≤ a) (a b : Rat) (hab : a ≤ b) :
    (∀ M, 0 ≤ M → (∀ y ∈ ys, |y| ≤ M) → |integral xs ys b - integral xs ys a| ≤ M * (b - a)) ∧
    ((∀ y ∈ ys, 0 ≤ y) → integral xs ys a ≤ integral xs ys b) := by
  have hs := sorted_of_accepted xs ys h h0
  refine ⟨fun M hM0 hM => ?_, fun hy => ?_⟩
  · have := loop_bounds (xs.zip ys) 0 a b M hs hab fun p hp => hM p.2 (List.of_mem_zip hp).2
    rw [abs_of_nonneg hM0] at this
    refine le_trans this (mul_le_mul_of_nonneg_left ?_ hM0)
    rcases le_total a 0 with h | h <;> rcases le_total b 0 with g | g <;> simp only [max_eq_left, max_eq_right, h, g] <;> linarith
  · exact loop_mono _ 0 a b hs hab fun p hp => hy p.2 (List.of_mem_zip hp).2

/-- Three steps; the input lies in the second. -/
example : integralAccepted [1, 3, 4] [5, 2, 7] = true ∧ integral [1, 3, 4] [5, 2, 7] (5 / 2) = 5 + 2 * (3 / 2) ∧ stepAt [1, 3, 4] [5, 2, 7] (5 / 2) = 2 ∧
    integral [1, 3, 4] [5, 2, 7] 9 = 16 := by decide +kernel

/-- **C39 fails** without the condition on the first breakpoint, which is documented but not checked: with a negative first breakpoint the value is zero for all inputs beyond it. -/
theorem C39_negative_start_fails : integralAccepted [-1, 5] [3, 2] = true ∧ ∀ x, -1 ≤ x → integral [-1, 5] [3, 2] x = 0 := by
  refine ⟨by decide +kernel, fun x hx => ?_⟩
  unfold integral
  simp only [List.zip_cons_cons, List.zip_nil_right]
  unfold integralLoop
  simp only
  rw [if_neg (not_lt.2 hx), if_pos (by norm_num)]

/-! ## C60 -/

/-- The polynomial with the given coefficients (constant term first), by Horner's rule. -/
def horner : List Rat → Rat → Rat
  | [], _ => 0
  | c :: cs, x => c + x * horner cs x

private theorem polyLoop_eq (x : Rat) (cs : List Rat) (i : Nat) (acc : Rat) : polyLoop x i acc cs = acc + x ^ i * horner cs x := by
  induction cs generalizing i acc with
  | nil => simp [polyLoop, horner]
  | cons c cs ih => simp only [polyLoop, horner, ih]; ring

/-- **C60 (polynomial).** The one-dimensional polynomial parameter evaluates the polynomial with the given coefficients at the scaled and shifted input. -/
theorem C60_polynomial (coefficients : List Rat) (scale offset x : Rat) : poly1 coefficients scale offset x = horner coefficients (x * scale + offset) := by
  unfold poly1
  rw [polyLoop_eq]; ring

private theorem poly2Row_eq (x y : Rat) (i : Nat) (cs : List Rat) (j : Nat) (acc : Rat) :
    poly2Row x y i j acc cs = acc + x ^ i * (y ^ j * horner cs y) := by
  induction cs generalizing j acc with
  | nil => simp [poly2Row, horner]
  | cons c cs ih => simp only [poly2Row, horner, ih]; ring

private theorem poly2Loop_eq (x y : Rat) (rows : List (List Rat)) (i : Nat) (acc : Rat) :
    poly2Loop x y i acc rows = acc + x ^ i * horner (rows.map fun r => horner r y) x := by
  induction rows generalizing i acc with
  | nil => simp [poly2Loop, horner]
  | cons r rows ih => simp only [poly2Loop, List.map_cons, horner, ih, poly2Row_eq]; ring

/-- **C60 (two variables).** The two-dimensional polynomial parameter evaluates the polynomial in the scaled storage whose coefficients are the rows, evaluated as polynomials in the
scaled parameter value. -/
theorem C60_polynomial2 (coefficients : List (List Rat)) (sx ox sy oy x y : Rat) :
    poly2 coefficients sx ox sy oy x y = horner (coefficients.map fun r => horner r (sy * y + oy)) (sx * x + ox) := by
  unfold poly2
  rw [poly2Loop_eq]; ring

example : poly1 [1, 2, 3] 2 1 1 = 1 + 2 * 3 + 3 * 9 ∧ poly2 [[1, 2], [3, 4]] 1 0 1 0 5 7 = 1 + 2 * 7 + 3 * 5 + 4 * 35 := by decide +kernel

/-- **C60 (flow input) fails**: parameters are evaluated after `before` has set the flows of all nodes to zero (`/repo/pywr/_model.pyx:839-848`), so a polynomial of a
node's flow, documented as the previous flow, is the same constant in every timestep of every run, whatever flowed. -/
theorem C60_flow_fails (coefficients : List Rat) (scale offset : Rat) (st : NodeRun.St) (i : Nat) :
    poly1 coefficients scale offset (NodeRun.before st i).flow = horner coefficients offset := by
  rw [C60_polynomial]
  have : (NodeRun.before st i).flow = 0 := rfl
  rw [this, zero_mul, zero_add]

/-- **C60 (step and ramp).** For a variable between the bounds, the binary step returns 0 or the output; the rectifier returns 0 for non-positive variables, and otherwise a
value between the minimum and the maximum output, increasing linearly and reaching the maximum at the upper bound. -/
theorem C60_activation (output minO maxO upper v : Rat) (hu : 0 < upper) (hv : v ≤ upper) (hm : minO ≤ maxO) :
    (v ≤ 0 → binaryStep output v = 0 ∧ rectifier minO maxO upper v = 0) ∧
    (0 < v → binaryStep output v = output ∧ minO ≤ rectifier minO maxO upper v ∧ rectifier minO maxO upper v ≤ maxO) ∧
    rectifier minO maxO upper upper = maxO ∧
    (∀ w, 0 < v → 0 < w → (rectifier minO maxO upper w - rectifier minO maxO upper v) * upper = (maxO - minO) * (w - v)) := by
  unfold binaryStep rectifier
  refine ⟨fun h => by simp [h], fun h => ?_, ?_, fun w h h' => ?_⟩
  · simp only [not_le.2 h, if_false, true_and]
    have hq : 0 ≤ v / upper ∧ v / upper ≤ 1 := ⟨by positivity, (div_le_one hu).2 hv⟩
    rw [mul_div_assoc]
    constructor <;> nlinarith
  · rw [if_neg (not_le.2 hu), mul_div_assoc, div_self hu.ne']; ring
  · rw [if_neg (not_le.2 h), if_neg (not_le.2 h')]
    field_simp
    ring

example : rectifier 2 6 4 3 = 5 := by decide +kernel

/-- **C60 (rectifier at zero) fails**: `min_output` is documented as the value at 0, but the value at 0 is 0. -/
theorem C60_rectifier_fails : ∃ minO maxO upper : Rat, 0 < minO ∧ minO < maxO ∧ 0 < upper ∧ rectifier minO maxO upper 0 ≠ minO :=
  ⟨1, 2, 1, by norm_num, by norm_num, by norm_num, by decide +kernel⟩

/-- `LogisticParameter.get_constant_value` (`/repo/pywr/parameters/_activation_functions.pyx:139-140`), over the real numbers. -/
noncomputable def logistic (maxOutput growth value : ℝ) : ℝ := maxOutput / (1 + Real.exp (-growth * value))

/-- **C60 (logistic).** The logistic value lies strictly between 0 and the maximum output, is half of it at 0, and increases with the variable for a positive growth rate. -/
theorem C60_logistic (maxO growth v w : ℝ) (hm : 0 < maxO) :
    0 < logistic maxO growth v ∧ logistic maxO growth v < maxO ∧ logistic maxO growth 0 = maxO / 2 ∧
      (0 < growth → v < w → logistic maxO growth v < logistic maxO growth w) := by
  unfold logistic
  have hv := Real.exp_pos (-growth * v)
  have hw := Real.exp_pos (-growth * w)
  refine ⟨by positivity, ?_, by norm_num, fun hg hvw => ?_⟩
  · rw [div_lt_iff₀ (by linarith)]
    nlinarith
  · have : Real.exp (-growth * w) < Real.exp (-growth * v) := Real.exp_lt_exp.2 (by nlinarith)
    exact div_lt_div_of_pos_left hm (by linarith) (by linarith)

end Verif.Functions

import Verif.Spec.Bounds
import Mathlib.Tactic.Linarith
import Mathlib.Tactic.NormNum

/-! # C25: bounds handed to the LP -/

namespace Verif.Bounds

theorem e8_pos : 0 < e8 := by unfold e8; norm_num
theorem e8_lt_one : e8 < 1 := by unfold e8; norm_num

theorem dblMax_gt : (2 : Rat) < dblMax := by
  unfold dblMax
  exact_mod_cast (by decide +kernel : (2 : Int) < 2 ^ 1024 - 2 ^ 971)

/-- `if abs(x) < 1e-8: x = 0.0` on a finite number. -/
private def rnd (q : Rat) : Rat := if |q| < e8 then 0 else q

private theorem roundTiny_nan : roundTiny .nan = .nan := rfl

private theorem roundTiny_fin (q : Rat) : roundTiny (.fin q) = .fin (rnd q) := by
  simp only [roundTiny, rnd]; split <;> rfl

private theorem eff_fin (q : Rat) : F.effective (.fin q) = .fin (rnd q) := by
  simp only [F.effective, rnd]; split <;> rfl

private theorem rnd_dblMax : rnd dblMax = dblMax := by
  have := dblMax_gt; have := e8_lt_one
  unfold rnd; rw [if_neg]; rw [abs_of_pos (by linarith)]; linarith

private theorem rnd_neg_dblMax : rnd (-dblMax) = -dblMax := by
  have := dblMax_gt; have := e8_lt_one
  unfold rnd; rw [if_neg]; rw [abs_neg, abs_of_pos (by linarith)]; linarith

private theorem rnd_ordinary {q : Rat} (h : OrdinaryDouble q) : OrdinaryDouble (rnd q) := by
  have := dblMax_gt
  unfold OrdinaryDouble at *; unfold rnd; split
  · constructor <;> linarith
  · exact h

/-- The meaning of a stored row in terms of its numbers, for finite doubles. -/
theorem row_admits {a b x : Rat} (hx : FiniteDouble x) :
    (Row.mk (constraintType a b) a b).Admits x ↔
      if |a - b| < e8 then x = a else a ≤ x ∧ x ≤ b := by
  unfold constraintType Row.Admits FiniteDouble at *
  by_cases h1 : |a - b| < e8
  · simp [h1]
  · simp only [h1, if_false]
    by_cases h2 : b = dblMax
    · subst h2
      by_cases h3 : a = -dblMax
      · subst h3; simp [hx]
      · simp [h3, hx]
    · by_cases h3 : a = -dblMax
      · subst h3; simp [h2, hx]
      · simp [h2, h3]

/-- **C25 (meaning).** For every pair of limits, each a finite double or missing (infinite), the row stored for the node
admits exactly the values between the two limits (limits below 1e-8 in magnitude counting as zero); limits closer than
1e-8 become an equality. -/
theorem C25_meaning (safe : Bool) (a b : F)
    (ha : a = .negInf ∨ ∃ p, a = .fin p ∧ OrdinaryDouble p) (hb : b = .posInf ∨ ∃ q, b = .fin q ∧ OrdinaryDouble q) :
    ∃ row, flowRow safe a b = .stored row ∧ ∀ x, FiniteDouble x →
      ((¬ Close a.effective b.effective → (row.Admits x ↔ a.effective.AtLeast x ∧ b.effective.AtMost x)) ∧
       (Close a.effective b.effective → (row.Admits x ↔ a.effective = .fin x))) := by
  have hpos := dblMax_gt
  have he := e8_lt_one
  rcases ha with rfl | ⟨p, rfl, hp⟩ <;> rcases hb with rfl | ⟨q, rfl, hq⟩
  · refine ⟨⟨constraintType (-dblMax) dblMax, -dblMax, dblMax⟩,
      by simp only [flowRow, infToDblMax, roundTiny_fin, rnd_dblMax, rnd_neg_dblMax, setRowBnds], ?_⟩
    intro x hx
    rw [row_admits hx]
    have h1 : ¬ |(-dblMax) - dblMax| < e8 := by
      rw [abs_of_neg (by linarith)]; linarith
    simp only [h1, if_false, F.effective, Close, F.AtLeast, F.AtMost, not_false_eq_true, true_imp_iff, false_imp_iff,
      and_true, iff_true]
    exact hx
  · have hs := rnd_ordinary hq
    refine ⟨⟨constraintType (-dblMax) (rnd q), -dblMax, rnd q⟩,
      by simp only [flowRow, infToDblMax, roundTiny_fin, rnd_neg_dblMax, setRowBnds], ?_⟩
    intro x hx
    rw [row_admits hx, eff_fin]
    have h1 : ¬ |(-dblMax) - rnd q| < e8 := by
      rw [abs_lt]; rintro ⟨h, -⟩; have := hs.1; linarith
    simp only [h1, if_false, F.effective, Close, F.AtLeast, F.AtMost, not_false_eq_true, true_imp_iff, false_imp_iff,
      and_true, true_and, hx.1]
  · have hs := rnd_ordinary hp
    refine ⟨⟨constraintType (rnd p) dblMax, rnd p, dblMax⟩,
      by simp only [flowRow, infToDblMax, roundTiny_fin, rnd_dblMax, setRowBnds], ?_⟩
    intro x hx
    rw [row_admits hx, eff_fin]
    have h1 : ¬ |rnd p - dblMax| < e8 := by
      rw [abs_lt]; rintro ⟨h, -⟩; have := hs.2; linarith
    simp only [h1, if_false, F.effective, Close, F.AtLeast, F.AtMost, not_false_eq_true, true_imp_iff, false_imp_iff,
      and_true, hx.2]
  · refine ⟨⟨constraintType (rnd p) (rnd q), rnd p, rnd q⟩,
      by simp only [flowRow, infToDblMax, roundTiny_fin, setRowBnds], ?_⟩
    intro x hx
    rw [row_admits hx, eff_fin, eff_fin]
    simp only [Close, F.AtLeast, F.AtMost, F.fin.injEq]
    by_cases h : |rnd p - rnd q| < e8
    · simp only [h, if_true, not_true_eq_false, false_imp_iff, true_imp_iff, true_and]
      exact eq_comm
    · simp [h]

/-- **C25 (no NaN without an error).** With the (default) safe interface a NaN limit always raises an error, and nothing
but ordinary numbers is stored. -/
theorem C25_nan_error (a b : F) :
    flowRow true a b = .glpkError ↔ a = .nan ∨ b = .nan := by
  cases a <;> cases b <;> simp [flowRow, infToDblMax, roundTiny_fin, roundTiny_nan, setRowBnds]

/-- **C25 fails for the opt-in `use_unsafe_api=True`:** there a NaN limit is stored without an error. -/
theorem C25_nan_fails_unsafe : flowRow false .nan .posInf = .storedNan := by
  simp [flowRow, infToDblMax, roundTiny, setRowBnds]

/-- A lower limit above the upper limit (by 1e-8 or more) admits nothing: it is not silently repaired. -/
theorem C25_contradictory (p q x : Rat) (hx : FiniteDouble x)
    (h : q < p) (hfar : ¬ |p - q| < e8) : ¬ (Row.mk (constraintType p q) p q).Admits x := by
  rw [row_admits hx, if_neg hfar]
  rintro ⟨h1, h2⟩; linarith

example : (∃ p, F.fin (1 / 2) = .fin p ∧ OrdinaryDouble p) ∧ FiniteDouble 1 := by
  have := dblMax_gt
  refine ⟨⟨1 / 2, rfl, ?_, ?_⟩, ?_, ?_⟩ <;> linarith

end Verif.Bounds

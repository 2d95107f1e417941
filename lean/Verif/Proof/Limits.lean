import Verif.Proof.Parts
/-!
# What the rows of limits and volumes admit
-/

namespace Verif.Lp

open Verif Verif.Bounds

/-- Values below 1e-8 count as zero. -/
def rnd (q : Rat) : Rat := if |q| < e8 then 0 else q

theorem rnd_mono {p q : Rat} (h : p ≤ q) : rnd p ≤ rnd q := by
  have he := e8_pos
  unfold rnd
  split <;> split
  · exact le_refl _
  · rename_i h1 h2
    rcases abs_lt.1 h1 with ⟨h3, h4⟩
    rw [not_lt] at h2
    rcases le_abs.1 h2 with h5 | h5 <;> linarith
  · rename_i h1 h2
    rcases abs_lt.1 h2 with ⟨h3, h4⟩
    rw [not_lt] at h1
    rcases le_abs.1 h1 with h5 | h5 <;> linarith
  · exact h

theorem rnd_ordinary {q : Rat} (h : OrdinaryDouble q) : OrdinaryDouble (rnd q) := by
  have := dblMax_gt
  unfold rnd
  split
  · unfold OrdinaryDouble; constructor <;> linarith
  · exact h

theorem row_ordinary {p q x : Rat} (hp : OrdinaryDouble p) (hq : OrdinaryDouble q) :
    (Row.mk (constraintType p q) p q).Admits x ↔ if |p - q| < e8 then x = p else p ≤ x ∧ x ≤ q := by
  unfold OrdinaryDouble at hp hq
  unfold constraintType Row.Admits
  have h1 : p ≠ -dblMax := by intro h; linarith
  have h2 : q ≠ dblMax := by intro h; linarith
  by_cases h : |p - q| < e8 <;> simp [h, h1, h2]

/-- What a row admits. -/
theorem admits_iff {a b : F} (ha : LowerLimit a) (hb : UpperLimit b) :
    ∃ r, flowRow true a b = .stored r ∧ ∀ x, r.Admits x ↔ (Close a.effective b.effective ∧ a.effective = .fin x) ∨ (¬Close a.effective b.effective ∧ a.effective.AtLeast x ∧ b.effective.AtMost x) := by
  have hD := dblMax_gt
  have he := e8_lt_one
  have hM : roundTiny (.fin dblMax) = .fin dblMax := by
    simp only [roundTiny]; rw [if_neg]; rw [abs_of_pos (by linarith)]; linarith
  have hM' : roundTiny (.fin (-dblMax)) = .fin (-dblMax) := by
    simp only [roundTiny]; rw [if_neg]; rw [abs_neg, abs_of_pos (by linarith)]; linarith
  have hR : ∀ q, roundTiny (.fin q) = .fin (rnd q) := by intro q; simp only [roundTiny, rnd]; split <;> rfl
  have hE : ∀ q, F.effective (.fin q) = .fin (rnd q) := by intro q; simp only [F.effective, rnd]; split <;> rfl
  rcases ha with rfl | ⟨p, rfl, hp⟩ <;> rcases hb with rfl | ⟨q, rfl, hq⟩
  · refine ⟨⟨constraintType (-dblMax) dblMax, -dblMax, dblMax⟩, by simp only [flowRow, infToDblMax, hM, hM', setRowBnds], fun x => ?_⟩
    have h1 : ¬|-dblMax - dblMax| < e8 := by rw [abs_of_neg (by linarith)]; linarith
    simp only [constraintType, h1, if_false, if_true, Row.Admits, F.effective, Close, F.AtLeast, F.AtMost]
    simp
  · have hq' := rnd_ordinary hq
    unfold OrdinaryDouble at hq'
    refine ⟨⟨constraintType (-dblMax) (rnd q), -dblMax, rnd q⟩, by simp only [flowRow, infToDblMax, hR q, hM', setRowBnds], fun x => ?_⟩
    have h1 : ¬|-dblMax - rnd q| < e8 := by rw [abs_of_neg (by linarith)]; linarith
    have h2 : rnd q ≠ dblMax := by intro h; linarith
    rw [hE]
    simp only [constraintType, h1, h2, if_false, if_true, Row.Admits, F.effective, Close, F.AtLeast, F.AtMost]
    simp
  · have hp' := rnd_ordinary hp
    unfold OrdinaryDouble at hp'
    refine ⟨⟨constraintType (rnd p) dblMax, rnd p, dblMax⟩, by simp only [flowRow, infToDblMax, hR p, hM, setRowBnds], fun x => ?_⟩
    have h1 : ¬|rnd p - dblMax| < e8 := by rw [abs_of_neg (by linarith)]; linarith
    have h2 : rnd p ≠ -dblMax := by intro h; linarith
    rw [hE]
    simp only [constraintType, h1, h2, if_false, if_true, Row.Admits, F.effective, Close, F.AtLeast, F.AtMost]
    simp
  · refine ⟨⟨constraintType (rnd p) (rnd q), rnd p, rnd q⟩, by simp only [flowRow, infToDblMax, hR, setRowBnds], fun x => ?_⟩
    rw [row_ordinary (rnd_ordinary hp) (rnd_ordinary hq), hE, hE]
    simp only [Close, F.AtLeast, F.AtMost, F.fin.injEq]
    by_cases h : |rnd p - rnd q| < e8
    · simp only [h, if_true, true_and, not_true, false_and, or_false]; exact eq_comm
    · simp only [h, if_false, false_and, not_false_eq_true, true_and, false_or]

theorem rnd_apart {p q : Rat} (hp : p ≤ 0) (hq : 0 ≤ q) (h : |rnd p - rnd q| < e8) : rnd p = 0 ∧ rnd q = 0 := by
  have he := e8_pos
  unfold rnd at *
  by_cases h1 : |p| < e8 <;> by_cases h2 : |q| < e8
  · simp [h1, h2]
  · simp only [h1, h2, if_true, if_false] at h
    rw [zero_sub, abs_neg] at h
    exact absurd h h2
  · simp only [h1, h2, if_true, if_false] at h
    rw [sub_zero] at h
    exact absurd h h1
  · simp only [h1, h2, if_false] at h
    rw [abs_of_nonpos (by linarith)] at h
    rw [abs_of_nonpos hp] at h1
    exact absurd (by linarith) h1

theorem storage_admits {v mx mn days x : Rat} (hd : 0 < days) (h1 : (mx - v) / days ≤ dblMax - 1) (h2 : (v - mn) / days ≤ dblMax - 1) :
    (Storage.storageRow v mx mn days).Admits x ↔ if mx = mn then x = 0 else rnd (-max (v - mn) 0 / days) ≤ x ∧ x ≤ rnd (max (mx - v) 0 / days) := by
  have hD := dblMax_gt
  unfold Storage.storageRow
  by_cases h : mx = mn
  · simp [h, Row.Admits]
  · rw [if_neg h, if_neg h]
    have hlo : -max (v - mn) 0 / days ≤ 0 := by
      rw [neg_div]
      have : 0 ≤ max (v - mn) 0 / days := div_nonneg (le_max_right _ _) (le_of_lt hd)
      linarith
    have hhi : 0 ≤ max (mx - v) 0 / days := div_nonneg (le_max_right _ _) (le_of_lt hd)
    have o1 : OrdinaryDouble (-max (v - mn) 0 / days) := by
      refine ⟨?_, by linarith⟩
      rw [neg_div, neg_le_neg_iff]
      rcases le_total (v - mn) 0 with hv | hv
      · rw [max_eq_right hv, zero_div]; linarith
      · rw [max_eq_left hv]; exact h2
    have o2 : OrdinaryDouble (max (mx - v) 0 / days) := by
      refine ⟨by linarith, ?_⟩
      rcases le_total (mx - v) 0 with hv | hv
      · rw [max_eq_right hv, zero_div]; linarith
      · rw [max_eq_left hv]; exact h1
    refine (row_ordinary (rnd_ordinary o1) (rnd_ordinary o2)).trans ?_
    split
    · rename_i hc
      obtain ⟨e1, e2⟩ := rnd_apart hlo hhi hc
      rw [e1, e2]
      exact ⟨fun hx => by rw [hx]; exact ⟨le_refl _, le_refl _⟩, fun hx => le_antisymm hx.2 hx.1⟩
    · exact Iff.rfl

end Verif.Lp

import Mathlib.Data.List.Chain
/-! # Neighbours on a path -/

namespace Verif.Composite

theorem pred_index {R : Nat → Nat → Prop} {r : List Nat} (hc : r.IsChain R) {b : Nat} (hb : b ∈ r) (hh : r.head? ≠ some b) :
    ∃ i, ∃ h : i + 1 < r.length, r[i + 1] = b ∧ R r[i] b := by
  obtain ⟨k, hk, rfl⟩ := List.getElem_of_mem hb
  cases k with
  | zero => exact absurd (by rw [List.head?_eq_getElem?, List.getElem?_eq_getElem hk]) hh
  | succ k => exact ⟨k, hk, rfl, List.isChain_iff_getElem.1 hc k hk⟩

theorem succ_index {R : Nat → Nat → Prop} {r : List Nat} (hc : r.IsChain R) {a : Nat} (ha : a ∈ r) (hl : r.getLast? ≠ some a) :
    ∃ i, ∃ h : i + 1 < r.length, r[i] = a ∧ R a r[i + 1] := by
  obtain ⟨k, hk, rfl⟩ := List.getElem_of_mem ha
  by_cases h : k + 1 < r.length
  · exact ⟨k, h, rfl, List.isChain_iff_getElem.1 hc k h⟩
  · exact absurd (by rw [List.getLast?_eq_getElem?, show r.length - 1 = k by omega, List.getElem?_eq_getElem hk]) hl

end Verif.Composite

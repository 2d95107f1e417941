import Verif.Proof.Shift
import Verif.Proof.Domains
/-! # Moving an amount between two columns of the edge problem -/

namespace Verif.Lp

open Verif Verif.Bounds Verif.BreakLink

/-- Coefficient of a column in a row. -/
def coef (e : Entries) (c : Nat) : Rat := (e.map fun q => if q.1 = c then q.2 else 0).sum

theorem coef_append (a b : Entries) (c : Nat) : coef (a ++ b) c = coef a c + coef b c := by simp [coef]

theorem coef_const (v : Rat) {l : List Nat} (hl : l.Nodup) (c : Nat) : coef (const v l) c = if c ∈ l then v else 0 := by
  unfold coef const
  rw [List.map_map, ← sum_eq_ite hl]
  congr 1
  apply List.map_congr_left
  intro k _
  simp [eq_comm]

theorem coef_flatMap {α : Type} (l : List α) (f : α → Entries) (c : Nat) : coef (l.flatMap f) c = (l.map fun a => coef (f a) c).sum := by
  induction l with
  | nil => rfl
  | cons a l ih => rw [List.flatMap_cons, coef_append, ih]; rfl

theorem coef_range (n : Nat) (G : Nat → Option Rat) {c : Nat} (hc : c < n) :
    coef ((List.range n).filterMap fun k => (G k).map fun w => (k, w)) c = (G c).getD 0 := by
  have key : ∀ l : List Nat, coef (l.filterMap fun k => (G k).map fun w => (k, w)) c = (l.map fun k => if c = k then (G c).getD 0 else 0).sum := by
    intro l
    induction l with
    | nil => rfl
    | cons k l ih =>
      rw [List.filterMap_cons]
      cases hG : G k with
      | none =>
        simp only [Option.map_none, List.map_cons, List.sum_cons, ih]
        by_cases h : c = k
        · subst h; simp [hG]
        · simp [h]
      | some w =>
        simp only [Option.map_some, List.map_cons, List.sum_cons]
        have : ∀ t : Entries, coef ((k, w) :: t) c = (if k = c then w else 0) + coef t c := fun t => rfl
        rw [this, ih]
        by_cases h : c = k
        · subst h; simp [hG]
        · simp [h, Ne.symm h]
  rw [key, sum_eq_ite List.nodup_range, if_pos (List.mem_range.2 hc)]

theorem rowVal_shift {x : List Rat} {e : Entries} (h : Fits x.length e) (i j : Nat) (ε : Rat) :
    rowVal (shift x i j ε) e = rowVal x e + ε * (coef e j - coef e i) := by
  unfold rowVal coef
  induction e with
  | nil => simp
  | cons q e ih =>
    have ih := ih fun r hr => h r (List.mem_cons_of_mem _ hr)
    simp only [List.map_cons, List.sum_cons]
    rw [ih, shift_getD (h q List.mem_cons_self)]
    split_ifs <;> ring

theorem limit_fits {m : Nat} {e : Entries} {a b : F} {row : LpRow} (he : Fits m e) (h : limitRow e a b = .ok row) : Fits m row.entries := by
  rw [(limitRow_ok h).2.1]; exact he

theorem bound_fits {m : Nat} {e : Entries} {r : Row} {row : LpRow} (he : Fits m e) (h : boundRow e r = .ok row) : Fits m row.entries := by
  rw [(boundRow_ok h).2.1]; exact he

/-- A row whose coefficients at two columns agree is not affected by moving an amount between them. -/
theorem holds_shift {x : List Rat} {i j : Nat} {ε : Rat} {r : Except Err LpRow}
    (hc : ∀ row, r = .ok row → Fits x.length row.entries ∧ coef row.entries i = coef row.entries j) (h : Holds r x) :
    Holds r (shift x i j ε) := by
  obtain ⟨row, e, hA⟩ := h
  obtain ⟨hf, hij⟩ := hc row e
  refine ⟨row, e, ?_⟩
  rw [rowVal_shift hf, hij, sub_self, mul_zero, add_zero]
  exact hA

end Verif.Lp

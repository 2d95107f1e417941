import Verif.Spec.Storage
import Mathlib.Tactic.Linarith
import Mathlib.Tactic.NormNum
import Mathlib.Tactic.Ring
import Mathlib.Tactic.FieldSimp
import Mathlib.Algebra.Order.BigOperators.Group.List

namespace Verif.Storage

open Verif.Bounds

theorem e6_pos : 0 < e6 := by unfold e6; norm_num

theorem foldl_commit_flow (cs : List Commit) (s : State) :
    (cs.foldl State.commit s).flow = s.flow + (cs.map Commit.net).sum ∧
    (cs.foldl State.commit s).volume = s.volume ∧ (cs.foldl State.commit s).prevFlow = s.prevFlow ∧
    (cs.foldl State.commit s).pc = s.pc := by
  induction cs generalizing s with
  | nil => simp
  | cons c cs ih =>
    obtain ⟨h1, h2, h3, h4⟩ := ih (s.commit c)
    simp only [List.foldl_cons, List.map_cons, List.sum_cons, h1, h2, h3, h4]
    cases c <;> simp only [State.commit, Commit.net, and_self, and_true] <;> ring

theorem step_volume (s : State) (t : Step) : (s.step t).volume = snap t.mx t.mn (s.volume + t.netVolume) := by
  obtain ⟨h1, h2, -, -⟩ := foldl_commit_flow t.commits s.before
  unfold State.step State.after Step.netVolume
  simp only [h1, h2]
  simp only [State.before, zero_add]

theorem snap_cases (mx mn v : Rat) : snap mx mn v = v ∨ snap mx mn v = mx ∨ snap mx mn v = mn := by
  unfold snap; simp only; split_ifs <;> simp

/-- Values inside the bounds, or less than 1e-6 outside, end inside. -/
theorem snap_mem {mx mn v : Rat} (h : mn ≤ mx) (h1 : mn - e6 < v) (h2 : v < mx + e6) :
    mn ≤ snap mx mn v ∧ snap mx mn v ≤ mx := by
  unfold snap; simp only
  by_cases a : |v - mx| < e6
  · simp only [a, if_true]; split_ifs
    · exact ⟨le_refl _, h⟩
    · exact ⟨h, le_refl _⟩
  · simp only [a, if_false]; split_ifs with b
    · exact ⟨le_refl _, h⟩
    · rw [abs_lt, not_and_or, not_lt, not_lt] at a b
      constructor
      · rcases b with b | b <;> linarith [e6_pos]
      · rcases a with a | a <;> linarith [e6_pos]

theorem snap_exact {mx mn v : Rat} (h1 : ¬ |v - mx| < e6) (h2 : ¬ |v - mn| < e6) : snap mx mn v = v := by
  unfold snap; simp [h1, h2]

theorem snap_err2 (mx mn v : Rat) : |snap mx mn v - v| ≤ 2 * e6 := by
  have := e6_pos
  unfold snap; simp only
  by_cases a : |v - mx| < e6
  · simp only [a, if_true]; split_ifs with b
    · rw [abs_lt] at a b; rw [abs_le]; constructor <;> linarith
    · rw [abs_lt] at a; rw [abs_le]; constructor <;> linarith
  · simp only [a, if_false]; split_ifs with b
    · rw [abs_lt] at b; rw [abs_le]; constructor <;> linarith
    · simp; linarith

theorem snap_err (mx mn v : Rat) (h : e6 ≤ |mx - mn| ∨ mx = mn ∨ (mn ≤ v ∧ v ≤ mx)) : |snap mx mn v - v| ≤ e6 := by
  have := e6_pos
  unfold snap; simp only
  by_cases a : |v - mx| < e6
  · simp only [a, if_true]; split_ifs with b
    · rcases h with h | h | h
      · exact absurd b (not_lt.2 h)
      · subst h; rw [abs_lt] at a; rw [abs_le]; constructor <;> linarith
      · rw [abs_lt] at b; rw [abs_le]; constructor <;> linarith [h.1, h.2]
    · rw [abs_lt] at a; rw [abs_le]; constructor <;> linarith
  · simp only [a, if_false]; split_ifs with b
    · rw [abs_lt] at b; rw [abs_le]; constructor <;> linarith
    · simp; linarith

/-- What the storage row admits when the volume is inside the bounds. -/
theorem storageRow_admits {v mx mn days y : Rat} (hv1 : mn ≤ v) (hv2 : v ≤ mx) (hd : 0 < days)
    (hbig : (mx - mn) / days < dblMax) (h : (storageRow v mx mn days).Admits y) :
    mn ≤ v + y * days ∧ v + y * days ≤ mx := by
  unfold storageRow at h
  by_cases he : mx = mn
  · simp only [he, if_true, Row.Admits] at h
    subst h; subst he; constructor <;> linarith
  · simp only [he, if_false] at h
    rw [max_eq_left (by linarith), max_eq_left (by linarith)] at h
    set lb := -(v - mn) / days with hlb
    set ub := (mx - v) / days with hub
    have hlb0 : lb ≤ 0 := by
      rw [hlb]; exact div_nonpos_of_nonpos_of_nonneg (by linarith) hd.le
    have hub0 : 0 ≤ ub := div_nonneg (by linarith) hd.le
    have e1 : lb * days = -(v - mn) := by rw [hlb]; field_simp
    have e2 : ub * days = mx - v := by rw [hub]; field_simp
    have hub1 : ub < dblMax := lt_of_le_of_lt (by rw [hub]; gcongr) hbig
    have hlb1 : -dblMax < lb := by
      have : (v - mn) / days < dblMax := lt_of_le_of_lt (by gcongr) hbig
      rw [hlb, neg_div]; linarith
    have hD : (0 : Rat) < dblMax := lt_of_le_of_lt hub0 hub1
    have key : ∀ a b : Rat, lb ≤ a → a ≤ 0 → 0 ≤ b → b ≤ ub → (Row.mk (constraintType a b) a b).Admits y →
        lb ≤ y ∧ y ≤ ub := by
      intro a b ha ha0 hb0 hb hy
      unfold constraintType at hy
      rw [if_neg (show ¬ b = dblMax by intro hb'; linarith), if_neg (show ¬ a = -dblMax by intro ha'; linarith)] at hy
      by_cases hc : |a - b| < e8
      · simp only [hc, if_true, Row.Admits] at hy; subst hy; constructor <;> linarith
      · simp only [hc, if_false, Row.Admits] at hy; constructor <;> linarith [hy.1, hy.2]
    have hy : lb ≤ y ∧ y ≤ ub := by
      refine key (if |lb| < e8 then 0 else lb) (if |ub| < e8 then 0 else ub) ?_ ?_ ?_ ?_ h
      · split_ifs <;> linarith
      · split_ifs <;> linarith
      · split_ifs <;> linarith
      · split_ifs <;> linarith
    have m1 := mul_le_mul_of_nonneg_right hy.1 hd.le
    have m2 := mul_le_mul_of_nonneg_right hy.2 hd.le
    constructor <;> linarith

end Verif.Storage

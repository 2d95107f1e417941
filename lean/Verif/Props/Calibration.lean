import Verif.Model.Calibration
import Mathlib.Algebra.Order.BigOperators.Group.List
import Mathlib.Algebra.BigOperators.Ring.List
import Mathlib.Tactic.Linarith
import Mathlib.Tactic.Ring
import Mathlib.Tactic.FieldSimp
import Mathlib.Tactic.NormNum
import Mathlib.Tactic.Positivity
/-! # C76: comparison with observed flows -/

namespace Verif.Calibration

/-- The simulated flows are the observed ones. -/
def Perfect (c : List (Rat × Rat)) : Prop := ∀ x ∈ c, x.1 = x.2

private theorem sum_nonneg {l : List Rat} (h : ∀ x ∈ l, 0 ≤ x) : 0 ≤ l.sum := List.sum_nonneg h

private theorem sum_zero {l : List Rat} (h : ∀ x ∈ l, 0 ≤ x) (hs : l.sum = 0) : ∀ x ∈ l, x = 0 := by
  induction l with
  | nil => intro x hx; cases hx
  | cons a l ih =>
    rw [List.sum_cons] at hs
    have h1 := h a List.mem_cons_self
    have h2 := sum_nonneg fun x hx => h x (List.mem_cons_of_mem _ hx)
    intro x hx
    rcases List.mem_cons.1 hx with rfl | hx
    · linarith
    · exact ih (fun x hx => h x (List.mem_cons_of_mem _ hx)) (by linarith) x hx

private theorem len_pos {α : Type} {l : List α} (h : l ≠ []) : (0 : Rat) < (l.length : Rat) := by
  have := List.length_pos_iff.2 h
  exact_mod_cast this

private theorem mean_some {l : List Rat} (h : l ≠ []) : mean l = some (l.sum / (l.length : Rat)) := if_neg h

private theorem map_ne {α β : Type} {l : List α} (f : α → β) (h : l ≠ []) : l.map f ≠ [] := by simpa using h

/-- A mean of terms that are not negative is zero only if all are. -/
private theorem mean_zero (c : List (Rat × Rat)) (hc : c ≠ []) (f : Rat × Rat → Rat) (h0 : ∀ x ∈ c, 0 ≤ f x) (hf : ∀ x ∈ c, f x = 0 ↔ x.1 = x.2) :
    ∃ e, mean (c.map f) = some e ∧ 0 ≤ e ∧ (e = 0 ↔ Perfect c) := by
  have hn := len_pos hc
  have h0' : ∀ y ∈ c.map f, 0 ≤ y := by
    intro y hy
    obtain ⟨x, hx, rfl⟩ := List.mem_map.1 hy
    exact h0 x hx
  refine ⟨_, mean_some (map_ne f hc), ?_, ?_, ?_⟩
  · rw [List.length_map]
    exact div_nonneg (sum_nonneg h0') hn.le
  · intro he x hx
    rw [List.length_map, div_eq_zero_iff] at he
    rcases he with he | he
    · exact (hf x hx).1 (sum_zero h0' he _ (List.mem_map_of_mem hx))
    · exact absurd he hn.ne'
  · intro hp
    have : c.map f = c.map fun _ => 0 := List.map_congr_left fun x hx => (hf x hx).2 (hp x hx)
    rw [this]
    simp

private theorem sq_sum_le (l : List Rat) : l.sum ^ 2 ≤ (l.length : Rat) * (l.map fun x => x ^ 2).sum := by
  induction l with
  | nil => simp
  | cons a l ih =>
    rw [List.sum_cons, List.map_cons, List.sum_cons, List.length_cons]
    push_cast
    have h1 : 2 * a * l.sum ≤ (l.length : Rat) * a ^ 2 + (l.map fun x => x ^ 2).sum := by
      -- the sum of the squares of `a - x`
      have h2 : 0 ≤ (l.map fun x => (a - x) ^ 2).sum := sum_nonneg (by
        intro x hx
        obtain ⟨y, _, rfl⟩ := List.mem_map.1 hx
        exact sq_nonneg _)
      have h3 : (l.map fun x => (a - x) ^ 2).sum = (l.length : Rat) * a ^ 2 - 2 * a * l.sum + (l.map fun x => x ^ 2).sum := by
        clear ih h2
        induction l with
        | nil => simp
        | cons b l ih => simp only [List.map_cons, List.sum_cons, List.length_cons, ih]; push_cast; ring
      linarith
    nlinarith [ih]

/-- **C76 (errors).** The mean absolute, mean squared and root mean squared errors of a column exist and are not negative, are zero exactly if the simulated flows are the observed ones in every timestep,
and the mean absolute error is at most the root mean squared error. -/
theorem C76_errors (c : List (Rat × Rat)) (hc : c ≠ []) :
    ∃ a e r, mae c = some a ∧ mse c = some e ∧ rmse c = some r ∧ 0 ≤ a ∧ 0 ≤ e ∧ 0 ≤ r ∧ r ^ 2 = (e : ℝ) ∧ (a : ℝ) ≤ r ∧
      (a = 0 ↔ Perfect c) ∧ (e = 0 ↔ Perfect c) ∧ (r = 0 ↔ Perfect c) := by
  obtain ⟨a, ha, ha0, haz⟩ := mean_zero c hc (fun x => |x.1 - x.2|) (fun x _ => abs_nonneg _) (fun x _ => by rw [abs_eq_zero, sub_eq_zero])
  obtain ⟨e, he, he0, hez⟩ := mean_zero c hc (fun x => (x.1 - x.2) ^ 2) (fun x _ => sq_nonneg _) (fun x _ => by rw [sq_eq_zero_iff, sub_eq_zero])
  have heR : (0 : ℝ) ≤ (e : ℝ) := by exact_mod_cast he0
  refine ⟨a, e, Real.sqrt (e : ℝ), ha, he, by unfold rmse mse; rw [he]; rfl, ha0, he0, Real.sqrt_nonneg _, Real.sq_sqrt heR, ?_, haz, hez, ?_⟩
  · refine Real.le_sqrt_of_sq_le ?_
    have hn := len_pos hc
    have h1 := sq_sum_le (c.map fun x => |x.1 - x.2|)
    rw [mean_some (map_ne _ hc), Option.some.injEq, List.length_map] at ha he
    rw [List.length_map, List.map_map] at h1
    have h2 : (c.map ((fun x : Rat => x ^ 2) ∘ fun x : Rat × Rat => |x.1 - x.2|)) = c.map fun x => (x.1 - x.2) ^ 2 :=
      List.map_congr_left fun x _ => by simp [Function.comp, sq_abs]
    rw [h2] at h1
    have h3 : a ^ 2 ≤ e := by
      rw [← ha, ← he, div_pow, div_le_div_iff₀ (by positivity) hn]
      nlinarith [h1, hn]
    exact_mod_cast h3
  · rw [Real.sqrt_eq_zero heR]
    rw [← hez]
    exact_mod_cast Iff.rfl

/-- **C76 (bias).** The percentage by which the simulated total falls short of the observed total (which must not be zero): the simulated total is the observed one less that percentage. -/
theorem C76_bias (c : List (Rat × Rat)) (h : (c.map Prod.fst).sum ≠ 0) :
    ∃ b, percentBias c = some b ∧ (c.map Prod.snd).sum = (c.map Prod.fst).sum * (1 - b / 100) := by
  refine ⟨_, if_neg h, ?_⟩
  have : (c.map fun x => x.1 - x.2).sum = (c.map Prod.fst).sum - (c.map Prod.snd).sum := by
    clear h
    induction c with
    | nil => simp
    | cons a c ih => simp only [List.map_cons, List.sum_cons, ih]; ring
  rw [this]
  field_simp
  ring

private theorem variance_pos {l : List Rat} (h : ∃ x ∈ l, ∃ y ∈ l, x ≠ y) (m : Rat) : 0 < (l.map fun x => (x - m) ^ 2).sum := by
  have h0 : ∀ x ∈ l.map fun x => (x - m) ^ 2, 0 ≤ x := by
    intro x hx
    obtain ⟨y, _, rfl⟩ := List.mem_map.1 hx
    exact sq_nonneg _
  refine lt_of_le_of_ne (sum_nonneg h0) fun he => ?_
  obtain ⟨x, hx, y, hy, hne⟩ := h
  have hz := sum_zero h0 he.symm
  have e1 := hz _ (List.mem_map_of_mem (f := fun x => (x - m) ^ 2) hx)
  have e2 := hz _ (List.mem_map_of_mem (f := fun x => (x - m) ^ 2) hy)
  rw [sq_eq_zero_iff, sub_eq_zero] at e1 e2
  exact hne (e1.trans e2.symm)

/-- **C76 (efficiency).** If the observed flows are not all the same, the Nash-Sutcliffe efficiency and the ratio of the root mean squared error to the standard deviation of the observed flows exist;
the efficiency is at most 1, with equality exactly for simulated flows equal to the observed ones in every timestep, at least 0 exactly if the simulation is no worse (in mean squared error)
than the mean of the observed flows, 0 for that mean, and 1 minus the square of the ratio. -/
theorem C76_efficiency (c : List (Rat × Rat)) (h : ∃ x ∈ c, ∃ y ∈ c, x.1 ≠ y.1) :
    ∃ e r m, nse c = some e ∧ rsr c = some r ∧ m * c.length = (c.map Prod.fst).sum ∧ e ≤ 1 ∧ 0 ≤ r ∧ (e : ℝ) = 1 - r ^ 2 ∧ (e = 1 ↔ Perfect c) ∧
      (0 ≤ e ↔ (c.map fun x => (x.1 - x.2) ^ 2).sum ≤ (c.map fun x => (x.1 - m) ^ 2).sum) ∧ ((∀ x ∈ c, x.2 = m) → e = 0) := by
  have hc : c ≠ [] := by rintro rfl; obtain ⟨x, hx, -⟩ := h; cases hx
  have hn := len_pos hc
  set m : Rat := (c.map Prod.fst).sum / ((c.map Prod.fst).length : Rat) with hm
  have hmean : mean (c.map Prod.fst) = some m := mean_some (map_ne _ hc)
  have hv : 0 < (c.map fun x => (x.1 - m) ^ 2).sum := by
    have := variance_pos (l := c.map Prod.fst) (by
      obtain ⟨x, hx, y, hy, hne⟩ := h
      exact ⟨_, List.mem_map_of_mem hx, _, List.mem_map_of_mem hy, hne⟩) m
    rwa [List.map_map] at this
  have hs0 : 0 ≤ (c.map fun x => (x.1 - x.2) ^ 2).sum := sum_nonneg (by
    intro x hx
    obtain ⟨y, _, rfl⟩ := List.mem_map.1 hx
    exact sq_nonneg _)
  obtain ⟨_, e, r, _, he, hr, _, he0, hr0, hre, _, _, hez, _⟩ := C76_errors c hc
  have hee : e = (c.map fun x => (x.1 - x.2) ^ 2).sum / (c.length : Rat) := by
    unfold mse at he
    rw [mean_some (map_ne _ hc), Option.some.injEq, List.length_map] at he
    exact he.symm
  set A := (c.map fun x => (x.1 - x.2) ^ 2).sum with hA
  set B := (c.map fun x => (x.1 - m) ^ 2).sum with hB
  have hvar : variance (c.map Prod.fst) = some (B / (c.length : Rat)) := by
    unfold variance
    rw [hmean, Option.bind_some, mean_some (map_ne _ (map_ne _ hc)), List.map_map, List.length_map]
    rfl
  have hvz : B / (c.length : Rat) ≠ 0 := (div_pos hv hn).ne'
  have hvR : (0 : ℝ) < ((B / (c.length : Rat) : Rat) : ℝ) := by exact_mod_cast div_pos hv hn
  refine ⟨1 - A / B, r / Real.sqrt ((B / (c.length : Rat) : Rat) : ℝ), m, ?_, ?_, ?_, ?_, div_nonneg hr0 (Real.sqrt_nonneg _), ?_, ?_, ?_, ?_⟩
  · unfold nse quotient
    rw [hmean, Option.bind_some, if_neg hv.ne']
    rfl
  · unfold rsr
    rw [hr, Option.bind_some, hvar, Option.bind_some, if_neg hvz]
  · rw [hm, List.length_map]
    exact div_mul_cancel₀ _ hn.ne'
  · have := div_nonneg hs0 hv.le
    linarith
  · rw [div_pow, Real.sq_sqrt hvR.le, hre, hee]
    push_cast
    have hnR : ((c.length : ℝ)) ≠ 0 := by exact_mod_cast (List.length_pos_iff.2 hc).ne'
    have hBR : ((B : Rat) : ℝ) ≠ 0 := by exact_mod_cast hv.ne'
    field_simp
  · rw [← hez, hee]
    constructor
    · intro h1
      have : A / B = 0 := by linarith
      rcases div_eq_zero_iff.1 this with h2 | h2
      · rw [h2, zero_div]
      · exact absurd h2 hv.ne'
    · intro h1
      rcases div_eq_zero_iff.1 h1 with h2 | h2
      · rw [h2]; simp
      · exact absurd h2 hn.ne'
  · rw [sub_nonneg, div_le_one hv]
  · intro hx
    have : A = B := by
      rw [hA, hB]
      congr 1
      exact List.map_congr_left fun x hx' => by rw [hx x hx']
    rw [this, div_self hv.ne', sub_self]

/-- **C76 (columns), partial.** With an observed series for every scenario, the value of a scenario is the metric of its own simulated and observed flows; with one scenario every observed series is compared with
it.  Missing with respect to C76: one observed series for several scenarios (`C76_one_series_fails`). -/
theorem C76_columns_partial {R : Type} (metric : List (Rat × Rat) → Option R) (obs mod : List (List Rat)) (h : obs.length = mod.length ∨ mod.length = 1) :
    ∃ vs, values metric obs mod = some vs ∧ vs.length = obs.length ∧
      ∀ (i : Nat) (o m : List Rat), obs[i]? = some o → mod[if mod.length = 1 then 0 else i]? = some m → vs[i]? = some (metric (List.zip o m)) := by
  unfold values compared
  by_cases hl : obs.length = mod.length
  · rw [if_pos hl]
    refine ⟨_, rfl, by simp [hl], fun i o m ho hm => ?_⟩
    have hi : (if mod.length = 1 then 0 else i) = i := by
      split
      · have := (List.getElem?_eq_some_iff.1 ho).1
        omega
      · rfl
    rw [hi] at hm
    rw [List.getElem?_map, List.getElem?_zipWith, ho, hm]
    rfl
  · rw [if_neg hl]
    have h1 : mod.length = 1 := h.resolve_left hl
    obtain ⟨m0, rfl⟩ := List.length_eq_one_iff.1 h1
    refine ⟨_, rfl, by simp, fun i o m ho hm => ?_⟩
    rw [if_pos h1] at hm
    obtain rfl := Option.some.inj (show some m0 = some m from hm)
    rw [List.getElem?_map, List.getElem?_map, ho]
    rfl

/-- **C76 fails (one series).** One observed series cannot be compared with several scenarios: an exception, whatever the metric and the flows. -/
theorem C76_one_series_fails {R : Type} (metric : List (Rat × Rat) → Option R) (o : List Rat) (mod : List (List Rat)) (h : 2 ≤ mod.length) : values metric [o] mod = none := by
  unfold values compared
  rw [if_neg (by simp; omega)]
  match mod, h with
  | _ :: _ :: _, _ => rfl

example : nse [(1, 1), (3, 2), (5, 6)] = some (3 / 4) ∧ mse [(1, 1), (3, 2), (5, 6)] = some (2 / 3) ∧ percentBias [(1, 1), (3, 2), (5, 7)] = some (-100 / 9) ∧
    (values mae [[1, 3], [4, 4]] [[1, 2], [2, 8]] = some [some (1 / 2), some 3]) := by decide +kernel

example : ∃ x ∈ [((1 : Rat), (1 : Rat)), (3, 2), (5, 6)], ∃ y ∈ [((1 : Rat), (1 : Rat)), (3, 2), (5, 6)], x.1 ≠ y.1 := by decide +kernel

end Verif.Calibration

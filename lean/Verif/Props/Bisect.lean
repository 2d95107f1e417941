import Verif.Model.Bisect
import Mathlib.Tactic.Ring
import Mathlib.Tactic.NormNum
import Mathlib.Tactic.FieldSimp

/-!
# Bisection search (C44)
-/

namespace Verif.Bisect

/-- What the loop maintains, from bounds `lo0`, `hi0`. -/
private structure Inv {W : Type} (lo0 hi0 eps : Rat) (s : Loop W) : Prop where
  gap : (s.hi - s.lo) * 2 ^ s.log.length = hi0 - lo0
  order : s.lo < s.hi
  low : lo0 ≤ s.lo
  high : s.hi ≤ hi0
  upper : s.hi = hi0 ∨ (s.hi, false) ∈ s.log
  lower : (s.best = none ∧ s.lo = lo0 ∧ ∀ p ∈ s.log, p.2 = false) ∨ (s.best = some s.lo ∧ (s.lo, true) ∈ s.log)
  above : ∀ x, (x, true) ∈ s.log → x ≤ s.lo
  below : ∀ x, (x, false) ∈ s.log → s.hi ≤ x
  range : ∀ p ∈ s.log, lo0 < p.1 ∧ p.1 < hi0
  count : s.log ≠ [] → eps * 2 ^ (s.log.length - 1) < hi0 - lo0

private theorem loop_inv {W : Type} (sim : Sim W) (lo0 hi0 eps : Rat) (he : 0 < eps) (s t : Loop W) (h : Inv lo0 hi0 eps s)
    (hl : loop sim eps he s = some t) : Inv lo0 hi0 eps t ∧ t.hi - t.lo ≤ eps := by
  induction s using loop.induct (sim := sim) (eps := eps) (he := he) with
  | case1 s hgap cur hs =>
    rw [loop, dif_pos hgap] at hl
    simp only [cur] at hs
    simp only [hs] at hl
    cases hl
  | case2 s hgap cur w hs best ih =>
    rw [loop, dif_pos hgap] at hl
    simp only [cur] at hs
    simp only [hs] at hl
    apply ih _ hl
    have hc1 : s.lo < cur := by simp only [cur]; have := h.order; linarith
    have hc2 : cur < s.hi := by simp only [cur]; have := h.order; linarith
    have hbest : best = cur := by
      rcases h.lower with ⟨hb, -, -⟩ | ⟨hb, -⟩
      · simp only [best, hb, better]
      · simp only [best, hb, better]; exact max_eq_right hc1.le
    refine ⟨?_, hc2, le_trans h.low hc1.le, h.high, ?_, ?_, ?_, ?_, ?_, ?_⟩
    · simp only [List.length_append, List.length_singleton, cur]
      rw [← h.gap, pow_succ]; ring
    · rcases h.upper with hu | hu
      · exact Or.inl hu
      · exact Or.inr (by simp [hu])
    · exact Or.inr ⟨by simp only [hbest], by simp⟩
    · intro x hx
      simp only [List.mem_append, List.mem_singleton, Prod.mk.injEq, and_true] at hx
      rcases hx with hx | hx
      · exact le_trans (h.above x hx) hc1.le
      · exact le_of_eq hx
    · intro x hx
      simp only [List.mem_append, List.mem_singleton, Prod.mk.injEq, Bool.false_eq_true, and_false, or_false] at hx
      exact h.below x hx
    · intro p hp
      simp only [List.mem_append, List.mem_singleton] at hp
      rcases hp with hp | rfl
      · exact h.range p hp
      · exact ⟨lt_of_le_of_lt h.low hc1, lt_of_lt_of_le hc2 h.high⟩
    · intro _
      simp only [List.length_append, List.length_singleton, Nat.add_sub_cancel]
      rw [← h.gap]
      exact mul_lt_mul_of_pos_right hgap (by positivity)
  | case3 s hgap cur w hs ih =>
    rw [loop, dif_pos hgap] at hl
    simp only [cur] at hs
    simp only [hs] at hl
    apply ih _ hl
    have hc1 : s.lo < cur := by simp only [cur]; have := h.order; linarith
    have hc2 : cur < s.hi := by simp only [cur]; have := h.order; linarith
    refine ⟨?_, hc1, h.low, le_trans hc2.le h.high, ?_, ?_, ?_, ?_, ?_, ?_⟩
    · simp only [List.length_append, List.length_singleton, cur]
      rw [← h.gap, pow_succ]; ring
    · exact Or.inr (by simp)
    · rcases h.lower with ⟨hb, hb2, hb3⟩ | ⟨hb, hb2⟩
      · refine Or.inl ⟨hb, hb2, fun p hp => ?_⟩
        simp only [List.mem_append, List.mem_singleton] at hp
        rcases hp with hp | rfl
        · exact hb3 p hp
        · rfl
      · exact Or.inr ⟨hb, by simp [hb2]⟩
    · intro x hx
      simp only [List.mem_append, List.mem_singleton, Prod.mk.injEq, Bool.true_eq_false, and_false, or_false] at hx
      exact h.above x hx
    · intro x hx
      simp only [List.mem_append, List.mem_singleton, Prod.mk.injEq, and_true] at hx
      rcases hx with hx | hx
      · exact le_trans hc2.le (h.below x hx)
      · exact le_of_eq hx.symm
    · intro p hp
      simp only [List.mem_append, List.mem_singleton] at hp
      rcases hp with hp | rfl
      · exact h.range p hp
      · exact ⟨lt_of_le_of_lt h.low hc1, lt_of_lt_of_le hc2 h.high⟩
    · intro _
      simp only [List.length_append, List.length_singleton, Nat.add_sub_cancel]
      rw [← h.gap]
      exact mul_lt_mul_of_pos_right hgap (by positivity)
  | case4 s hgap =>
    rw [loop, dif_neg hgap] at hl
    cases hl
    exact ⟨h, not_lt.1 hgap⟩

private theorem init_inv {W : Type} (lo hi eps : Rat) (h : lo < hi) (w : W) : Inv lo hi eps (⟨lo, hi, none, w, []⟩ : Loop W) :=
  ⟨by simp, h, le_refl _, le_refl _, Or.inl rfl, Or.inl ⟨rfl, rfl, by simp⟩, by simp, by simp, by simp, by simp⟩

/-- The feasibility of the tested values is what runs showed: the runs happened one after the other, each in the state the previous
one left. -/
inductive Tested {W : Type} (sim : Sim W) : W → List (Rat × Bool) → W → Prop
  | nil (w) : Tested sim w [] w
  | snoc {w w1 w2 log x b} : Tested sim w log w1 → sim x w1 = some (b, w2) → Tested sim w (log ++ [(x, b)]) w2

private theorem loop_tested {W : Type} (sim : Sim W) (eps : Rat) (he : 0 < eps) (w0 : W) (s t : Loop W)
    (h : Tested sim w0 s.log s.world) (hl : loop sim eps he s = some t) : Tested sim w0 t.log t.world := by
  induction s using loop.induct (sim := sim) (eps := eps) (he := he) with
  | case1 s hgap cur hs =>
    rw [loop, dif_pos hgap] at hl
    simp only [cur] at hs
    simp only [hs] at hl
    cases hl
  | case2 s hgap cur w hs best ih =>
    rw [loop, dif_pos hgap] at hl
    have hs' := hs
    simp only [cur] at hs
    simp only [hs] at hl
    exact ih (.snoc h hs') hl
  | case3 s hgap cur w hs ih =>
    rw [loop, dif_pos hgap] at hl
    have hs' := hs
    simp only [cur] at hs
    simp only [hs] at hl
    exact ih (.snoc h hs') hl
  | case4 s hgap =>
    rw [loop, dif_neg hgap] at hl
    cases hl
    exact h

/-- **C44 (result).** Whatever the outcomes of the runs are — even if they depend on earlier runs — when the search returns: the last
run was at the returned value; every tested value lies strictly between the bounds and was tested by a run; their number is at most
one more than the binary logarithm of the ratio of the initial gap to epsilon. If a tested value was feasible, the returned value is the
greatest feasible tested value, and there is an infeasible tested value, or the upper bound, above it by at most epsilon. If none was,
then `error_on_infeasible` is off and the returned value is the lower bound. -/
theorem C44_result {W : Type} (sim : Sim W) (eoi : Bool) (eps lo hi : Rat) (w : W) (v : Rat) (w' : W) (log : List (Rat × Bool))
    (h : run sim eoi eps lo hi w = .ok (v, w', log)) :
    (∃ w1 b, Tested sim w log w1 ∧ sim v w1 = some (b, w')) ∧
    (∀ p ∈ log, lo < p.1 ∧ p.1 < hi) ∧ (log ≠ [] → eps * 2 ^ (log.length - 1) < hi - lo) ∧
    (∃ u, v < u ∧ u ≤ v + eps ∧ (u = hi ∨ (u, false) ∈ log) ∧ ∀ x, (x, false) ∈ log → u ≤ x) ∧
    ((∃ x, (x, true) ∈ log) → (v, true) ∈ log ∧ ∀ x, (x, true) ∈ log → x ≤ v) ∧
    ((∀ x, (x, true) ∉ log) → v = lo ∧ eoi = false) := by
  unfold run at h
  by_cases h1 : lo ≥ hi
  · rw [if_pos h1] at h; cases h
  by_cases h2 : eps ≤ 0
  · rw [if_neg h1, dif_pos h2] at h; cases h
  rw [if_neg h1, dif_neg h2] at h
  cases hl : loop sim eps (not_le.1 h2) ⟨lo, hi, none, w, []⟩ with
  | none => rw [hl] at h; cases h
  | some s =>
    rw [hl] at h
    simp only at h
    obtain ⟨inv, hgap⟩ := loop_inv sim lo hi eps (not_le.1 h2) _ s (init_inv lo hi eps (not_le.1 h1) w) hl
    have htested := loop_tested sim eps (not_le.1 h2) w _ s (.nil w) hl
    -- the value of the last run is the lower bound of the loop in both cases
    have hv : ∀ v, sim v s.world = none ∨ ∃ b w', sim v s.world = some (b, w') := by
      intro v
      cases hsim : sim v s.world with
      | none => exact Or.inl rfl
      | some p => exact Or.inr ⟨p.1, p.2, rfl⟩
    have key : v = s.lo ∧ log = s.log ∧ (∃ b, sim v s.world = some (b, w')) ∧ (s.best = none → eoi = false) := by
      rcases inv.lower with ⟨hb, -, -⟩ | ⟨hb, -⟩
      · rw [hb] at h
        cases eoi with
        | true => simp at h
        | false =>
          simp only [Bool.false_eq_true, if_false] at h
          rcases hv s.lo with hn | ⟨b, w2, hs⟩
          · rw [hn] at h; cases h
          · rw [hs] at h
            cases h
            exact ⟨rfl, rfl, ⟨b, hs⟩, fun _ => rfl⟩
      · rw [hb] at h
        simp only at h
        rcases hv s.lo with hn | ⟨b, w2, hs⟩
        · rw [hn] at h; cases h
        · rw [hs] at h
          cases h
          exact ⟨rfl, rfl, ⟨b, hs⟩, fun e => by rw [hb] at e; cases e⟩
    obtain ⟨rfl, rfl, ⟨b, hb⟩, he⟩ := key
    refine ⟨⟨s.world, b, htested, hb⟩, inv.range, inv.count, ⟨s.hi, inv.order, by linarith, inv.upper, inv.below⟩, ?_, ?_⟩
    · rintro ⟨x, hx⟩
      rcases inv.lower with ⟨-, -, hall⟩ | ⟨-, hmem⟩
      · exact absurd (hall _ hx) (by simp)
      · exact ⟨hmem, inv.above⟩
    · intro hno
      rcases inv.lower with ⟨hbest, hlo, -⟩ | ⟨-, hmem⟩
      · exact ⟨hlo, he hbest⟩
      · exact absurd hmem (hno _)

/-- **C44 (limit).** If the outcome of a run depends only on the value and is downward closed between the bounds, then everything between the lower
bound (exclusive) and the returned value is feasible, and nothing from epsilon above the returned value up to the upper bound is. -/
theorem C44_limit {W : Type} (sim : Sim W) (eoi : Bool) (eps lo hi : Rat) (w : W) (v : Rat) (w' : W) (log : List (Rat × Bool))
    (feasible : Rat → Prop) (hf : ∀ x w b w', sim x w = some (b, w') → (b = true ↔ feasible x))
    (hd : ∀ x y, lo < x → x ≤ y → y < hi → feasible y → feasible x)
    (h : run sim eoi eps lo hi w = .ok (v, w', log)) :
    (∀ x, lo < x → x ≤ v → feasible x) ∧ (∀ x, v + eps ≤ x → x < hi → ¬ feasible x) := by
  obtain ⟨⟨w1, b, ht, -⟩, hr, -, ⟨u, hu1, hu2, hu3, -⟩, hyes, hno⟩ := C44_result sim eoi eps lo hi w v w' log h
  have hlog : ∀ {w log w1}, Tested sim w log w1 → ∀ p ∈ log, (p.2 = true ↔ feasible p.1) := by
    intro w log w1 ht
    induction ht with
    | nil => simp
    | snoc _ hs ih =>
      intro p hp
      rcases List.mem_append.1 hp with hp | hp
      · exact ih p hp
      · rw [List.mem_singleton] at hp
        subst hp
        exact hf _ _ _ _ hs
  constructor
  · intro x hx1 hx2
    by_cases hex : ∃ x, (x, true) ∈ log
    · obtain ⟨hm, -⟩ := hyes hex
      exact hd x v hx1 hx2 (hr _ hm).2 ((hlog ht _ hm).1 rfl)
    · obtain ⟨rfl, -⟩ := hno (fun x hx => hex ⟨x, hx⟩)
      exact absurd hx1 (not_lt.2 hx2)
  · intro x hx1 hx2 hfx
    rcases hu3 with rfl | hu3
    · linarith
    · have hu := hr _ hu3
      have := (hlog ht _ hu3).2 (hd u x hu.1 (by linarith) hx2 hfx)
      cases this

/-- **C44 (errors).** The search raises "no feasible solutions" only if every tested value was infeasible, some infeasible value was tested within
epsilon of the lower bound or the bounds were that close from the start; and (by being a total function) it ends for all finite
bounds and every positive epsilon. -/
theorem C44_infeasible {W : Type} (sim : Sim W) (eoi : Bool) (eps lo hi : Rat) (w : W)
    (h : run sim eoi eps lo hi w = .error .infeasible) :
    eoi = true ∧ ∃ log w1, Tested sim w log w1 ∧ (∀ p ∈ log, p.2 = false) ∧
      ∃ u, lo < u ∧ u ≤ lo + eps ∧ (u = hi ∨ (u, false) ∈ log) := by
  unfold run at h
  by_cases h1 : lo ≥ hi
  · rw [if_pos h1] at h; cases h
  by_cases h2 : eps ≤ 0
  · rw [if_neg h1, dif_pos h2] at h; cases h
  rw [if_neg h1, dif_neg h2] at h
  cases hl : loop sim eps (not_le.1 h2) ⟨lo, hi, none, w, []⟩ with
  | none => rw [hl] at h; cases h
  | some s =>
    rw [hl] at h
    simp only at h
    obtain ⟨inv, hgap⟩ := loop_inv sim lo hi eps (not_le.1 h2) _ s (init_inv lo hi eps (not_le.1 h1) w) hl
    have htested := loop_tested sim eps (not_le.1 h2) w _ s (.nil w) hl
    rcases inv.lower with ⟨hb, hlo, hall⟩ | ⟨hb, -⟩
    · rw [hb] at h
      cases eoi with
      | false =>
        simp only [Bool.false_eq_true, if_false] at h
        cases hsim : sim s.lo s.world with
        | none => rw [hsim] at h; cases h
        | some p => rw [hsim] at h; cases h
      | true =>
        exact ⟨rfl, s.log, s.world, htested, hall, s.hi, by rw [← hlo]; exact inv.order, by linarith, inv.upper⟩
    · rw [hb] at h
      simp only at h
      cases hsim : sim s.lo s.world with
      | none => rw [hsim] at h; cases h
      | some p => rw [hsim] at h; cases h

/-- Runs whose outcome depends on the value only. -/
def threshold (limit : Rat) : Sim Unit := fun x w => some (decide (x ≤ limit), w)

private theorem loop_step (limit eps : Rat) (he : 0 < eps) (s : Loop Unit) (hgap : s.hi - s.lo > eps) :
    loop (threshold limit) eps he s = loop (threshold limit) eps he
      (if (s.hi + s.lo) / 2 ≤ limit then
        { lo := (s.hi + s.lo) / 2, hi := s.hi, best := some (better s.best ((s.hi + s.lo) / 2)), world := s.world, log := s.log ++ [((s.hi + s.lo) / 2, true)] }
      else { lo := s.lo, hi := (s.hi + s.lo) / 2, best := s.best, world := s.world,
             log := s.log ++ [((s.hi + s.lo) / 2, false)] }) := by
  conv_lhs => rw [loop, dif_pos hgap]
  simp only [threshold]
  by_cases h : (s.hi + s.lo) / 2 ≤ limit <;> simp [h]

/-- Three values are tested, the second is feasible. -/
example : run (threshold (3 / 10)) true (1 / 8) 0 1 () =
    .ok (1 / 4, (), [(1 / 2, false), (1 / 4, true), (3 / 8, false)]) := by
  unfold run
  rw [if_neg (by norm_num), dif_neg (by norm_num)]
  rw [loop_step _ _ _ _ (by norm_num)]; norm_num
  rw [loop_step _ _ _ _ (by norm_num)]; norm_num
  rw [loop_step _ _ _ _ (by norm_num)]; norm_num
  rw [loop, dif_neg (by norm_num)]
  rfl

/-- **C44 fails at the lower bound.** The lower bound itself is never tested: when only values within epsilon of it are feasible, the search raises
"no feasible solutions" although the lower bound is feasible. -/
theorem C44_lower_bound_fails : threshold 0 0 () = some (true, ()) ∧
    run (threshold 0) true (1 / 2) 0 1 () = .error .infeasible := by
  refine ⟨by simp [threshold], ?_⟩
  unfold run
  rw [if_neg (by norm_num), dif_neg (by norm_num)]
  rw [loop_step _ _ _ _ (by norm_num)]; norm_num
  rw [loop, dif_neg (by norm_num)]


open Verif.Bounds in
/-- **C44 fails for infinite upper bounds.** With the default (infinite) upper bound, if the run at infinity is not feasible, the search repeats that run for
ever. -/
theorem C44_infinite_fails (feasible : F → Bool) (h : feasible .posInf = false) (lo : Rat) (n : Nat) :
    (fun o : Option (F × F) => o.bind (infiniteStep feasible))^[n] (some (.fin lo, .posInf)) = some (.fin lo, .posInf) := by
  induction n with
  | zero => rfl
  | succ n ih => rw [Function.iterate_succ_apply', ih]; simp [infiniteStep, h]

end Verif.Bisect

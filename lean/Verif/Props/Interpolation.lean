import Verif.Model.Interpolation
import Verif.Spec.Interpolation
import Verif.Props.Storage
import Verif.Model.NodeRun
import Mathlib.Tactic.Ring
import Mathlib.Tactic.FieldSimp
import Mathlib.Tactic.Linarith
import Mathlib.Data.List.GetD
/-! # C80: interpolated parameters -/

namespace Verif.Interpolation

open Verif

private theorem sorted_perm (pts : List (Rat × Rat)) : (sorted pts).Perm pts := List.perm_insertionSort _ _

private theorem line_eq {p q : Rat × Rat} {v : Rat} (h : p.1 < q.1) : line p q v = mean p q v := by
  have : q.1 - p.1 ≠ 0 := by intro e; linarith
  unfold line mean; field_simp; ring

private theorem mean_left {p q : Rat × Rat} (h : p.1 < q.1) : mean p q p.1 = p.2 := by
  have : q.1 - p.1 ≠ 0 := by intro e; linarith
  unfold mean; field_simp; ring

private theorem mean_right {p q : Rat × Rat} (h : p.1 < q.1) : mean p q q.1 = q.2 := by
  have : q.1 - p.1 ≠ 0 := by intro e; linarith
  unfold mean; field_simp; ring

private theorem point_eq {pts : List (Rat × Rat)} (h : (pts.map Prod.fst).Nodup) {p q : Rat × Rat} (hp : p ∈ pts) (hq : q ∈ pts) (e : p.1 = q.1) : p = q :=
  List.inj_on_of_nodup_map h hp hq e

private theorem mean_unique {pts : List (Rat × Rat)} (h : (pts.map Prod.fst).Nodup) {p q p' q' : Rat × Rat} {v : Rat}
    (a : Encloses pts p q v) (b : Encloses pts p' q' v) : mean p q v = mean p' q' v := by
  obtain ⟨a1, a2, a3, a4, a5, a6⟩ := a
  obtain ⟨b1, b2, b3, b4, b5, b6⟩ := b
  rcases le_or_gt q.1 p'.1 with c | c
  · have e1 : v = q.1 := le_antisymm a5 (c.trans b4)
    have e2 : v = p'.1 := le_antisymm (a5.trans c) b4
    have e : q = p' := point_eq h a2 b1 (e1.symm.trans e2)
    subst e; rw [e1, mean_right a3, mean_left b3]
  · rcases le_or_gt q'.1 p.1 with c' | c'
    · have e1 : v = q'.1 := le_antisymm b5 (c'.trans a4)
      have e2 : v = p.1 := le_antisymm (b5.trans c') a4
      have e : q' = p := point_eq h b2 a1 (e1.symm.trans e2)
      subst e; rw [e1, mean_right b3, mean_left a3]
    · have l1 : p'.1 ≤ p.1 := (a6 p' b1).resolve_right (not_le.2 c)
      have l2 : p.1 ≤ p'.1 := (b6 p a1).resolve_right (not_le.2 c')
      have r1 : q.1 ≤ q'.1 := (a6 q' b2).resolve_left (not_le.2 c')
      have r2 : q'.1 ≤ q.1 := (b6 q a2).resolve_left (not_le.2 c)
      rw [point_eq h a1 b1 (le_antisymm l2 l1), point_eq h a2 b2 (le_antisymm r1 r2)]

/-- In a list sorted by `x`, the first `countP (x < v)` points are those below `v`. -/
private theorem count_split (v : Rat) : ∀ (s : List (Rat × Rat)), s.Pairwise (fun a b => a.1 < b.1) →
    ∀ (i : Nat) (p : Rat × Rat), s[i]? = some p → (p.1 < v ↔ i < s.countP fun p => decide (p.1 < v))
  | [], _, i, p, h => by simp at h
  | a :: s, hs, i, p, h => by
    obtain ⟨h1, h2⟩ := List.pairwise_cons.1 hs
    have ih := count_split v s h2
    by_cases c : a.1 < v
    · rw [List.countP_cons_of_pos (by simpa using c)]
      cases i with
      | zero => simp at h; subst h; simp [c]
      | succ i =>
        have := ih i p (by simpa using h)
        rw [this]; omega
    · have z : (a :: s).countP (fun p => decide (p.1 < v)) = 0 := by
        rw [List.countP_eq_zero]
        intro x hx
        rcases List.mem_cons.1 hx with rfl | hx
        · simpa using c
        · have := h1 x hx
          simp; linarith
      rw [z]
      have : p ∈ a :: s := List.mem_of_getElem? h
      rcases List.mem_cons.1 this with rfl | hx
      · simp [c]
      · have := h1 p hx
        simp; linarith

private theorem sorted_strict {pts : List (Rat × Rat)} (h : (pts.map Prod.fst).Nodup) : (sorted pts).Pairwise fun a b => a.1 < b.1 := by
  have h1 : (sorted pts).Pairwise fun a b => a.1 ≤ b.1 := by
    have : Std.Total (fun a b : Rat × Rat => a.1 ≤ b.1) := ⟨fun a b => le_total a.1 b.1⟩
    have : IsTrans (Rat × Rat) (fun a b => a.1 ≤ b.1) := ⟨fun a b c h1 h2 => le_trans h1 h2⟩
    exact List.pairwise_insertionSort _ _
  have h2 : (sorted pts).Pairwise fun a b => a.1 ≠ b.1 := by
    have := (((sorted_perm pts).map Prod.fst).nodup_iff).2 h
    exact List.pairwise_map.1 this
  exact (h1.and h2).imp fun ⟨a, b⟩ => lt_of_le_of_ne a b

private theorem range_of_strict {s : List (Rat × Rat)} (hs : s.Pairwise fun a b => a.1 < b.1) {first last : Rat × Rat} (h1 : s.head? = some first)
    (h2 : s.getLast? = some last) : ∀ t ∈ s, first.1 ≤ t.1 ∧ t.1 ≤ last.1 := by
  intro t ht
  constructor
  · cases s with
    | nil => simp at ht
    | cons a s =>
      simp at h1; subst h1
      rcases List.mem_cons.1 ht with rfl | ht
      · exact le_refl _
      · exact ((List.pairwise_cons.1 hs).1 t ht).le
  · rcases List.eq_nil_or_concat s with rfl | ⟨l, a, rfl⟩
    · simp at ht
    · simp at h2; subst h2
      simp only [List.concat_eq_append, List.mem_append, List.mem_singleton] at ht
      rcases ht with ht | rfl
      · rw [List.concat_eq_append, List.pairwise_append] at hs
        exact (hs.2.2 t ht a (by simp)).le
      · exact le_refl _

private theorem interp_cases {pts : List (Rat × Rat)} (h : Function pts) (v : Rat) :
    (interp1d pts v = none ∧ ((∀ p ∈ pts, v < p.1) ∨ ∀ p ∈ pts, p.1 < v)) ∨
    ∃ p q, Encloses pts p q v ∧ interp1d pts v = some (mean p q v) := by
  have hs := sorted_strict h.2
  have hlen : (sorted pts).length = pts.length := (sorted_perm pts).length_eq
  have hm : ∀ t, t ∈ pts ↔ t ∈ sorted pts := fun t => (sorted_perm pts).mem_iff.symm
  have h2 := h.1
  have hne : sorted pts ≠ [] := by intro e; rw [e] at hlen; simp at hlen; omega
  obtain ⟨first, hf⟩ : ∃ a, (sorted pts).head? = some a := ⟨_, List.head?_eq_some_head hne⟩
  obtain ⟨last, hl⟩ : ∃ a, (sorted pts).getLast? = some a := ⟨_, List.getLast?_eq_some_getLast hne⟩
  have hr := range_of_strict hs hf hl
  unfold interp1d
  simp only [hf, hl]
  by_cases c1 : v < first.1
  · left; rw [if_pos c1]
    exact ⟨rfl, Or.inl fun p hp => lt_of_lt_of_le c1 (hr p ((hm p).1 hp)).1⟩
  rw [if_neg c1]
  by_cases c2 : last.1 < v
  · left; rw [if_pos c2]
    exact ⟨rfl, Or.inr fun p hp => lt_of_le_of_lt (hr p ((hm p).1 hp)).2 c2⟩
  rw [if_neg c2]
  right
  generalize hs' : sorted pts = s at *
  set k := s.countP fun p => decide (p.1 < v) with hk
  have hsplit := count_split v s hs
  rw [← hk] at hsplit
  have f0 : s[0]? = some first := by rw [← hf, List.head?_eq_getElem?]
  have l0 : s[s.length - 1]? = some last := by rw [← hl, List.getLast?_eq_getElem?]
  have klt : k < s.length := by
    by_contra hc
    have := (hsplit _ _ l0).2 (by omega)
    exact c2 this
  have i1 : min (max k 1) (s.length - 1) = max k 1 := by omega
  rw [i1]
  set i := max k 1 with hi
  have ilt : i < s.length := by omega
  have e1 : s.getD (i - 1) (0, 0) = s[i - 1] := List.getD_eq_getElem _ _ _
  have e2 : s.getD i (0, 0) = s[i] := List.getD_eq_getElem _ _ _
  rw [e1, e2]
  have hpq : (s[i - 1]).1 < (s[i]).1 := List.pairwise_iff_getElem.1 hs (i - 1) i (by omega) ilt (by omega)
  refine ⟨s[i - 1], s[i], ⟨(hm _).2 (List.getElem_mem _), (hm _).2 (List.getElem_mem _), hpq, ?_, ?_, ?_⟩, by rw [line_eq hpq]⟩
  · by_cases c : k = 0
    · have : i - 1 = 0 := by omega
      have e : s[i - 1] = first := by
        have : s[i - 1]? = some first := by rw [this, f0]
        rw [List.getElem?_eq_getElem (by omega)] at this
        exact Option.some.inj this
      rw [e]; exact not_lt.1 c1
    · exact ((hsplit (i - 1) _ (List.getElem?_eq_getElem (by omega))).2 (by omega)).le
  · by_contra hc
    have := (hsplit i _ (List.getElem?_eq_getElem ilt)).1 (not_le.1 hc)
    omega
  · intro t ht
    obtain ⟨j, hj, rfl⟩ := List.mem_iff_getElem.1 ((hm t).1 ht)
    rcases Nat.lt_or_ge j i with c | c
    · left
      rcases Nat.lt_or_ge j (i - 1) with c' | c'
      · exact (List.pairwise_iff_getElem.1 hs j (i - 1) hj (by omega) c').le
      · have : j = i - 1 := by omega
        subst this; exact le_refl _
    · right
      rcases Nat.lt_or_ge i j with c' | c'
      · exact (List.pairwise_iff_getElem.1 hs i j ilt hj c').le
      · have : j = i := by omega
        subst this; exact le_refl _

/-- **C80 (the value).** Between two neighbouring points the value is the mean of their values weighted by distance; the order in which the points are given does not matter. -/
theorem C80_between (pts : List (Rat × Rat)) (h : Function pts) (p q : Rat × Rat) (v : Rat) (he : Encloses pts p q v) :
    interp1d pts v = some (mean p q v) := by
  rcases interp_cases h v with ⟨-, c | c⟩ | ⟨p', q', he', e⟩
  · have := c p he.1; obtain ⟨-, -, -, h4, -⟩ := he; linarith
  · have := c q he.2.1; obtain ⟨-, -, -, -, h5, -⟩ := he; linarith
  · rw [e, mean_unique h.2 he' he]

/-- **C80 (where it is defined).** The parameter has a value exactly when the number to interpolate is between two of the given points; otherwise the run stops with an error. -/
theorem C80_defined (pts : List (Rat × Rat)) (h : Function pts) (v : Rat) :
    (interp1d pts v).isSome ↔ ∃ p ∈ pts, ∃ q ∈ pts, p.1 ≤ v ∧ v ≤ q.1 := by
  rcases interp_cases h v with ⟨e, c⟩ | ⟨p, q, he, e⟩
  · rw [e]
    refine ⟨fun h => by simp at h, ?_⟩
    rintro ⟨p, hp, q, hq, h1, h2⟩
    rcases c with c | c
    · have := c p hp; linarith
    · have := c q hq; linarith
  · rw [e]
    exact ⟨fun _ => ⟨p, he.1, q, he.2.1, he.2.2.2.1, he.2.2.2.2.1⟩, fun _ => rfl⟩

/-- Whenever there is a value, two neighbouring points enclose the argument. -/
theorem C80_enclosed (pts : List (Rat × Rat)) (h : Function pts) (v r : Rat) (hr : interp1d pts v = some r) :
    ∃ p q, Encloses pts p q v ∧ r = mean p q v := by
  rcases interp_cases h v with ⟨e, -⟩ | ⟨p, q, he, e⟩
  · rw [e] at hr; cases hr
  · rw [e] at hr; exact ⟨p, q, he, (Option.some.inj hr).symm⟩

/-- **C80 (the points themselves).** At a given point the value is the given value. -/
theorem C80_points (pts : List (Rat × Rat)) (h : Function pts) (p : Rat × Rat) (hp : p ∈ pts) : interp1d pts p.1 = some p.2 := by
  obtain ⟨r, hr⟩ := Option.isSome_iff_exists.1 ((C80_defined pts h p.1).2 ⟨p, hp, p, hp, le_refl _, le_refl _⟩)
  obtain ⟨a, b, he, e⟩ := C80_enclosed pts h _ r hr
  obtain ⟨h1, h2, h3, h4, h5, h6⟩ := he
  rw [hr, e]
  rcases h6 p hp with c | c
  · have : p = a := point_eq h.2 hp h1 (le_antisymm c h4)
    rw [this, mean_left h3]
  · have : p = b := point_eq h.2 hp h2 (le_antisymm h5 c)
    rw [this, mean_right h3]

/-- **C80 (order).** The order of the points does not matter. -/
theorem C80_order (pts pts' : List (Rat × Rat)) (h : Function pts) (hp : pts.Perm pts') (v : Rat) : interp1d pts v = interp1d pts' v := by
  have h' : Function pts' := ⟨hp.length_eq ▸ h.1, (hp.map Prod.fst).nodup_iff.1 h.2⟩
  rcases interp_cases h v with ⟨e, c⟩ | ⟨p, q, he, e⟩
  · rw [e]; symm
    rw [← Option.not_isSome_iff_eq_none, C80_defined pts' h']
    rintro ⟨p, hp', q, hq, h1, h2⟩
    rcases c with c | c
    · have := c p (hp.mem_iff.2 hp'); linarith
    · have := c q (hp.mem_iff.2 hq); linarith
  · rw [e]; symm
    obtain ⟨h1, h2, h3, h4, h5, h6⟩ := he
    exact C80_between pts' h' p q v ⟨hp.mem_iff.1 h1, hp.mem_iff.1 h2, h3, h4, h5, fun t ht => h6 t (hp.mem_iff.2 ht)⟩

private theorem mean_between {p q : Rat × Rat} {v : Rat} (h : p.1 < q.1) (h1 : p.1 ≤ v) (h2 : v ≤ q.1) :
    min p.2 q.2 ≤ mean p q v ∧ mean p q v ≤ max p.2 q.2 := by
  have hd : 0 < q.1 - p.1 := by linarith
  unfold mean
  rw [le_div_iff₀ hd, div_le_iff₀ hd]
  have a1 := min_le_left p.2 q.2
  have a2 := min_le_right p.2 q.2
  have a3 := le_max_left p.2 q.2
  have a4 := le_max_right p.2 q.2
  have b1 : 0 ≤ q.1 - v := by linarith
  have b2 : 0 ≤ v - p.1 := by linarith
  constructor
  · nlinarith [mul_le_mul_of_nonneg_right a1 b1, mul_le_mul_of_nonneg_right a2 b2]
  · nlinarith [mul_le_mul_of_nonneg_right a3 b1, mul_le_mul_of_nonneg_right a4 b2]

/-- **C80 (range).** The value is never below all given values nor above all given values. -/
theorem C80_range (pts : List (Rat × Rat)) (h : Function pts) (v r : Rat) (hr : interp1d pts v = some r) :
    ∃ p ∈ pts, ∃ q ∈ pts, p.2 ≤ r ∧ r ≤ q.2 := by
  obtain ⟨p, q, he, rfl⟩ := C80_enclosed pts h v r hr
  obtain ⟨h1, h2, h3, h4, h5, -⟩ := he
  obtain ⟨b1, b2⟩ := mean_between h3 h4 h5
  rcases le_total p.2 q.2 with c | c
  · rw [min_eq_left c] at b1; rw [max_eq_right c] at b2
    exact ⟨p, h1, q, h2, b1, b2⟩
  · rw [min_eq_right c] at b1; rw [max_eq_left c] at b2
    exact ⟨q, h2, p, h1, b1, b2⟩

/-- Exchange the coordinates. -/
private theorem swap_function {pts : List (Rat × Rat)} (h : Function pts) (hi : Increasing pts) : Function (pts.map Prod.swap) := by
  refine ⟨by simpa using h.1, ?_⟩
  rw [List.map_map]
  have h2 := h.2
  unfold List.Nodup at h2 ⊢
  rw [List.pairwise_map] at h2 ⊢
  refine List.Pairwise.imp_of_mem ?_ h2
  intro a b ha hb hab e
  rcases lt_or_gt_of_ne hab with c | c
  · have := hi a ha b hb c; simp at e; linarith
  · have := hi b hb a ha c; simp at e; linarith

/-- **C80 (inverse).** For increasing data, interpolating back gives the original number. -/
theorem C80_inverse (pts : List (Rat × Rat)) (h : Function pts) (hi : Increasing pts) (v r : Rat) (hr : interp1d pts v = some r) :
    interp1d (pts.map Prod.swap) r = some v := by
  obtain ⟨p, q, he, rfl⟩ := C80_enclosed pts h v r hr
  obtain ⟨h1, h2, h3, h4, h5, h6⟩ := he
  have hy := hi p h1 q h2 h3
  obtain ⟨b1, b2⟩ := mean_between h3 h4 h5
  rw [min_eq_left hy.le] at b1; rw [max_eq_right hy.le] at b2
  rw [C80_between (pts.map Prod.swap) (swap_function h hi) p.swap q.swap (mean p q v)
    ⟨List.mem_map_of_mem h1, List.mem_map_of_mem h2, hy, b1, b2, ?_⟩]
  · have d1 : q.1 - p.1 ≠ 0 := by intro e; linarith
    have d2 : q.2 - p.2 ≠ 0 := by intro e; linarith
    unfold mean
    simp only [Prod.fst_swap, Prod.snd_swap]
    congr 1
    field_simp
    ring
  · intro t ht
    obtain ⟨u, hu, rfl⟩ := List.mem_map.1 ht
    simp only [Prod.fst_swap]
    rcases h6 u hu with c | c
    · left
      rcases c.eq_or_lt with c | c
      · rw [point_eq h.2 hu h1 c]
      · exact (hi u hu p h1 c).le
    · right
      rcases c.eq_or_lt with c | c
      · rw [point_eq h.2 h2 hu c]
      · exact (hi q h2 u hu c).le

/-- **C80 (monotone).** For increasing data the value increases with the number to interpolate. -/
theorem C80_monotone (pts : List (Rat × Rat)) (h : Function pts) (hi : Increasing pts) (u v a b : Rat) (ha : interp1d pts u = some a)
    (hb : interp1d pts v = some b) (huv : u < v) : a < b := by
  have hne : a ≠ b := by
    intro e; subst e
    have e1 := C80_inverse pts h hi u a ha
    have e2 := C80_inverse pts h hi v a hb
    rw [e1] at e2
    have := Option.some.inj e2
    linarith
  refine lt_of_le_of_ne ?_ hne
  obtain ⟨p, q, he, e⟩ := C80_enclosed pts h u a ha
  obtain ⟨p', q', he', e'⟩ := C80_enclosed pts h v b hb
  by_cases c : v ≤ q.1
  · have := C80_between pts h p q v ⟨he.1, he.2.1, he.2.2.1, he.2.2.2.1.trans huv.le, c, he.2.2.2.2.2⟩
    rw [hb] at this
    rw [e, Option.some.inj this]
    have hd : 0 < q.1 - p.1 := by linarith [he.2.2.1]
    have hy := hi p he.1 q he.2.1 he.2.2.1
    unfold mean
    rw [div_le_div_iff_of_pos_right hd]
    nlinarith
  · obtain ⟨h1, h2, h3, h4, h5, -⟩ := he
    obtain ⟨h1', h2', h3', h4', h5', h6'⟩ := he'
    have b1 := (mean_between h3 h4 h5).2
    have b2 := (mean_between h3' h4' h5').1
    rw [max_eq_right (hi p h1 q h2 h3).le] at b1
    rw [min_eq_left (hi p' h1' q' h2' h3').le] at b2
    rw [e, e']
    have : q.1 ≤ p'.1 := (h6' q h2).resolve_right (by linarith)
    have : q.2 ≤ p'.2 := by
      rcases this.eq_or_lt with c | c
      · rw [point_eq h.2 h2 h1' c]
      · exact (hi q h2 p' h1' c).le
    linarith

/-- **C80 (volume).** If the given volumes cover the range of the storage, the parameter has a value in every timestep of every run whose solutions respect the storage's constraint. -/
theorem C80_volume (volumes values : List Rat) (hl : volumes.length = values.length) (h : Function (volumes.zip values)) (tol mn mx : Rat) (hm : mn ≤ mx)
    (hlo : ∃ a ∈ volumes, a ≤ mn) (hhi : ∃ b ∈ volumes, mx ≤ b) (s : Storage.State) (hs : mn ≤ s.volume ∧ s.volume ≤ mx) (ts : List Storage.Step)
    (hrun : Storage.FeasibleRun tol mn mx s ts) (k : Nat) (hk : k ≤ ts.length) :
    (volumeValue volumes values (s.run (ts.take k))).isSome := by
  obtain ⟨b1, b2⟩ := Storage.C10_volume_in_bounds tol mn mx hm s hs ts hrun k hk
  obtain ⟨a, ha, ha'⟩ := hlo
  obtain ⟨b, hb, hb'⟩ := hhi
  unfold volumeValue value
  rw [if_pos hl, C80_defined _ h]
  have key : ∀ a ∈ volumes, ∃ p ∈ volumes.zip values, p.1 = a := by
    intro a ha
    obtain ⟨i, hi, rfl⟩ := List.mem_iff_getElem.1 ha
    exact ⟨(volumes[i], values[i]), List.mem_iff_getElem.2 ⟨i, by simp; omega, by simp⟩, rfl⟩
  obtain ⟨p, hp, rfl⟩ := key a ha
  obtain ⟨q, hq, rfl⟩ := key b hb
  exact ⟨p, hp, q, hq, ha'.trans b1, b2.trans hb'⟩

/-- **C80 fails for flows in the first timestep:** a run starts with a previous flow of zero (`/repo/pywr/_core.pyx:468-473`), so flows that all are positive stop every run in its first
timestep. -/
theorem C80_flow_fails (flows values : List Rat) (h : Function (flows.zip values)) (hpos : ∀ a ∈ flows, 0 < a) (c : NodeRun.Config) (u : Nat → Rat) (i : Nat) :
    flowValue flows values (NodeRun.before (NodeRun.reset c (NodeRun.setup u)) i) = none := by
  have e : (NodeRun.before (NodeRun.reset c (NodeRun.setup u)) i).prevFlow = 0 := by
    show (NodeRun.reset c (NodeRun.setup u) i).prevFlow = 0
    unfold NodeRun.reset NodeRun.resetNode
    split
    · split <;> rfl
    · rfl
  unfold flowValue value
  rw [e]
  split
  · rw [← Option.not_isSome_iff_eq_none, C80_defined _ h]
    rintro ⟨p, hp, q, hq, h1, h2⟩
    have := hpos p.1 (List.of_mem_zip hp).1
    linarith
  · rfl

/-- A table of volumes and levels. -/
example : Function [(0, 10), (50, 30), (20, 20)] ∧ Increasing [(0, 10), (50, 30), (20, 20)] ∧ interp1d [(0, 10), (50, 30), (20, 20)] 35 = some 25 ∧
    Encloses [(0, 10), (50, 30), (20, 20)] (20, 20) (50, 30) 35 ∧ interp1d [(0, 10), (50, 30), (20, 20)] 51 = none := by
  refine ⟨by unfold Function; decide +kernel, by unfold Increasing; decide +kernel, by decide +kernel, by unfold Encloses; decide +kernel, by decide +kernel⟩

end Verif.Interpolation

import Verif.Spec.Aquifer
import Verif.Props.Interpolation
import Verif.Props.RouteLp
import Verif.Props.EdgeLp
import Mathlib.Tactic.Positivity
import Mathlib.Algebra.Order.BigOperators.Group.List
/-! # C81: Keating aquifers -/

namespace Verif.Groundwater

open Verif Verif.Interpolation Verif.Bounds Verif.Lp

private theorem volumeLoop_length (area : Rat) : ∀ (l : List (Rat × Rat)) (v : Rat), (volumeLoop area v l).length = l.length + 1
  | [], _ => rfl
  | (s, h) :: l, v => by simp [volumeLoop, volumeLoop_length area l]

private theorem volumeLoop_get (area : Rat) : ∀ (l : List (Rat × Rat)) (v : Rat) (i : Nat), i ≤ l.length →
    (volumeLoop area v l)[i]? = some (v + ((l.take i).map fun p => area * p.1 * p.2 / 1000).sum)
  | [], v, i, h => by simp at h; subst h; simp [volumeLoop]
  | (s, h) :: l, v, 0, _ => by simp [volumeLoop]
  | (s, h) :: l, v, i + 1, hi => by
    simp only [volumeLoop, List.getElem?_cons_succ]
    rw [volumeLoop_get area l _ i (by simpa using hi)]
    simp only [List.take_succ_cons, List.map_cons, List.sum_cons]
    congr 1; ring

private theorem volumeLoop_above (area : Rat) (ha : 0 < area) : ∀ (l : List (Rat × Rat)) (v : Rat), (∀ p ∈ l, 0 < p.1 ∧ 0 < p.2) →
    (∀ x ∈ volumeLoop area v l, v ≤ x) ∧ (volumeLoop area v l).Pairwise (· < ·)
  | [], v, _ => by simp [volumeLoop]
  | (s, h) :: l, v, hp => by
    obtain ⟨i1, i2⟩ := volumeLoop_above area ha l (v + area * s * h * (1 / 1000)) fun p hp' => hp p (by simp [hp'])
    obtain ⟨p1, p2⟩ := hp (s, h) (by simp)
    have : 0 < area * s * h * (1 / 1000) := by simp only at p1 p2; positivity
    simp only [volumeLoop]
    refine ⟨?_, List.pairwise_cons.2 ⟨fun x hx => by have := i1 x hx; linarith, i2⟩⟩
    intro x hx
    rcases List.mem_cons.1 hx with rfl | hx
    · exact le_refl _
    · have := i1 x hx; linarith

private theorem heights_pos : ∀ (l : List Rat), l.Pairwise (· < ·) → ∀ x ∈ heights l, 0 < x
  | [], _, x, hx => by simp [heights] at hx
  | [a], _, x, hx => by simp [heights] at hx
  | a :: b :: l, h, x, hx => by
    simp only [heights, List.tail_cons, List.zipWith_cons_cons, List.mem_cons] at hx
    obtain ⟨h1, h2⟩ := List.pairwise_cons.1 h
    rcases hx with rfl | hx
    · have := h1 b (by simp); linarith
    · exact heights_pos (b :: l) h2 x (by simpa [heights] using hx)

private theorem heights_length (l : List Rat) : (heights l).length = l.length - 1 := by
  unfold heights; simp

private theorem make_ok {a : Args} {q : Aquifer} (h : make a = .ok q) : 0 < a.streams ∧ a.streamLevels.length = a.streams ∧
    (∀ l ∈ a.streamLevels, l.length = a.transmissivity.length) ∧ a.coefficient = some q.coefficient ∧ volumesOf a = .ok q.volumes ∧ q.levels = a.levels ∧
    q.streams = a.streamLevels.map (fun l => l.zip a.transmissivity) ∧
    ∃ v rest, q.volumes = v :: rest ∧ q.maxVolume = rest.foldl max v ∧ q.minVolume = rest.foldl min v := by
  unfold make at h
  split at h
  · cases h
  rename_i c1
  split at h
  · cases h
  rename_i c2
  split at h
  · cases h
  rename_i c3
  split at h
  · cases h
  rename_i c hc
  split at h
  · cases h
  rename_i vs hvs
  split at h
  · cases h
  rename_i v rest
  injection h with h
  subst h
  refine ⟨Nat.pos_of_ne_zero c1, not_not.1 c2, ?_, hc, hvs, rfl, rfl, v, rest, rfl, rfl, rfl⟩
  intro l hl
  by_contra hne
  exact c3 (List.any_eq_true.2 ⟨l, hl, by simpa using hne⟩)

private theorem volumesOf_ok {a : Args} {vs : List Rat} (h : volumesOf a = .ok vs) : vs.length = a.levels.length ∧
    (∀ v, a.volumes = some v → vs = v) ∧
    (a.volumes = none → ∃ area st, a.area = some area ∧ a.storativity = some st ∧ st.length + 1 = a.levels.length ∧ vs = volumeLoop area 0 (st.zip (heights a.levels))) := by
  unfold volumesOf at h
  split at h
  · rename_i hv
    split at h
    · cases h
    rename_i area ha
    split at h
    · cases h
    rename_i st hst
    split at h
    · cases h
    rename_i c
    rw [not_not] at c
    injection h with h
    subst h
    refine ⟨?_, by simp [hv], fun _ => ⟨area, st, ha, hst, c, rfl⟩⟩
    rw [volumeLoop_length, List.length_zip, heights_length]; omega
  · rename_i v hv
    split at h
    · cases h
    rename_i c
    rw [not_not] at c
    injection h with h
    subst h
    exact ⟨c, fun w hw => by rw [hv] at hw; exact Option.some.inj hw, fun hn => by rw [hv] at hn; cases hn⟩

/-- **C81 (refusals).** An aquifer is created exactly when it has a stream, there is one list of levels for every stream, each as long as the transmissivities, the coefficient is a number, and
there is one volume per level: either the volumes are given, or the area and one storativity for each slice between two levels. -/
theorem C81_accepted (a : Args) : (∃ q, make a = .ok q) ↔ 0 < a.streams ∧ a.streamLevels.length = a.streams ∧
    (∀ l ∈ a.streamLevels, l.length = a.transmissivity.length) ∧ a.coefficient.isSome ∧
    ((∃ v, a.volumes = some v ∧ v.length = a.levels.length ∧ v ≠ []) ∨
     (a.volumes = none ∧ a.area.isSome ∧ ∃ st, a.storativity = some st ∧ st.length + 1 = a.levels.length)) := by
  constructor
  · rintro ⟨q, h⟩
    obtain ⟨h1, h2, h3, h4, h5, h6, h7, v, rest, h8, -⟩ := make_ok h
    obtain ⟨g1, g2, g3⟩ := volumesOf_ok h5
    refine ⟨h1, h2, h3, by rw [h4]; rfl, ?_⟩
    cases hv : a.volumes with
    | some w =>
      left
      have e := g2 w hv
      exact ⟨w, rfl, by rw [← e]; exact g1, by rw [← e, h8]; simp⟩
    | none =>
      right
      obtain ⟨area, st, e1, e2, e3, -⟩ := g3 hv
      exact ⟨rfl, by rw [e1]; rfl, st, e2, e3⟩
  · rintro ⟨h1, h2, h3, h4, h5⟩
    obtain ⟨c, hc⟩ := Option.isSome_iff_exists.1 h4
    obtain ⟨v, rest, hv⟩ : ∃ v rest, volumesOf a = .ok (v :: rest) := by
      unfold volumesOf
      rcases h5 with ⟨w, hw, hl, hne⟩ | ⟨hn, har, st, hst, hl⟩
      · rw [hw]
        cases w with
        | nil => exact absurd rfl hne
        | cons x y => exact ⟨x, y, by simp [hl]⟩
      · obtain ⟨area, har⟩ := Option.isSome_iff_exists.1 har
        rw [hn, har, hst]
        simp only [hl, ne_eq, not_true, if_false]
        cases st.zip (heights a.levels) with
        | nil => exact ⟨_, _, rfl⟩
        | cons p l => exact ⟨_, _, rfl⟩
    refine ⟨⟨a.levels, v :: rest, rest.foldl max v, rest.foldl min v, a.streamLevels.map fun l => l.zip a.transmissivity, c⟩, ?_⟩
    unfold make
    rw [if_neg (by omega), if_neg (by simpa using h2), if_neg ?_]
    · simp only [hc, hv]
    · rw [Bool.not_eq_true, List.any_eq_false]
      intro l hl
      simpa using h3 l hl

/-- **C81 (volumes).** Without given volumes, the volume at the level number `i` is that of the slices below it: area times storativity times height, divided by 1000. -/
theorem C81_volumes (a : Args) (q : Aquifer) (h : make a = .ok q) (hv : a.volumes = none) (i : Nat) (hi : i < a.levels.length) :
    ∃ area st, a.area = some area ∧ a.storativity = some st ∧ q.volumes[i]? = some (sliceVolume area a.levels st i) := by
  obtain ⟨-, -, -, -, h5, -⟩ := make_ok h
  obtain ⟨-, -, g3⟩ := volumesOf_ok h5
  obtain ⟨area, st, e1, e2, e3, e4⟩ := g3 hv
  refine ⟨area, st, e1, e2, ?_⟩
  have hz : (st.zip (heights a.levels)).length = st.length := by rw [List.length_zip, heights_length]; omega
  rw [e4, volumeLoop_get area _ 0 i (by omega), zero_add]
  congr 2
  apply List.ext_getElem?
  intro j
  rw [List.getElem?_map, List.getElem?_map, List.getElem?_take]
  by_cases c : j < i
  · rw [if_pos c, List.getElem?_range c]
    have j1 : j < st.length := by omega
    have hh : (heights a.levels)[j]? = some (a.levels.getD (j + 1) 0 - a.levels.getD j 0) := by
      unfold heights
      rw [List.getElem?_zipWith, List.getElem?_tail, List.getElem?_eq_getElem (by omega), List.getElem?_eq_getElem (by omega),
        List.getD_eq_getElem _ _ (by omega), List.getD_eq_getElem _ _ (by omega)]
    have hzj : (st.zip (heights a.levels))[j]? = some (st.getD j 0, a.levels.getD (j + 1) 0 - a.levels.getD j 0) := by
      rw [List.getElem?_zip_eq_some]
      exact ⟨by rw [List.getD_eq_getElem _ _ j1, List.getElem?_eq_getElem j1], hh⟩
    rw [hzj]; rfl
  · rw [if_neg c, List.getElem?_eq_none (by simpa using c)]; rfl

private theorem zip_function {x y : List Rat} (hl : x.length = y.length) (h2 : 2 ≤ x.length) (hx : x.Pairwise (· < ·)) : Function (x.zip y) := by
  refine ⟨by rw [List.length_zip]; omega, ?_⟩
  rw [List.map_fst_zip (by omega)]
  exact hx.imp fun h => ne_of_lt h

private theorem zip_increasing {x y : List Rat} (hl : x.length = y.length) (hx : x.Pairwise (· < ·)) (hy : y.Pairwise (· < ·)) : Increasing (x.zip y) := by
  intro p hp q hq hpq
  obtain ⟨i, hi, rfl⟩ := List.mem_iff_getElem.1 hp
  obtain ⟨j, hj, rfl⟩ := List.mem_iff_getElem.1 hq
  rw [List.length_zip] at hi hj
  simp only [List.getElem_zip] at hpq ⊢
  have : i < j := by
    by_contra c
    rcases Nat.lt_or_ge j i with c' | c'
    · have := List.pairwise_iff_getElem.1 hx j i (by omega) (by omega) c'
      linarith
    · have : i = j := by omega
      subst this; exact lt_irrefl _ hpq
  exact List.pairwise_iff_getElem.1 hy i j (by omega) (by omega) this

private theorem proper_volumes {a : Args} {q : Aquifer} (h : Proper a q) : q.volumes.Pairwise (· < ·) ∧ q.volumes.length = q.levels.length ∧ q.levels = a.levels := by
  obtain ⟨-, -, -, -, h5, h6, -⟩ := make_ok h.made
  obtain ⟨g1, g2, g3⟩ := volumesOf_ok h5
  refine ⟨?_, by rw [h6, g1], h6⟩
  have hv := h.volumes
  cases c : a.volumes with
  | some v => rw [c] at hv; rw [g2 v c]; exact hv
  | none =>
    rw [c] at hv
    obtain ⟨area, st, e1, e2, e3, e4⟩ := g3 c
    rw [e4]
    refine (volumeLoop_above area (hv.1 area e1) _ 0 ?_).2
    intro p hp
    exact ⟨hv.2 st e2 p.1 (List.of_mem_zip hp).1, heights_pos _ h.levels p.2 (List.of_mem_zip hp).2⟩

private theorem swap_zip (x y : List Rat) : (x.zip y).map Prod.swap = y.zip x := by
  rw [List.zip_swap]

/-- **C81 (initial level).** Setting the initial level to a number between the lowest and the highest level sets the initial volume to the volume with that level: a run then starts at that
level, and reading the initial level after the model has been set up gives the number back.  Any other number is refused. -/
theorem C81_initial_level (a : Args) (q : Aquifer) (h : Proper a q) (level : Rat) :
    ((∃ lo ∈ a.levels, ∃ hi ∈ a.levels, lo ≤ level ∧ level ≤ hi) → ∃ v, q.setInitialLevel level = .ok v ∧ q.level v = some level ∧
      q.initialLevel true (some v) = .ok (some level) ∧ Storage.getInitialVolume ⟨some v, none, .number q.maxVolume⟩ = .ok v) ∧
    ((¬ ∃ lo ∈ a.levels, ∃ hi ∈ a.levels, lo ≤ level ∧ level ≤ hi) → q.setInitialLevel level = .error .valueError) := by
  obtain ⟨hp, hl, he⟩ := proper_volumes h
  have hlv : q.levels.Pairwise (· < ·) := he ▸ h.levels
  have h2 : 2 ≤ q.levels.length := he ▸ h.two
  have hf := zip_function hl.symm h2 hlv
  have hi := zip_increasing hl.symm hlv hp
  have hval : value q.levels q.volumes level = interp1d (q.levels.zip q.volumes) level := by unfold value; rw [if_pos hl.symm]
  have hd : (interp1d (q.levels.zip q.volumes) level).isSome ↔ ∃ lo ∈ a.levels, ∃ hi ∈ a.levels, lo ≤ level ∧ level ≤ hi := by
    rw [C80_defined _ hf, ← he]
    have key : ∀ x ∈ q.levels, ∃ p ∈ q.levels.zip q.volumes, p.1 = x := by
      intro x hx
      obtain ⟨i, hi, rfl⟩ := List.mem_iff_getElem.1 hx
      exact ⟨(q.levels[i], q.volumes[i]), List.mem_iff_getElem.2 ⟨i, by simp; omega, by simp⟩, rfl⟩
    constructor
    · rintro ⟨p, hp, r, hr, h1, h2⟩
      exact ⟨p.1, (List.of_mem_zip hp).1, r.1, (List.of_mem_zip hr).1, h1, h2⟩
    · rintro ⟨x, hx, y, hy, h1, h2⟩
      obtain ⟨p, hp, rfl⟩ := key x hx
      obtain ⟨r, hr, rfl⟩ := key y hy
      exact ⟨p, hp, r, hr, h1, h2⟩
  constructor
  · intro hr
    obtain ⟨v, hv⟩ := Option.isSome_iff_exists.1 (hd.2 hr)
    have hinv := C80_inverse _ hf hi level v hv
    rw [swap_zip] at hinv
    have hlev : q.level v = some level := by unfold Aquifer.level value; rw [if_pos hl, hinv]
    refine ⟨v, ?_, hlev, ?_, rfl⟩
    · unfold Aquifer.setInitialLevel; rw [hval, hv]
    · unfold Aquifer.initialLevel; rw [if_pos rfl]; simp only [hlev]
  · intro hr
    have : interp1d (q.levels.zip q.volumes) level = none := by
      rw [← Option.not_isSome_iff_eq_none, hd]; exact hr
    unfold Aquifer.setInitialLevel; rw [hval, this]

private theorem streamLoop_eq (c level : Rat) : ∀ (l : List (Rat × Rat)) (q : Rat), streamLoop c level q l = q + streamFlow c l level
  | [], q => by simp [streamLoop, streamFlow]
  | (x, t) :: l, q => by
    simp only [streamLoop, streamFlow, List.map_cons, List.sum_cons]
    rw [streamLoop_eq c level l]
    by_cases h : level > x
    · rw [if_pos h, max_eq_right (by linarith)]; unfold streamFlow; ring
    · rw [if_neg h, max_eq_left (by linarith)]; unfold streamFlow; ring

/-- **C81 (stream flow).** The flow of a stream is Keating's sum for the level that belongs to the volume at the start of the timestep. -/
theorem C81_stream (a : Args) (q : Aquifer) (h : make a = .ok q) (n : Nat) (outlets : List Rat) (hn : a.streamLevels[n]? = some outlets) (c : Rat)
    (hc : a.coefficient = some c) (volume : Rat) :
    q.stream n volume = (q.level volume).map fun level => streamFlow c (outlets.zip a.transmissivity) level := by
  obtain ⟨-, -, -, h4, -, -, h7, -⟩ := make_ok h
  rw [hc] at h4
  have := Option.some.inj h4
  unfold Aquifer.stream
  cases q.level volume with
  | none => rfl
  | some level =>
    simp only [Option.bind_some, Option.map_some]
    rw [h7, List.getElem?_map, hn]
    simp only [Option.map_some]
    rw [streamLoop_eq, zero_add, this]

/-- **C81 (dry).** A stream is dry exactly when the level is not above any of its outlets (with positive transmissivities and coefficient). -/
theorem C81_dry (c : Rat) (hc : 0 < c) (outlets : List (Rat × Rat)) (ht : ∀ o ∈ outlets, 0 < o.2) (level : Rat) :
    0 ≤ streamFlow c outlets level ∧ (streamFlow c outlets level = 0 ↔ ∀ o ∈ outlets, level ≤ o.1) := by
  have hn : ∀ x ∈ outlets.map (fun o => 2 * o.2 * c * max 0 (level - o.1)), 0 ≤ x := by
    intro x hx
    obtain ⟨o, ho, rfl⟩ := List.mem_map.1 hx
    have := ht o ho
    positivity
  refine ⟨List.sum_nonneg hn, ?_⟩
  constructor
  · intro h o ho
    by_contra hlt
    have hz := List.all_zero_of_le_zero_le_of_sum_eq_zero hn h (List.mem_map_of_mem (f := fun o : Rat × Rat => 2 * o.2 * c * max 0 (level - o.1)) ho)
    have h1 := ht o ho
    have h2 : 0 < max 0 (level - o.1) := lt_max_of_lt_right (by linarith)
    have : 0 < 2 * o.2 * c * max 0 (level - o.1) := by positivity
    linarith
  · intro h
    unfold streamFlow
    apply List.sum_eq_zero
    intro x hx
    obtain ⟨o, ho, rfl⟩ := List.mem_map.1 hx
    rw [max_eq_left (by have := h o ho; linarith), mul_zero]

private theorem streamFlow_mono (c : Rat) (hc : 0 ≤ c) : ∀ (outlets : List (Rat × Rat)), (∀ o ∈ outlets, 0 ≤ o.2) → ∀ (l l' : Rat), l ≤ l' →
    streamFlow c outlets l ≤ streamFlow c outlets l'
  | [], _, _, _, _ => by simp [streamFlow]
  | o :: os, ht, l, l', h => by
    have ih := streamFlow_mono c hc os (fun x hx => ht x (by simp [hx])) l l' h
    unfold streamFlow at ih ⊢
    simp only [List.map_cons, List.sum_cons]
    have h1 := ht o (by simp)
    have h2 : max 0 (l - o.1) ≤ max 0 (l' - o.1) := max_le_max (le_refl _) (by linarith)
    have h3 := mul_le_mul_of_nonneg_left h2 (by positivity : 0 ≤ 2 * o.2 * c)
    linarith

/-- **C81 (more water, more flow).** The flow of a stream never decreases when the volume of the aquifer increases. -/
theorem C81_monotone (a : Args) (q : Aquifer) (h : Proper a q) (c : Rat) (hc : a.coefficient = some c) (hc0 : 0 ≤ c) (ht : ∀ t ∈ a.transmissivity, 0 ≤ t)
    (n : Nat) (hn : n < a.streams) (u v : Rat) (huv : u ≤ v) (x y : Rat) (hx : q.stream n u = some x) (hy : q.stream n v = some y) : x ≤ y := by
  obtain ⟨hp, hl, he⟩ := proper_volumes h
  have hlv : q.levels.Pairwise (· < ·) := he ▸ h.levels
  have h2 : 2 ≤ q.volumes.length := by rw [hl]; exact he ▸ h.two
  obtain ⟨-, g2, -⟩ := make_ok h.made
  obtain ⟨outlets, ho⟩ : ∃ o, a.streamLevels[n]? = some o := ⟨_, List.getElem?_eq_getElem (by omega)⟩
  rw [C81_stream a q h.made n outlets ho c hc] at hx hy
  obtain ⟨l1, hl1, rfl⟩ := Option.map_eq_some_iff.1 hx
  obtain ⟨l2, hl2, rfl⟩ := Option.map_eq_some_iff.1 hy
  apply streamFlow_mono c hc0
  · intro o ho'
    exact ht _ (List.of_mem_zip ho').2
  · rcases huv.eq_or_lt with e | hlt
    · rw [e, hl2] at hl1; exact (Option.some.inj hl1).ge
    · unfold Aquifer.level value at hl1 hl2
      rw [if_pos hl] at hl1 hl2
      exact (C80_monotone _ (zip_function hl h2 hp) (zip_increasing hl hp hlv) u v l1 l2 hl1 hl2 hlt).le

private theorem foldl_max_mem : ∀ (l : List Rat) (v : Rat), l.foldl max v ∈ v :: l ∧ ∀ x ∈ v :: l, x ≤ l.foldl max v
  | [], v => by simp
  | a :: l, v => by
    obtain ⟨h1, h2⟩ := foldl_max_mem l (max v a)
    simp only [List.foldl_cons]
    refine ⟨?_, ?_⟩
    · rcases List.mem_cons.1 h1 with e | h
      · rcases max_choice v a with c | c <;> rw [e, c] <;> simp
      · simp [h]
    · intro x hx
      have h3 := h2 (max v a) (by simp)
      rcases List.mem_cons.1 hx with rfl | hx
      · exact (le_max_left _ _).trans h3
      · rcases List.mem_cons.1 hx with rfl | hx
        · exact (le_max_right _ _).trans h3
        · exact h2 x (by simp [hx])

private theorem foldl_min_mem : ∀ (l : List Rat) (v : Rat), l.foldl min v ∈ v :: l ∧ ∀ x ∈ v :: l, l.foldl min v ≤ x
  | [], v => by simp
  | a :: l, v => by
    obtain ⟨h1, h2⟩ := foldl_min_mem l (min v a)
    simp only [List.foldl_cons]
    refine ⟨?_, ?_⟩
    · rcases List.mem_cons.1 h1 with e | h
      · rcases min_choice v a with c | c <;> rw [e, c] <;> simp
      · simp [h]
    · intro x hx
      have h3 := h2 (min v a) (by simp)
      rcases List.mem_cons.1 hx with rfl | hx
      · exact h3.trans (min_le_left _ _)
      · rcases List.mem_cons.1 hx with rfl | hx
        · exact h3.trans (min_le_right _ _)
        · exact h2 x (by simp [hx])

/-- **C81 (the level exists throughout a run).** In every run that starts within the volume limits and whose solutions respect the storage's constraint, every stream has a flow in every
timestep: the interpolation never fails. -/
theorem C81_run (a : Args) (q : Aquifer) (h : Proper a q) (tol : Rat) (s : Storage.State) (hs : q.minVolume ≤ s.volume ∧ s.volume ≤ q.maxVolume)
    (ts : List Storage.Step) (hrun : Storage.FeasibleRun tol q.minVolume q.maxVolume s ts) (k : Nat) (hk : k ≤ ts.length) (n : Nat) (hn : n < a.streams) :
    ∃ level flow, q.level (s.run (ts.take k)).volume = some level ∧ q.stream n (s.run (ts.take k)).volume = some flow := by
  obtain ⟨hp, hl, he⟩ := proper_volumes h
  have h2 : 2 ≤ q.volumes.length := by rw [hl]; exact he ▸ h.two
  obtain ⟨-, g2, -, -, -, -, h7, v, rest, g8, g9, g10⟩ := make_ok h.made
  obtain ⟨m1, m2⟩ := foldl_max_mem rest v
  obtain ⟨m3, m4⟩ := foldl_min_mem rest v
  rw [← g9, ← g8] at m1 m2
  rw [← g10, ← g8] at m3 m4
  have := C80_volume q.volumes q.levels hl (zip_function hl h2 hp) tol q.minVolume q.maxVolume (m4 _ m1) ⟨_, m3, le_refl _⟩ ⟨_, m1, le_refl _⟩ s hs ts hrun k hk
  obtain ⟨level, hlev⟩ := Option.isSome_iff_exists.1 this
  have hlev' : q.level (s.run (ts.take k)).volume = some level := hlev
  refine ⟨level, streamLoop q.coefficient level 0 (q.streams[n]'(by rw [h7]; simp; omega)), hlev', ?_⟩
  unfold Aquifer.stream
  rw [hlev', Option.bind_some, List.getElem?_eq_getElem (by rw [h7]; simp; omega), Option.map_some]

private theorem fixed {q x : Rat} (h : Limited (.fin q) (.fin q) x) : x = if |q| < e8 then 0 else q := by
  obtain ⟨h1, h2⟩ := C22_between q q x (le_refl _) h
  unfold F.effective at h1 h2
  by_cases c : |q| < e8
  · simp only [c, if_true] at h1 h2 ⊢; exact le_antisymm h2 h1
  · simp only [c, if_false] at h1 h2 ⊢; exact le_antisymm h2 h1

/-- **C81 (the stream takes that flow).** The stream's node has the Keating flow as its minimum and as its maximum; every solution admitted by the constraints of the route solver lets exactly that much
water out of the aquifer (flows below 1e-8 are cut to zero). -/
theorem C81_forced_route (d : Data) (routes : List (List Nat)) (hw : WellRouted d routes) (x : List Rat) (hx : RouteFeasible d routes x) (n : Nat)
    (hn : n ∈ d.nodes) (hk : d.kind n = .input) (q : Aquifer) (stream : Nat) (volume flow : Rat) (hq : q.stream stream volume = some flow) (ho : OrdinaryDouble flow)
    (hmin : (q.stream stream volume).map F.fin = some (d.minFlow n)) (hmax : (q.stream stream volume).map F.fin = some (d.maxFlow n)) :
    routeNodeFlow d routes x n = if |flow| < e8 then 0 else flow := by
  rw [hq] at hmin hmax
  have e1 : F.fin flow = d.minFlow n := Option.some.inj hmin
  have e2 : F.fin flow = d.maxFlow n := Option.some.inj hmax
  have := C22_route d routes hw x hx n hn (by rw [hk]; decide) (Or.inr ⟨flow, e1.symm, ho⟩) (Or.inr ⟨flow, e2.symm, ho⟩)
  rw [← e1, ← e2] at this
  exact fixed this

/-- **C81 (the stream takes that flow, edge solver, one domain).** -/
theorem C81_forced_edge_partial (d : Data) (g : Graph) (h1 : OneDomain d g) (y : List Rat) (hy : EdgeFeasible d g y) (n : Nat)
    (hn : n ∈ d.nodes) (hk : d.kind n = .input) (q : Aquifer) (stream : Nat) (volume flow : Rat) (hq : q.stream stream volume = some flow) (ho : OrdinaryDouble flow)
    (hmin : (q.stream stream volume).map F.fin = some (d.minFlow n)) (hmax : (q.stream stream volume).map F.fin = some (d.maxFlow n)) :
    edgeNodeFlow d g y n = if |flow| < e8 then 0 else flow := by
  rw [hq] at hmin hmax
  have e1 : F.fin flow = d.minFlow n := Option.some.inj hmin
  have e2 : F.fin flow = d.maxFlow n := Option.some.inj hmax
  have := C22_edge_partial d g h1 y hy n hn (by rw [hk]; decide) (Or.inr ⟨flow, e1.symm, ho⟩) (Or.inr ⟨flow, e2.symm, ho⟩)
  rw [← e1, ← e2] at this
  exact fixed this

/-- Three levels, two slices with different storativity, two streams. -/
def sample : Args := ⟨2, [[10, 25], [20, 20]], [1, 3], some (1 / 2), [0, 20, 30], none, some 10000, some [1 / 10, 1 / 20]⟩

/-- The aquifer made from it. -/
def sampleAquifer : Aquifer := ⟨[0, 20, 30], [0, 20, 25], 25, 0, [[(10, 1), (25, 3)], [(20, 1), (20, 3)]], 1 / 2⟩

theorem sample_proper : Proper sample sampleAquifer :=
  ⟨by
    have : volumeLoop 10000 0 ([1 / 10, 1 / 20].zip (heights [0, 20, 30])) = [0, 20, 25] := by decide +kernel
    have hv : volumesOf sample = .ok [0, 20, 25] := by
      unfold volumesOf sample
      simp only [List.length_cons, List.length_nil, this]
      rfl
    unfold make
    rw [hv]
    have m1 : [(20 : Rat), 25].foldl max 0 = 25 := by decide +kernel
    have m2 : [(20 : Rat), 25].foldl min 0 = 0 := by decide +kernel
    simp only [m1, m2]
    rfl, by decide +kernel, by decide +kernel,
    ⟨fun area h => by cases h; decide +kernel, fun st h => by cases h; decide +kernel⟩⟩

/-- Level 10 has volume 10; at volume 25 (level 30) the first stream takes `2·1·½·20 + 2·3·½·5 = 35`. -/
example : sampleAquifer.stream 0 25 = some 35 ∧ sampleAquifer.stream 0 10 = some 0 ∧ (sampleAquifer.setInitialLevel 10).toOption = some 10 := by decide +kernel

/-- The first stream of the sample at volume 25, flowing to a demand: the only admitted solution carries 35. -/
def sampleData : Data :=
  ⟨fun n => match n with | 0 => .input | 1 => .output | _ => .other, [0, 1], fun n => if n = 0 then .fin 35 else .fin 0,
    fun n => if n = 0 then .fin 35 else .posInf, fun _ => 0, [⟨[0], [], 25, 25, 0⟩], [], [], [], 1 / 2⟩

example : WellRouted sampleData [[0, 1]] ∧ RouteFeasible sampleData [[0, 1]] [35] ∧ OneDomain sampleData ⟨[(0, 1)], fun _ => 0⟩ ∧
    EdgeFeasible sampleData ⟨[(0, 1)], fun _ => 0⟩ [35] ∧ OrdinaryDouble 35 ∧ (sampleAquifer.stream 0 25).map F.fin = some (sampleData.minFlow 0) ∧
    (sampleAquifer.stream 0 25).map F.fin = some (sampleData.maxFlow 0) := by
  refine ⟨by decide +kernel, by decide +kernel, by decide +kernel, by decide +kernel, ?_, by decide +kernel, by decide +kernel⟩
  unfold OrdinaryDouble; decide +kernel

/-- A run of the sample: one stream lets 35 out for half a day, from volume 25. -/
example : Storage.FeasibleRun 0 sampleAquifer.minVolume sampleAquifer.maxVolume ⟨25, 0, 0, some 1⟩ [⟨1 / 2, 25, 0, [.fromStore 35]⟩] := by
  refine ⟨rfl, rfl, by decide +kernel, by decide +kernel, by decide +kernel, ⟨-35, ?_, by decide +kernel⟩, trivial⟩
  decide +kernel

/-- **C81 fails when a fraction was given:** an aquifer created with `initial_volume_pc` ignores a later `initial_level` — the fraction wins (`/repo/pywr/_core.pyx:1143-1149`).
Here the level is set to 20 (volume 20 of 25), but the run starts with the fraction 1/5, at volume 5 and level 5. -/
theorem C81_fraction_fails : ∃ a q, Proper a q ∧ (q.setInitialLevel 20).toOption = some 20 ∧
    (Storage.getInitialVolume ⟨some 20, some (1 / 5), .number q.maxVolume⟩).toOption = some 5 ∧ q.level 5 = some 5 :=
  ⟨sample, sampleAquifer, sample_proper, by decide +kernel, by decide +kernel, by decide +kernel⟩

/-- **C81 fails before the model is set up:** reading `initial_level` of any aquifer is a `TypeError` (the interpolator does not exist yet, `/repo/pywr/parameters/parameters.py:129`). -/
theorem C81_early_fails (q : Aquifer) (v : Option Rat) : q.initialLevel false v = .error .typeError := rfl

end Verif.Groundwater

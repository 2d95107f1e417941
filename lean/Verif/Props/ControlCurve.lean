import Verif.Model.ControlCurve
import Mathlib.Tactic.Linarith
import Mathlib.Tactic.Ring
import Mathlib.Tactic.FieldSimp
import Mathlib.Data.List.GetD
import Mathlib.Algebra.Order.Field.Basic
/-! # C30 (control curve index) and C31 (interpolated control curves) -/

namespace Verif.ControlCurve

/-! ## C30 -/

private theorem indexLoop_spec (pc : Rat) : ∀ (curves : List Rat) (j n : Nat), n = j + curves.length →
    j ≤ indexLoop pc n j curves ∧ indexLoop pc n j curves ≤ n ∧
    (∀ (i : Nat) (h : i < curves.length), j + i < indexLoop pc n j curves → pc < curves[i]) ∧
    (∀ (i : Nat) (h : i < curves.length), indexLoop pc n j curves = j + i → curves[i] ≤ pc)
  | [], j, n, hn => by simp [indexLoop]; simp at hn; omega
  | cc :: rest, j, n, hn => by
    simp only [List.length_cons] at hn
    unfold indexLoop
    by_cases h : pc ≥ cc
    · simp only [h, if_true]
      refine ⟨le_refl _, by omega, fun i _ hi => by omega, fun i hi he => ?_⟩
      have : i = 0 := by omega
      subst this; simpa using h
    · simp only [h, if_false]
      obtain ⟨h1, h2, h3, h4⟩ := indexLoop_spec pc rest (j + 1) n (by omega)
      refine ⟨by omega, h2, fun i hi hlt => ?_, fun i hi he => ?_⟩
      · cases i with
        | zero => simpa using h
        | succ i => simpa using h3 i (by simpa using hi) (by omega)
      · cases i with
        | zero => omega
        | succ i => simpa using h4 i (by simpa using hi) (by omega)

/-- **C30 (first curve).** The index is the position of the first curve the storage is at or above, and the number of curves when it is below all. -/
theorem C30_first (pc : Rat) (curves : List Rat) (i : Nat) :
    index pc curves = i ↔ i ≤ curves.length ∧ (∀ (k : Nat) (h : k < curves.length), k < i → pc < curves[k]) ∧
      (∀ h : i < curves.length, curves[i] ≤ pc) := by
  obtain ⟨-, h2, h3, h4⟩ := indexLoop_spec pc curves 0 curves.length (by simp)
  constructor
  · rintro rfl
    exact ⟨h2, fun k hk hlt => h3 k hk (by simpa [index] using hlt), fun h => h4 _ h (by simp [index])⟩
  · rintro ⟨a, b, c⟩
    unfold index
    rcases lt_trichotomy (indexLoop pc curves.length 0 curves) i with h | h | h
    · have hlt : indexLoop pc curves.length 0 curves < curves.length := by omega
      have x := h4 _ hlt (by simp)
      have y := b _ hlt h
      linarith
    · exact h
    · have hlt : i < curves.length := by omega
      have x := c hlt
      have y := h3 i hlt (by simpa using h)
      linarith

/-- **C30 (monotone).** The index never decreases as the storage falls, whatever the curves. -/
theorem C30_monotone (pc pc' : Rat) (h : pc ≤ pc') (curves : List Rat) : index pc' curves ≤ index pc curves := by
  obtain ⟨a, b, c⟩ := (C30_first pc curves _).1 rfl
  obtain ⟨a', b', c'⟩ := (C30_first pc' curves _).1 rfl
  by_contra hlt
  push Not at hlt
  have hl : index pc curves < curves.length := by omega
  have x := b' _ hl hlt
  have y := c hl
  linarith

/-- **C30 (count).** With curves in descending order the index is the number of curves the storage is below. -/
theorem C30_count (pc : Rat) (curves : List Rat) (hd : curves.Pairwise (· ≥ ·)) :
    index pc curves = (curves.filter fun cc => decide (pc < cc)).length := by
  have key : ∀ (curves : List Rat) (j n : Nat), n = j + curves.length → curves.Pairwise (· ≥ ·) →
      indexLoop pc n j curves = j + (curves.filter fun cc => decide (pc < cc)).length := by
    intro curves
    induction curves with
    | nil => intro j n hn _; simp [indexLoop]; simpa using hn
    | cons cc rest ih =>
      intro j n hn hp
      rw [List.pairwise_cons] at hp
      simp only [List.length_cons] at hn
      unfold indexLoop
      by_cases h : pc ≥ cc
      · simp only [h, if_true]
        have : (cc :: rest).filter (fun cc => decide (pc < cc)) = [] := by
          rw [List.filter_eq_nil_iff]
          intro x hx
          have : x ≤ cc := by
            rcases List.mem_cons.1 hx with rfl | hx
            · exact le_refl _
            · exact hp.1 x hx
          simp only [decide_eq_true_eq, not_lt]; linarith
        rw [this]; simp
      · simp only [h, if_false]
        rw [ih (j + 1) n (by omega) hp.2, List.filter_cons_of_pos (by simpa using h)]
        simp; omega
  simpa [index] using key curves 0 curves.length (by simp) hd

/-- **C30 (value).** The control curve value is the value at the position given by the index. -/
theorem C30_value (pc : Rat) (curves values : List Rat) (hl : values.length = curves.length + 1) :
    value pc curves values = values.getD (index pc curves) 0 := by
  have key : ∀ (curves : List Rat) (j : Nat), values.length = j + curves.length + 1 →
      valueLoop pc values j curves = values.getD (indexLoop pc (j + curves.length) j curves) 0 := by
    intro curves
    induction curves with
    | nil =>
      intro j hj
      simp only [valueLoop, indexLoop, List.length_nil, Nat.add_zero] at hj ⊢
      rw [List.getLastD_eq_getLast?, List.getLast?_eq_getElem?, hj]
      simp [List.getD]
    | cons cc rest ih =>
      intro j hj
      simp only [List.length_cons] at hj
      unfold valueLoop indexLoop
      split
      · rfl
      · rw [ih (j + 1) (by omega)]
        simp only [List.length_cons]
        congr 2; omega
  simpa [value, index] using key curves 0 (by omega)

/-- Three levels. -/
example : index (2/5) [4/5, 2/5, 1/5] = 1 ∧ index (1/10) [4/5, 2/5, 1/5] = 3 ∧ value (3/10) [4/5, 2/5, 1/5] [10, 20, 30, 40] = 30 := by decide +kernel

/-! ## C31 -/

private theorem getD_last2 (values : List Rat) (j : Nat) (h : values.length = j + 2) :
    values.getD (values.length - 2) 0 = values.getD j 0 ∧ values.getD (values.length - 1) 0 = values.getD (j + 1) 0 := by
  rw [h]; exact ⟨rfl, rfl⟩

/-- **C31 (no extrapolation).** For every storage fraction between 0 and 1 and any curves at all, the value is a weighted mean (weights in [0,1]) of two
neighbouring entries; so it lies between them. -/
theorem C31_between (pc : Rat) (h0 : 0 ≤ pc) (h1 : pc ≤ 1) (curves values : List Rat) (hl : values.length = curves.length + 2) :
    ∃ j w, j ≤ curves.length ∧ 0 ≤ w ∧ w ≤ 1 ∧
      interpolated pc curves values = values.getD j 0 * w + values.getD (j + 1) 0 * (1 - w) := by
  have weight : ∀ a b : Rat, a ≤ pc → pc ≤ b → b - a ≠ 0 → 0 ≤ (pc - a) / (b - a) ∧ (pc - a) / (b - a) ≤ 1 := by
    intro a b ha hb hne
    have hpos : 0 < b - a := lt_of_le_of_ne (by linarith) (Ne.symm hne)
    exact ⟨div_nonneg (by linarith) hpos.le, by rw [div_le_one hpos]; linarith⟩
  have key : ∀ (curves : List Rat) (j : Nat) (prev : Rat), values.length = j + curves.length + 2 → pc ≤ prev →
      ∃ k w, k ≤ j + curves.length ∧ 0 ≤ w ∧ w ≤ 1 ∧
        interpolatedLoop pc values prev j curves = values.getD k 0 * w + values.getD (k + 1) 0 * (1 - w) := by
    intro curves
    induction curves with
    | nil =>
      intro j prev hj hp
      obtain ⟨e1, e2⟩ := getD_last2 values j (by simpa using hj)
      unfold interpolatedLoop
      by_cases hz : prev - 0 = 0
      · rw [if_pos hz, e1]
        exact ⟨j, 1, by simp, by norm_num, le_refl _, by ring⟩
      · rw [if_neg hz]
        simp only [e1, e2]
        obtain ⟨a, b⟩ := weight 0 prev h0 hp hz
        exact ⟨j, _, by simp, a, b, rfl⟩
    | cons cc rest ih =>
      intro j prev hj hp
      simp only [List.length_cons] at hj ⊢
      unfold interpolatedLoop
      by_cases h : pc ≥ cc
      · rw [if_pos h]
        by_cases hz : prev - cc = 0
        · rw [if_pos hz]
          exact ⟨j, 0, by omega, le_refl _, by norm_num, by ring⟩
        · rw [if_neg hz]
          obtain ⟨a, b⟩ := weight cc prev h hp hz
          exact ⟨j, _, by omega, a, b, rfl⟩
      · rw [if_neg h]
        obtain ⟨k, w, a, b, c, d⟩ := ih (j + 1) cc (by omega) (by linarith)
        exact ⟨k, w, by omega, b, c, d⟩
  simpa [interpolated] using key curves 0 1 (by omega) h1

/-- **C31 (range).** The value is within any range containing all values. -/
theorem C31_range (pc : Rat) (h0 : 0 ≤ pc) (h1 : pc ≤ 1) (curves values : List Rat) (hl : values.length = curves.length + 2)
    (lo hi : Rat) (hb : ∀ v ∈ values, lo ≤ v ∧ v ≤ hi) : lo ≤ interpolated pc curves values ∧ interpolated pc curves values ≤ hi := by
  obtain ⟨j, w, hj, hw0, hw1, e⟩ := C31_between pc h0 h1 curves values hl
  have m : ∀ k, k < values.length → values.getD k 0 ∈ values := by
    intro k hk
    rw [List.getD_eq_getElem values 0 hk]
    exact List.getElem_mem _
  obtain ⟨a1, a2⟩ := hb _ (m j (by omega))
  obtain ⟨b1, b2⟩ := hb _ (m (j + 1) (by omega))
  rw [e]
  have c := sub_nonneg.2 hw1
  constructor <;> nlinarith

/-- **C31 (linear).** With strictly descending curves between 1 and 0, between two neighbouring levels (both included) the value is the linear interpolation of the
values listed for these levels. In particular it is the listed value at every curve, the first value at 100 % and the last value at 0. -/
theorem C31_linear (pc : Rat) (curves values : List Rat) (hl : values.length = curves.length + 2)
    (hs : (1 :: curves ++ [0]).Pairwise (· > ·)) (k : Nat) (hk : k ≤ curves.length)
    (hlo : (1 :: curves ++ [0]).getD (k + 1) 0 ≤ pc) (hhi : pc ≤ (1 :: curves ++ [0]).getD k 0) :
    interpolated pc curves values =
      values.getD (k + 1) 0 + (values.getD k 0 - values.getD (k + 1) 0) * ((pc - (1 :: curves ++ [0]).getD (k + 1) 0) /
        ((1 :: curves ++ [0]).getD k 0 - (1 :: curves ++ [0]).getD (k + 1) 0)) := by
  have key : ∀ (curves : List Rat) (j k : Nat) (prev : Rat), values.length = j + curves.length + 2 →
      (prev :: curves ++ [0]).Pairwise (· > ·) → k ≤ curves.length →
      (prev :: curves ++ [0]).getD (k + 1) 0 ≤ pc → pc ≤ (prev :: curves ++ [0]).getD k 0 →
      interpolatedLoop pc values prev j curves =
        values.getD (j + k + 1) 0 + (values.getD (j + k) 0 - values.getD (j + k + 1) 0) * ((pc - (prev :: curves ++ [0]).getD (k + 1) 0) /
        ((prev :: curves ++ [0]).getD k 0 - (prev :: curves ++ [0]).getD (k + 1) 0)) := by
    intro curves
    induction curves with
    | nil =>
      intro j k prev hj hs hk hlo hhi
      have : k = 0 := by simpa using hk
      subst this
      simp at hs hlo hhi
      obtain ⟨e1, e2⟩ := getD_last2 values j (by simpa using hj)
      unfold interpolatedLoop
      rw [if_neg (by linarith)]
      simp only [e1, e2, List.cons_append, List.nil_append, List.getD_cons_zero, List.getD_cons_succ, Nat.add_zero, Nat.zero_add]
      ring
    | cons cc rest ih =>
      intro j k prev hj hs hk hlo hhi
      have hpc : prev > cc := by
        rw [List.cons_append, List.pairwise_cons] at hs
        exact hs.1 cc (by simp)
      have hs' : (cc :: rest ++ [0]).Pairwise (· > ·) := by
        rw [List.cons_append, List.pairwise_cons] at hs
        exact hs.2
      simp only [List.length_cons] at hj hk
      cases k with
      | zero =>
        simp only [List.cons_append, List.getD_cons_zero, List.getD_cons_succ, Nat.zero_add, Nat.add_zero] at hlo hhi ⊢
        unfold interpolatedLoop
        rw [if_pos hlo, if_neg (by linarith)]
        ring
      | succ k =>
        simp only [List.cons_append, List.getD_cons_succ] at hlo hhi ⊢
        have hle : pc ≤ cc := by
          refine le_trans hhi ?_
          cases k with
          | zero => simp
          | succ k =>
            rw [List.cons_append, List.pairwise_cons] at hs'
            simp only [List.getD_cons_succ]
            have hlt : k < (rest ++ [0]).length := by simp; omega
            rw [List.getD_eq_getElem _ _ hlt]
            exact (hs'.1 _ (List.getElem_mem hlt)).le
        unfold interpolatedLoop
        by_cases h : pc ≥ cc
        · -- exactly at the curve: `k = 0`
          have hpe : pc = cc := le_antisymm hle h
          have hk0 : k = 0 := by
            cases k with
            | zero => rfl
            | succ k =>
              exfalso
              rw [List.cons_append, List.pairwise_cons] at hs'
              simp only [List.getD_cons_succ] at hhi
              have hlt : k < (rest ++ [0]).length := by simp; omega
              rw [List.getD_eq_getElem _ _ hlt] at hhi
              have := hs'.1 _ (List.getElem_mem hlt)
              linarith
          subst hk0
          rw [if_pos h, if_neg (by linarith)]
          simp only [List.getD_cons_zero] at hhi ⊢
          have hne : cc - (rest ++ [0]).getD 0 0 ≠ 0 := by
            rw [List.cons_append, List.pairwise_cons] at hs'
            have hlt : 0 < (rest ++ [0]).length := by simp
            rw [List.getD_eq_getElem _ _ hlt]
            have := hs'.1 _ (List.getElem_mem hlt)
            intro h; linarith
          subst hpe
          rw [div_self hne, sub_self, zero_div]
          simp only [Nat.zero_add]
          ring
        · rw [if_neg h, ih (j + 1) k cc (by omega) hs' (by omega) hlo hhi]
          have e1 : j + 1 + k = j + (k + 1) := by omega
          rw [e1]
          simp only [List.cons_append, List.getD_cons_succ]
  simpa [interpolated] using key curves 0 k 1 (by omega) hs hk hlo hhi

/-- **C31 (at the curves).** With strictly descending curves between 1 and 0 the value at every level is the value listed for it. -/
theorem C31_at_levels (curves values : List Rat) (hl : values.length = curves.length + 2)
    (hs : (1 :: curves ++ [0]).Pairwise (· > ·)) (k : Nat) (hk : k ≤ curves.length + 1) :
    interpolated ((1 :: curves ++ [0]).getD k 0) curves values = values.getD k 0 := by
  have hlen : (1 :: curves ++ [0]).length = curves.length + 2 := by simp
  have hgt : ∀ i, i + 1 < curves.length + 2 → (1 :: curves ++ [0]).getD (i + 1) 0 < (1 :: curves ++ [0]).getD i 0 := by
    intro i hi
    rw [List.getD_eq_getElem _ _ (by rw [hlen]; omega), List.getD_eq_getElem _ _ (by rw [hlen]; omega)]
    exact List.pairwise_iff_getElem.1 hs i (i + 1) _ _ (by omega)
  cases k with
  | zero =>
    have h := hgt 0 (by omega)
    rw [C31_linear _ curves values hl hs 0 (by omega) h.le (le_refl _), div_self (by linarith)]
    ring
  | succ k =>
    have h := hgt k (by omega)
    rw [C31_linear _ curves values hl hs k (by omega) (le_refl _) h.le, sub_self, zero_div]
    ring

/-- The example of the documentation: 100 % → 0, 50 % → -5, 30 % → -10, 0 % → -20. -/
example : (1 :: [1/2, 3/10] ++ [0] : List Rat).Pairwise (· > ·) ∧ interpolated (2/5) [1/2, 3/10] [0, -5, -10, -20] = -15/2 := by decide +kernel

/-- **C31 fails** for a first curve at 100 % (descending, but touching the top): a full storage gets the second value, not the first. -/
theorem C31_full_curve : ∃ curves values : List Rat, curves.Pairwise (· ≥ ·) ∧ (∀ c ∈ curves, 0 ≤ c ∧ c ≤ 1) ∧ values.length = curves.length + 2 ∧
    interpolated 1 curves values ≠ values.getD 0 0 := ⟨[1, 1/2], [10, 20, 30, 40], by decide +kernel⟩

private theorem interpolate_between (x lo up a b : Rat) : ∃ w, 0 ≤ w ∧ w ≤ 1 ∧ interpolate x lo up a b = a + (b - a) * w := by
  unfold interpolate
  split
  · exact ⟨0, le_refl _, by norm_num, by ring⟩
  · split
    · exact ⟨1, by norm_num, le_refl _, by ring⟩
    · split
      · exact ⟨0, le_refl _, by norm_num, by ring⟩
      · rename_i h1 h2 h3
        push Not at h1 h2
        have hpos : 0 < up - lo := lt_of_le_of_ne (by linarith) (fun h => h3 (by linarith))
        exact ⟨_, div_nonneg (by linarith) hpos.le, by rw [div_le_one hpos]; linarith, rfl⟩

/-- **C31 (piecewise variant).** Whatever the storage fraction, curves, minimum and maximum, the value lies between the two values of the pair belonging to the position
of the storage, namely the control curve index; it is never extrapolated. -/
theorem C31_piecewise_between (pc mn mx : Rat) (curves : List Rat) (values : List (Rat × Rat)) :
    ∃ w, 0 ≤ w ∧ w ≤ 1 ∧ piecewise pc mn mx curves values =
      (values.getD (index pc curves) (0, 0)).2 + ((values.getD (index pc curves) (0, 0)).1 - (values.getD (index pc curves) (0, 0)).2) * w := by
  have key : ∀ (curves : List Rat) (j : Nat) (prev : Rat), ∃ w, 0 ≤ w ∧ w ≤ 1 ∧ piecewiseLoop pc mn values prev j curves =
      (values.getD (indexLoop pc (j + curves.length) j curves) (0, 0)).2 + ((values.getD (indexLoop pc (j + curves.length) j curves) (0, 0)).1 -
        (values.getD (indexLoop pc (j + curves.length) j curves) (0, 0)).2) * w := by
    intro curves
    induction curves with
    | nil =>
      intro j prev
      simp only [piecewiseLoop, indexLoop, List.length_nil, Nat.add_zero]
      exact interpolate_between _ _ _ _ _
    | cons cc rest ih =>
      intro j prev
      unfold piecewiseLoop indexLoop
      split
      · exact interpolate_between _ _ _ _ _
      · have := ih (j + 1) cc
        have e : j + 1 + rest.length = j + (rest.length + 1) := by omega
        rw [e] at this
        exact this
  simpa [piecewise, index] using key curves 0 mx

/-- **C31 (piecewise variant, linear).** Inside its band - between the curve below it (or the minimum) and the curve above it (or the maximum) - the value is the linear
interpolation of the pair. -/
theorem C31_piecewise_linear (pc mn mx : Rat) (curves : List Rat) (values : List (Rat × Rat)) (k : Nat) (hk : index pc curves = k)
    (hlo : (curves ++ [mn]).getD k 0 ≤ pc) (hhi : pc ≤ (mx :: curves).getD k 0) (hne : (curves ++ [mn]).getD k 0 < (mx :: curves).getD k 0) :
    piecewise pc mn mx curves values =
      (values.getD k (0, 0)).2 + ((values.getD k (0, 0)).1 - (values.getD k (0, 0)).2) *
        ((pc - (curves ++ [mn]).getD k 0) / ((mx :: curves).getD k 0 - (curves ++ [mn]).getD k 0)) := by
  have interp : ∀ lo up a b : Rat, lo ≤ pc → pc ≤ up → lo < up → interpolate pc lo up a b = a + (b - a) * ((pc - lo) / (up - lo)) := by
    intro lo up a b h1 h2 h3
    unfold interpolate
    rw [if_neg (by linarith), if_neg (by linarith), if_neg (by intro h; linarith)]
  have key : ∀ (curves : List Rat) (j k : Nat) (prev : Rat), indexLoop pc (j + curves.length) j curves = j + k →
      (curves ++ [mn]).getD k 0 ≤ pc → pc ≤ (prev :: curves).getD k 0 → (curves ++ [mn]).getD k 0 < (prev :: curves).getD k 0 →
      piecewiseLoop pc mn values prev j curves =
      (values.getD (j + k) (0, 0)).2 + ((values.getD (j + k) (0, 0)).1 - (values.getD (j + k) (0, 0)).2) *
        ((pc - (curves ++ [mn]).getD k 0) / ((prev :: curves).getD k 0 - (curves ++ [mn]).getD k 0)) := by
    intro curves
    induction curves with
    | nil =>
      intro j k prev hi hlo hhi hne
      have : k = 0 := by simp [indexLoop] at hi; omega
      subst this
      simp only [List.nil_append, List.getD_cons_zero] at hlo hhi hne ⊢
      exact interp _ _ _ _ hlo hhi hne
    | cons cc rest ih =>
      intro j k prev hi hlo hhi hne
      unfold indexLoop at hi
      unfold piecewiseLoop
      by_cases h : pc ≥ cc
      · rw [if_pos h] at hi
        have : k = 0 := by omega
        subst this
        simp only [List.cons_append, List.getD_cons_zero] at hlo hhi hne ⊢
        rw [if_pos h]
        exact interp _ _ _ _ hlo hhi hne
      · rw [if_neg h] at hi
        rw [if_neg h]
        cases k with
        | zero =>
          obtain ⟨hge, -⟩ := indexLoop_spec pc rest (j + 1) (j + (cc :: rest).length) (by simp; omega)
          omega
        | succ k =>
          have e : j + 1 + rest.length = j + (cc :: rest).length := by simp; omega
          have e2 : j + 1 + k = j + (k + 1) := by omega
          rw [ih (j + 1) k cc (by rw [e, hi, e2]) (by simpa using hlo) (by simpa using hhi) (by simpa using hne), e2]
          rfl
  simpa [piecewise] using key curves 0 k mx (by simpa [index] using hk) hlo hhi hne

example : piecewise (3/4) 0 1 [1/2] [(10, 4), (3, 1)] = 7 ∧ piecewise (1/4) 0 1 [1/2] [(10, 4), (3, 1)] = 2 := by decide +kernel

/-! ## Variables -/

/-- **C30 (variables).** Values set as variables are read back, if the indices are distinct and inside the table; other values are unchanged. -/
theorem C30_variables (indices : List Nat) (values new vs : List Rat) (h : setVariables indices values new = some vs)
    (hn : indices.Nodup) (hi : ∀ i ∈ indices, i < values.length) :
    getVariables indices vs = new ∧ vs.length = values.length ∧ ∀ i, i ∉ indices → vs.getD i 0 = values.getD i 0 := by
  unfold setVariables at h
  split at h
  · cases h
  · rename_i hlen
    push Not at hlen
    injection h with h
    subst h
    have other : ∀ (ps : List (Nat × Rat)) (vs : List Rat) (i : Nat), (∀ p ∈ ps, p.1 ≠ i) →
        (ps.foldl (fun vs p => vs.set p.1 p.2) vs).getD i 0 = vs.getD i 0 := by
      intro ps
      induction ps with
      | nil => intro vs i _; rfl
      | cons p ps ih =>
        intro vs i hp
        rw [List.foldl_cons, ih _ i fun q hq => hp q (by simp [hq])]
        have : p.1 ≠ i := hp p (by simp)
        simp [List.getD, this]
    have length : ∀ (ps : List (Nat × Rat)) (vs : List Rat), (ps.foldl (fun vs p => vs.set p.1 p.2) vs).length = vs.length := by
      intro ps
      induction ps with
      | nil => intro vs; rfl
      | cons p ps ih => intro vs; rw [List.foldl_cons, ih]; simp
    refine ⟨?_, length _ _, ?_⟩
    · unfold getVariables
      clear length
      induction indices generalizing new values with
      | nil =>
        simp at hlen
        simp [hlen]
      | cons i is ih =>
        cases new with
        | nil => simp at hlen
        | cons x xs =>
          rw [List.nodup_cons] at hn
          simp only [List.zip_cons_cons, List.foldl_cons, List.map_cons]
          congr 1
          · rw [other]
            · have := hi i (by simp)
              simp [List.getD, this]
            · intro p hp
              have : p.1 ∈ is := (List.of_mem_zip hp).1
              intro he
              exact hn.1 (he ▸ this)
          · exact ih _ _ hn.2 (by intro k hk; simpa using hi k (by simp [hk])) (by simpa using hlen)
    · intro i hni
      apply other
      intro p hp he
      exact hni (he ▸ (List.of_mem_zip hp).1)

example : setVariables [2, 0] [1, 2, 3] [8, 9] = some [9, 2, 8] := by decide +kernel

end Verif.ControlCurve

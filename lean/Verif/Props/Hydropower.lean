import Verif.Props.Recorders
import Mathlib.Tactic.Linarith
import Mathlib.Tactic.FieldSimp
import Mathlib.Tactic.Ring
import Mathlib.Tactic.Positivity
import Verif.Model.Hydropower
import Verif.Proof.Recorders

/-! # Hydropower target flows (C52) -/

namespace Verif.Hydropower

open Verif.Bounds Verif.Constraints Verif.Run

/-- A plant with positive efficiency, density and conversions. -/
def Plant.Sound (p : Plant) : Prop := 0 < p.efficiency ∧ 0 < p.flowConv ∧ 0 < p.energyConv ∧ 0 < p.density

/-- The physics: density times gravity times head times flow, in the units of the model. -/
def physicalPower (p : Plant) (head flow : Rat) : Rat :=
  p.efficiency * p.density * (981 / 100) * head * (flow * p.flowConv) * p.energyConv

private theorem headOf_nonneg (level : Option Rat) (turbine : Rat) : 0 ≤ headOf level turbine := le_max_right _ _

private theorem power_head (p : Plant) (q h : Rat) (hh : 0 ≤ h) : power p q h 0 = physicalPower p h q := by
  unfold power physicalPower g
  simp only [sub_zero]
  rw [if_neg (by linarith)]
  ring

/-- The power calculation gives the physical power of the head between the two elevations, and nothing when the water
is below the turbine. -/
theorem C52_power (p : Plant) (flow water turbine : Rat) :
    power p flow water turbine = physicalPower p (max (water - turbine) 0) flow := by
  unfold power physicalPower g
  simp only
  by_cases h : water - turbine < 0
  · rw [if_pos h, max_eq_right (le_of_lt h)]; ring
  · rw [if_neg h, max_eq_left (by linarith)]; ring

/-- The inverse calculation: with the water above the turbine the flow returned is the only one producing the target. -/
theorem C52_inverse (p : Plant) (hp : p.Sound) (target water turbine : Rat) (hw : turbine < water) :
    ∃ q, inverse p target water turbine = .fin q ∧ power p q water turbine = target ∧
      ∀ q', power p q' water turbine = target → q' = q := by
  obtain ⟨h1, h2, h3, h4⟩ := hp
  have hh : 0 < water - turbine := by linarith
  have hg : (0 : Rat) < g := by unfold g; norm_num
  have hd : 0 < p.energyConv * p.density * g * (water - turbine) * p.efficiency * p.flowConv := by positivity
  refine ⟨target / (p.energyConv * p.density * g * (water - turbine) * p.efficiency * p.flowConv),
    by simp only [inverse]; rw [if_neg (show ¬ water - turbine < 0 by linarith), if_neg (ne_of_gt hd)], ?_, ?_⟩
  · unfold power
    simp only
    rw [if_neg (by linarith)]
    field_simp
  · intro q' hq
    unfold power at hq
    simp only at hq
    rw [if_neg (by linarith)] at hq
    rw [eq_div_iff (ne_of_gt hd), ← hq]
    ring

private theorem inverse_target (p : Plant) (hp : p.Sound) (target q head : Rat) (hh : 0 < head)
    (hq : physicalPower p head q = target) : inverse p target head 0 = .fin q := by
  obtain ⟨q0, h1, _, h3⟩ := C52_inverse p hp target head 0 hh
  rw [h1, h3 q (by rw [power_head p q head (le_of_lt hh)]; exact hq)]

/-- With positive head at or above the minimum head, a flow that produces the target and is within the limits is the
flow returned. -/
theorem C52_round_trip_partial (p : Plant) (hp : p.Sound) (minHead turbine target : Rat) (level : Option Rat)
    (maxFlow minFlow : Option F) (q : Rat) (hh : 0 < headOf level turbine) (hm : minHead ≤ headOf level turbine)
    (h0 : 0 ≤ q) (hq : physicalPower p (headOf level turbine) q = target)
    (hmax : ∀ m, maxFlow = some m → le (.fin q) m = true) (hmin : ∀ m, minFlow = some m → le m (.fin q) = true) :
    targetFlow p minHead turbine target level maxFlow minFlow = some (.fin q) := by
  unfold targetFlow
  simp only
  rw [if_neg (by linarith), inverse_target p hp target q _ hh hq]
  have e1 : limitAbove maxFlow (.fin q) = .fin q := by
    cases maxFlow with
    | none => rfl
    | some m =>
      have := hmax m rfl
      cases m with
      | fin x =>
        simp only [le, decide_eq_true_eq] at this
        simp only [limitAbove, fmin, lt, le, Bool.not_eq_true', decide_eq_false_iff_not, not_le]
        by_cases h : q < x
        · rw [if_pos h]
        · rw [if_neg h]; congr 1; linarith
      | posInf => simp [limitAbove, fmin, lt, le]
      | negInf => simp [le] at this
      | nan => simp [le] at this
  have e2 : limitBelow minFlow (.fin q) = .fin q := by
    cases minFlow with
    | none => rfl
    | some m =>
      have := hmin m rfl
      cases m with
      | fin x =>
        simp only [le, decide_eq_true_eq] at this
        simp only [limitBelow, fmax, lt, le, Bool.not_eq_true', decide_eq_false_iff_not, not_le]
        by_cases h : x < q
        · rw [if_pos h]
        · rw [if_neg h]; congr 1; linarith
      | posInf => simp [le] at this
      | negInf => simp [limitBelow, fmax, lt, le]
      | nan => simp [le] at this
  rw [e1, e2, if_pos (by simp [le, h0])]

/-- Below the minimum head no flow is asked for, whatever the limits. -/
theorem C52_low_head (p : Plant) (minHead turbine target : Rat) (level : Option Rat) (maxFlow minFlow : Option F)
    (h : headOf level turbine < minHead) :
    targetFlow p minHead turbine target level maxFlow minFlow = some (.fin 0) := by
  unfold targetFlow; simp only [if_pos h]

private theorem inverse_ne_nan (p : Plant) (t w e : Rat) : inverse p t w e ≠ .nan := by
  unfold inverse; simp only; split <;> split <;> simp

/-- At or above the minimum head a returned flow is not negative, at least the minimum flow, and at most the larger of
the maximum and the minimum flow (so at most the maximum unless the minimum exceeds it). -/
theorem C52_limits (p : Plant) (minHead turbine target : Rat) (level : Option Rat) (maxFlow minFlow : Option F) (q : F)
    (hm : minHead ≤ headOf level turbine)
    (hn1 : maxFlow ≠ some .nan) (hn2 : minFlow ≠ some .nan)
    (h : targetFlow p minHead turbine target level maxFlow minFlow = some q) :
    le (.fin 0) q = true ∧ (∀ m, minFlow = some m → le m q = true) ∧
      (∀ m, maxFlow = some m → le q m = true ∨ ∃ m', minFlow = some m' ∧ q = m' ∧ lt m m' = true) := by
  unfold targetFlow at h
  simp only at h
  rw [if_neg (by linarith)] at h
  have hq := inverse_ne_nan p target (headOf level turbine) 0
  generalize inverse p target (headOf level turbine) 0 = q0 at h hq
  -- after the upper limit
  obtain ⟨q1, hq1⟩ : ∃ q1, limitAbove maxFlow q0 = q1 := ⟨_, rfl⟩
  rw [hq1] at h
  have hb1 : q1 ≠ .nan ∧ ∀ m, maxFlow = some m → le q1 m = true := by
    cases maxFlow with
    | none => simp only [limitAbove] at hq1; subst hq1; exact ⟨hq, by simp⟩
    | some m =>
      have hmn : m ≠ .nan := fun h => hn1 (by rw [h])
      simp only [limitAbove] at hq1
      subst hq1
      constructor
      · unfold fmin; split <;> assumption
      · intro m' hm'
        cases hm'
        unfold fmin
        split
        · rename_i hlt
          revert hlt
          cases q0 <;> cases m <;> simp_all [lt, le]
          exact fun h => le_of_lt h
        · cases m <;> simp_all [le]
  obtain ⟨q2, hq2⟩ : ∃ q2, limitBelow minFlow q1 = q2 := ⟨_, rfl⟩
  rw [hq2] at h
  by_cases hz : le (.fin 0) q2 = true
  · rw [if_pos hz] at h
    simp only [Option.some.injEq] at h
    subst h
    refine ⟨hz, ?_, ?_⟩
    · intro m hmm
      subst hmm
      have hmn : m ≠ .nan := fun h => hn2 (by rw [h])
      simp only [limitBelow] at hq2
      subst hq2
      unfold fmax
      split
      · rename_i hlt
        revert hlt
        cases q1 <;> cases m <;> simp_all [lt, le]
        exact fun h => le_of_lt h
      · cases m <;> simp_all [le]
    · intro m hmm
      have hle := hb1.2 m hmm
      cases minFlow with
      | none => simp only [limitBelow] at hq2; subst hq2; exact Or.inl hle
      | some m' =>
        simp only [limitBelow] at hq2
        unfold fmax at hq2
        by_cases hlt : lt m' q1 = true
        · rw [if_pos hlt] at hq2; subst hq2; exact Or.inl hle
        · rw [if_neg hlt] at hq2
          subst hq2
          have hmn : m' ≠ .nan := fun h => hn2 (by rw [h])
          have hmn1 : m ≠ .nan := fun h => hn1 (by rw [hmm, h])
          by_cases hc : le m' m = true
          · exact Or.inl hc
          · right
            refine ⟨m', rfl, rfl, ?_⟩
            cases m <;> cases m' <;> simp_all [lt, le]
  · rw [if_neg hz] at h; cases h

private theorem some_of_if {b : Bool} {x y : F} (h : (if b = true then some x else none) = some y) : x = y := by
  cases b
  · simp at h
  · simpa using h

/-- With no limits reached by it, the returned flow never overshoots the target because of the upper limit and never
undershoots it because of the lower one: without a minimum flow the power of the returned flow is at most the target,
without a maximum flow at least the target. -/
theorem C52_capped (p : Plant) (hp : p.Sound) (minHead turbine target : Rat) (level : Option Rat)
    (maxFlow minFlow : Option F) (q : Rat) (hh : 0 < headOf level turbine) (hm : minHead ≤ headOf level turbine)
    (h : targetFlow p minHead turbine target level maxFlow minFlow = some (.fin q)) :
    (minFlow = none → physicalPower p (headOf level turbine) q ≤ target) ∧
    (maxFlow = none → target ≤ physicalPower p (headOf level turbine) q) := by
  obtain ⟨q0, h1, h2, _⟩ := C52_inverse p hp target (headOf level turbine) 0 hh
  rw [power_head _ _ _ (le_of_lt hh)] at h2
  have hmono : ∀ a b, a ≤ b → physicalPower p (headOf level turbine) a ≤ physicalPower p (headOf level turbine) b := by
    intro a b hab
    obtain ⟨k1, k2, k3, k4⟩ := hp
    have : 0 ≤ physicalPower p (headOf level turbine) (b - a) := by
      have : 0 ≤ b - a := by linarith
      unfold physicalPower; positivity
    have e : physicalPower p (headOf level turbine) (b - a) =
        physicalPower p (headOf level turbine) b - physicalPower p (headOf level turbine) a := by
      unfold physicalPower; ring
    linarith
  unfold targetFlow at h
  simp only at h
  rw [if_neg (by linarith), h1] at h
  replace h := some_of_if h
  rw [← h2]
  constructor
  · intro hn
    subst hn
    apply hmono
    simp only [limitBelow] at h
    cases maxFlow with
    | none => simp only [limitAbove, F.fin.injEq] at h; linarith
    | some m =>
      simp only [limitAbove] at h
      cases m with
      | fin x =>
        simp only [fmin, lt, le, Bool.not_eq_true', decide_eq_false_iff_not, not_le] at h
        split at h <;> (simp only [F.fin.injEq] at h; linarith)
      | posInf => simp [fmin, lt, le] at h; linarith
      | negInf => simp [fmin, lt, le] at h
      | nan => simp [fmin, lt] at h
  · intro hn
    subst hn
    apply hmono
    simp only [limitAbove] at h
    cases minFlow with
    | none => simp only [limitBelow, F.fin.injEq] at h; linarith
    | some m =>
      simp only [limitBelow] at h
      cases m with
      | fin x =>
        simp only [fmax, lt, le, Bool.not_eq_true', decide_eq_false_iff_not, not_le] at h
        split at h <;> (simp only [F.fin.injEq] at h; linarith)
      | posInf => simp [fmax, lt, le] at h
      | negInf => simp [fmax, lt, le] at h; linarith
      | nan => simp [fmax, lt] at h

/-- An example plant. -/
private def plant : Plant := ⟨9 / 10, 1, 1 / 1000000, 1000⟩

private theorem plant_sound : plant.Sound := by unfold Plant.Sound plant; norm_num

/-- Level 60, turbine at 40, 17.658 MJ per day: a flow of 100, limited to 80 or raised to 120. -/
example : targetFlow plant 10 40 (17658 / 1000) (some 60) (some (.fin 200)) (some (.fin 5)) = some (.fin 100) :=
  C52_round_trip_partial plant plant_sound _ _ _ _ _ _ 100 (by unfold headOf; norm_num) (by unfold headOf; norm_num)
    (by norm_num) (by unfold physicalPower headOf plant; norm_num)
    (by intro m h; cases h; simp [le]; norm_num) (by intro m h; cases h; simp [le]; norm_num)
example : targetFlow plant 10 40 (17658 / 1000) (some 60) (some (.fin 80)) (some (.fin 5)) = some (.fin 80) := by
  decide +kernel
example : targetFlow plant 10 40 (17658 / 1000) (some 60) (some (.fin 80)) (some (.fin 120)) = some (.fin 120) := by
  decide +kernel
example : targetFlow plant 10 40 (17658 / 1000) (some 45) none (some (.fin 5)) = some (.fin 0) := by decide +kernel

/-- When there is no head and no minimum head, the flow asked for is infinite (or the maximum flow) even for a target
of zero, although a flow of zero produces that target and is within the limits: the conclusion of `C52_round_trip_partial`
fails without its hypothesis on the head. -/
theorem C52_zero_target_fails :
    physicalPower plant (headOf (some 40) 40) 0 = 0 ∧
    targetFlow plant 0 40 0 (some 40) none none = some .posInf ∧
    targetFlow plant 0 40 0 (some 40) (some (.fin 80)) (some (.fin 0)) = some (.fin 80) := by
  decide +kernel

/-- A negative target (without a minimum flow) stops the run with an `AssertionError`. -/
theorem C52_negative_target (p : Plant) (hp : p.Sound) (minHead turbine target : Rat) (level : Option Rat)
    (hh : 0 < headOf level turbine) (hm : minHead ≤ headOf level turbine) (ht : target < 0) :
    targetFlow p minHead turbine target level none none = none := by
  unfold targetFlow
  simp only
  rw [if_neg (by linarith)]
  obtain ⟨h1, h2, h3, h4⟩ := hp
  have hg : (0 : Rat) < g := by unfold g; norm_num
  have hd : 0 < p.energyConv * p.density * g * headOf level turbine * p.efficiency * p.flowConv := by positivity
  have : inverse p target (headOf level turbine) 0 =
      .fin (target / (p.energyConv * p.density * g * headOf level turbine * p.efficiency * p.flowConv)) := by
    simp only [inverse, sub_zero]
    rw [if_neg (show ¬ headOf level turbine < 0 by linarith), if_neg (ne_of_gt hd)]
  have hle : le (.fin 0)
      (.fin (target / (p.energyConv * p.density * g * headOf level turbine * p.efficiency * p.flowConv))) = false := by
    simp only [le, decide_eq_false_iff_not, not_le]
    exact div_neg_of_neg_of_pos ht hd
  simp [limitAbove, limitBelow, this, hle]

example : targetFlow plant 10 40 (-1) (some 60) none none = none :=
  C52_negative_target plant plant_sound _ _ _ _ (by unfold headOf; norm_num) (by unfold headOf; norm_num) (by norm_num)

/-- The total energy recorder adds the physical power of every timestep times its length. -/
theorem C52_energy (p : Plant) (turbine : Rat) (days : Nat → Rat) (ncomb : Nat) (os : List View)
    (h : ∀ o ∈ os, o.flow.length = ncomb ∧ ∀ l, o.level = some l → l.length = ncomb) (cur : Option Nat) :
    ∃ v, (totalEnergy p turbine days ncomb).result os cur = some v ∧ v.length = ncomb ∧
      ∀ i < ncomb, v.getD i 0 = (os.zipIdx.map fun x =>
        physicalPower p (headOf (x.1.level.map (·.getD i 0)) turbine) (x.1.flow.getD i 0) * days x.2).sum := by
  obtain ⟨v, h1, h2, h3⟩ := Recorders.fold_entries (totalEnergy p turbine days ncomb) (fun k v x => v + x * days k)
    (powers p turbine) 0 0 ncomb (fun _ _ _ => rfl) os 0 (Recorders.zeros ncomb) (by simp [Recorders.zeros])
    (fun o ho => by
      obtain ⟨ha, hb⟩ := h o ho
      unfold powers
      cases hl : o.level with
      | none => simp [ha]
      | some l => simp [ha, hb l hl])
  refine ⟨v, by simp [Rec.result, totalEnergy] at h1 ⊢; simp [h1], h2, fun i hi => ?_⟩
  rw [h3 i hi, Recorders.zeros, Recorders.getD_replicate,
    Recorders.foldl_add (fun x : View × Nat => (powers p turbine x.1).getD i 0 * days x.2), zero_add]
  congr 1
  refine List.map_congr_left (fun x hx => ?_)
  obtain ⟨h4, h5⟩ := h x.1 (by
    obtain ⟨a, k⟩ := x
    exact (List.mem_zipIdx' hx).2 ▸ List.getElem_mem _)
  congr 1
  unfold powers
  cases hl : x.1.level with
  | none =>
    simp only [Option.map_none]
    rw [List.getD_eq_getElem _ _ (by simpa [h4] using hi), List.getD_eq_getElem _ _ (by omega), List.getElem_map,
      power_head _ _ _ (headOf_nonneg _ _)]
  | some l =>
    simp only [Option.map_some]
    rw [Recorders.zipWith_getD _ (by omega) (by rw [h5 l hl]; exact hi) 0 0, power_head _ _ _ (headOf_nonneg _ _)]

/-- The array recorder holds the power of every timestep and combination; rows of timesteps that did not run hold zero. -/
theorem C52_power_series (p : Plant) (turbine : Rat) (nts ncomb : Nat) (os : List View) (hn : os.length ≤ nts)
    (h : ∀ o ∈ os, o.flow.length = ncomb ∧ ∀ l, o.level = some l → l.length = ncomb) (cur : Option Nat) :
    ∃ v, (hydropowerRecorder p turbine nts ncomb).result os cur = some v ∧ v.length = nts ∧
      (∀ (k : Nat) (o : View), os[k]? = some o → ∃ row : List Rat, v[k]? = some row ∧ row.length = ncomb ∧
        ∀ i < ncomb, row.getD i 0 = physicalPower p (headOf (o.level.map (·.getD i 0)) turbine) (o.flow.getD i 0)) ∧
      ∀ k, os.length ≤ k → k < nts → v[k]? = some (List.replicate ncomb 0) := by
  obtain ⟨v, h1, h2, h3, h4⟩ := Recorders.C40_array (0 : Rat) (powers p turbine) nts ncomb os hn cur
  refine ⟨v, h1, h2, ?_, h4⟩
  intro k o ho
  obtain ⟨hk, rfl⟩ := List.getElem?_eq_some_iff.1 ho
  obtain ⟨h5, h6⟩ := h _ (List.getElem_mem hk)
  refine ⟨_, h3 k hk, ?_, ?_⟩
  · unfold powers
    cases hl : os[k].level with
    | none => simp [h5]
    | some l => simp [h5, h6 l hl]
  · intro i hi
    unfold powers
    cases hl : os[k].level with
    | none =>
      simp only [Option.map_none]
      rw [List.getD_eq_getElem _ _ (by simpa [h5] using hi), List.getD_eq_getElem _ _ (by omega), List.getElem_map,
        power_head _ _ _ (headOf_nonneg _ _)]
    | some l =>
      simp only [Option.map_some]
      rw [Recorders.zipWith_getD _ (by omega) (by rw [h6 l hl]; exact hi) 0 0, power_head _ _ _ (headOf_nonneg _ _)]

example : (hydropowerRecorder plant 40 3 1).result [⟨[100], some [60]⟩, ⟨[100], some [30]⟩] none = some [[17658 / 1000], [0], [0]] := by
  decide +kernel

/-- A node that follows its hydropower target generates the target: if in every timestep the flow of a combination is
what the parameter returned, and no limit and no shortage of head interfered, the recorded total energy is the target
power summed over the timesteps. -/
theorem C52_run_meets_target (p : Plant) (hp : p.Sound) (minHead turbine : Rat) (days : Nat → Rat) (ncomb : Nat)
    (os : List View) (h : ∀ o ∈ os, o.flow.length = ncomb ∧ ∀ l, o.level = some l → l.length = ncomb)
    (cur : Option Nat) (i : Nat) (hi : i < ncomb) (target : View → Rat)
    (hf : ∀ o ∈ os, 0 < headOf (o.level.map (·.getD i 0)) turbine ∧
      minHead ≤ headOf (o.level.map (·.getD i 0)) turbine ∧
      targetFlow p minHead turbine (target o) (o.level.map (·.getD i 0)) none none = some (.fin (o.flow.getD i 0))) :
    ∃ v, (totalEnergy p turbine days ncomb).result os cur = some v ∧
      v.getD i 0 = (os.zipIdx.map fun x => target x.1 * days x.2).sum := by
  obtain ⟨v, h1, _, h3⟩ := C52_energy p turbine days ncomb os h cur
  refine ⟨v, h1, ?_⟩
  rw [h3 i hi]
  congr 1
  refine List.map_congr_left (fun x hx => ?_)
  have hmem : x.1 ∈ os := by
    obtain ⟨a, k⟩ := x
    exact (List.mem_zipIdx' hx).2 ▸ List.getElem_mem _
  obtain ⟨ha, hb, hc⟩ := hf x.1 hmem
  obtain ⟨k1, k2⟩ := C52_capped p hp minHead turbine _ _ none none _ ha hb hc
  rw [le_antisymm (k1 rfl) (k2 rfl)]

example : (totalEnergy plant 40 (fun _ => 7) 1).result [⟨[100], some [60]⟩, ⟨[100], some [60]⟩] none =
    some [17658 / 1000 * 14] := by decide +kernel

end Verif.Hydropower

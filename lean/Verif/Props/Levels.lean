import Verif.Spec.Levels
import Verif.Spec.Memory
import Verif.Props.Memory
import Mathlib.Tactic.Linarith
import Mathlib.Tactic.Ring
import Mathlib.Tactic.FieldSimp
import Mathlib.Tactic.Positivity
import Mathlib.Algebra.Order.Field.Rat
import Mathlib.Data.List.GetD
/-! # C89: recorded levels, areas and costs; threshold states; discount factors -/

namespace Verif.Levels

open Verif.Memory

private theorem run_append (a : Attr) (s : State) (t : Nat) (vs : List Vec) (v : Vec) :
    State.run a s t (vs ++ [v]) = (State.run a s t vs).step a (t + vs.length) v := by
  induction vs generalizing s t with
  | nil => rfl
  | cons w ws ih => rw [List.cons_append, State.run, ih, State.run, List.length_cons, Nat.add_assoc, Nat.add_comm 1]

private theorem run_spec (a : Attr) (n : Nat) (initial stored : Vec) (vols : List Vec) (hl : vols.length ≤ n) :
    let s := State.run a (State.start n initial stored) 0 vols
    s.volume = volumeBefore initial vols vols.length ∧
    s.volumes = vols ++ List.replicate (n - vols.length) (fun _ => 0) ∧
    s.readings = ((List.range vols.length).map fun t => match a.param with
      | none => fun _ => a.fixed
      | some f => fun sc => f t sc (volumeBefore initial vols t sc)) ++ List.replicate (n - vols.length) (fun _ => 0) := by
  induction vols using List.reverseRecOn with
  | nil => exact ⟨rfl, by simp [State.run, State.start], by simp [State.run, State.start]⟩
  | append_singleton vs v ih =>
    have hl' : vs.length < n := by simp at hl; omega
    obtain ⟨h1, h2, h3⟩ := ih (by omega)
    simp only at h1 h2 h3 ⊢
    rw [run_append, Nat.zero_add]
    obtain ⟨k, hk⟩ : ∃ k, n - vs.length = k + 1 := ⟨n - vs.length - 1, by omega⟩
    have hk' : n - (vs ++ [v]).length = k := by simp; omega
    have hb : ∀ t, t ≤ vs.length → volumeBefore initial (vs ++ [v]) t = volumeBefore initial vs t := by
      intro t ht
      cases t with
      | zero => rfl
      | succ t => simp only [volumeBefore]; rw [List.getD_append _ _ _ _ (by omega)]
    refine ⟨?_, ?_, ?_⟩
    · rw [List.length_append, List.length_singleton, volumeBefore]
      simp [State.step]
    · simp only [State.step]
      rw [h2, hk, hk', List.replicate_succ, List.set_append_right _ _ (le_refl _), Nat.sub_self, List.set_cons_zero, List.append_assoc, List.singleton_append]
    · simp only [State.step]
      rw [h3, hk, hk', List.replicate_succ, List.set_append_right _ _ (by simp), List.length_map, List.length_range, Nat.sub_self, List.set_cons_zero]
      rw [List.length_append, List.length_singleton, List.range_succ, List.map_append, List.append_assoc]
      congr 1
      · apply List.map_congr_left
        intro t ht
        rw [hb t (by simp at ht; omega)]
      · rw [List.map_singleton, List.singleton_append, hb _ (le_refl _)]
        congr 1
        unfold Attr.get
        cases ha : a.param with
        | none => rfl
        | some f => simp only [h1]

/-- **C89 (volume).** Row `t` of the volume recorder is the volume at the end of timestep `t`. -/
theorem C89_volume (a : Attr) (n : Nat) (initial stored : Vec) (vols : List Vec) (hl : vols.length ≤ n) (t : Nat) (ht : t < vols.length) :
    (State.run a (State.start n initial stored) 0 vols).volumes[t]? = some vols[t] := by
  rw [(run_spec a n initial stored vols hl).2.1, List.getElem?_append_left ht, List.getElem?_eq_getElem ht]

/-- **C89 (level).** Row `t` of the level (area, cost) recorder, with a parameter, is the parameter for the volume at the *beginning* of timestep `t`: the initial volume in the first
timestep, afterwards the volume the volume recorder has in row `t - 1`. -/
theorem C89_level_partial (a : Attr) (f : Nat → Nat → Rat → Rat) (n : Nat) (initial stored : Vec) (vols : List Vec) (hl : vols.length ≤ n) (t : Nat)
    (ht : t < vols.length) (sc : Nat) :
    ((State.run (a.set (.param f)) (State.start n initial stored) 0 vols).readings[t]?).map (fun row => row sc) = some (f t sc (volumeBefore initial vols t sc)) := by
  rw [(run_spec (a.set (.param f)) n initial stored vols hl).2.2, List.getElem?_append_left (by simpa using ht), List.getElem?_map, List.getElem?_range ht]
  rfl

/-- **C89 (fixed).** With a number, every row has this number; without anything, zero. -/
theorem C89_fixed (a : Attr) (g : Given) (x : Rat) (hg : g = .number x ∨ (g = .nothing ∧ x = 0)) (n : Nat) (initial stored : Vec) (vols : List Vec) (hl : vols.length ≤ n) (t : Nat)
    (ht : t < vols.length) (sc : Nat) :
    ((State.run (a.set g) (State.start n initial stored) 0 vols).readings[t]?).map (fun row => row sc) = some x := by
  rw [(run_spec (a.set g) n initial stored vols hl).2.2, List.getElem?_append_left (by simpa using ht), List.getElem?_map, List.getElem?_range ht]
  rcases hg with rfl | ⟨rfl, rfl⟩ <;> rfl

/-- **C89 (what was used).** The row of the timestep just finished is what the solver and the other parameters were given in it. -/
theorem C89_seen (a : Attr) (n : Nat) (initial stored : Vec) (vols : List Vec) (v : Vec) (hl : vols.length < n) :
    (State.run a (State.start n initial stored) 0 (vols ++ [v])).readings[vols.length]? = some (State.run a (State.start n initial stored) 0 (vols ++ [v])).seen := by
  rw [run_append, Nat.zero_add]
  simp only [State.step]
  have hlen : (State.run a (State.start n initial stored) 0 vols).readings.length = n := by
    rw [(run_spec a n initial stored vols (by omega)).2.2]; simp; omega
  rw [List.getElem?_set_self (by omega)]

/-- **C89 fails** for the level at the end of the timestep: the recorded level does not belong to the volume recorded in the same row, here for a reservoir whose level is its volume and
that goes from 10 to 4. -/
theorem C89_level_fails : ∃ (f : Rat → Rat) (initial : Vec) (vols : List Vec),
    let s := State.run ⟨0, some fun _ _ v => f v⟩ (State.start vols.length initial fun _ => 0) 0 vols
    (s.volumes[0]?).map (fun row => row 0) = some 4 ∧ (s.readings[0]?).map (fun row => row 0) = some 10 ∧ f 4 ≠ 10 :=
  ⟨id, fun _ => 10, [fun _ => 4], by decide +kernel, by decide +kernel, by decide +kernel⟩

example : ((State.run (Attr.set ⟨0, none⟩ (.param fun _ _ v => 2 * v)) (State.start 3 (fun _ => 10) fun _ => 0) 0 [fun _ => 4, fun _ => 6]).readings.map fun row => row 0) = [20, 8, 0] := by
  decide +kernel

/-! ## Thresholds -/

private theorem states_spec (p : Predicate) (threshold : Rat) (xs : List Vec) (hx : xs ≠ []) :
    thresholdStates p threshold xs = thresholdAfter p threshold (xs.getLast hx) := by
  induction xs using List.reverseRecOn with
  | nil => exact absurd rfl hx
  | append_singleton l x _ => simp [thresholdStates, List.foldl_append]

private theorem compare_rel (p : Predicate) (x t : Rat) : compare p (some x) (some t) = true ↔ p.Rel x t := by
  cases p <;> simp [Memory.compare, Predicate.Rel]

/-- **C89 (threshold recorder).** After any timesteps since the reset the state of a threshold recorder is 1 exactly when the last volume (flow) is in the relation to the threshold, and
0 otherwise; before the first timestep it is 0. -/
theorem C89_recorder (p : Predicate) (threshold : Rat) (xs : List Vec) (sc : Nat) :
    (thresholdStates p threshold xs sc = 1 ↔ ∃ x, xs.getLast? = some x ∧ p.Rel (x sc) threshold) ∧
    (thresholdStates p threshold xs sc = 0 ∨ thresholdStates p threshold xs sc = 1) := by
  by_cases hx : xs = []
  · subst hx; simp [thresholdStates, thresholdState0]
  · rw [states_spec p threshold xs hx, List.getLast?_eq_getLast_of_ne_nil hx, thresholdAfter]
    simp only [Option.some.injEq, exists_eq_left', ← compare_rel]
    cases compare p (some (xs.getLast hx sc)) (some threshold) <;> simp

private theorem storageObserved_get (threshold : Rat) (v : Vec) (vols : List Vec) (t : Nat) (ht : t < vols.length) :
    (storageObserved threshold v vols)[t]? = some ⟨fun sc => some (volumeBefore v vols t sc), fun _ => some threshold⟩ := by
  induction vols generalizing v t with
  | nil => simp at ht
  | cons w ws ih =>
    cases t with
    | zero => rfl
    | succ t =>
      rw [storageObserved, List.getElem?_cons_succ, ih w t (by simpa using ht)]
      cases t with
      | zero => rfl
      | succ t => rfl

private theorem index_of (p : Predicate) (first : Option Int) (n : Nat) (os : List Observation) (t : Nat) (ht : t < os.length) (hlook : first = none ∨ t ≠ 0) (sc : Nat) (hsc : sc < n)
    (x threshold : Rat) (ho : os[t] = ⟨(os[t]).x, fun _ => some threshold⟩) (hx : (os[t]).x sc = some x) (tr : Triggered) (out : Nat → Int) (c : Int)
    (hc : c = if compare p (some x) (some threshold) then 1 else 0) :
    ((thresholdRun ⟨p, false, first⟩ n 0 (thresholdReset tr) out os)[t]?).map (fun row => row sc) = some c := by
  obtain ⟨h, h1, h0⟩ := C32_predicate ⟨p, false, first⟩ rfl n tr out os t ht hlook sc hsc
  have ht' : (os[t]).threshold sc = some threshold := by rw [ho]
  have hs : Satisfies p os[t] sc ↔ compare p (some x) (some threshold) = true := by
    rw [compare_rel]
    constructor
    · rintro ⟨x', t', e1, e2, h⟩
      rw [hx] at e1; rw [ht'] at e2
      cases e1; cases e2; exact h
    · exact fun h => ⟨x, threshold, hx, ht', h⟩
  rw [List.getElem?_eq_getElem h, Option.map_some, hc]
  congr 1
  simp only at h1 h0
  rw [hs] at h1 h0
  cases hcmp : compare p (some x) (some threshold) with
  | true => simpa using h1.2 hcmp
  | false => simpa using h0.2 (by simp [hcmp])

/-- **C89 (threshold parameter on a storage).** In every timestep after the first, the index of a `StorageThresholdParameter` is the state a `StorageThresholdRecorder` with the same
predicate and threshold has after the timestep before. In the first it compares the initial volume. -/
theorem C89_storage_threshold (p : Predicate) (threshold : Rat) (n : Nat) (initial : Vec) (vols : List Vec) (tr : Triggered) (out : Nat → Int) (t : Nat) (ht : t < vols.length) (sc : Nat)
    (hsc : sc < n) :
    ((thresholdRun ⟨p, false, none⟩ n 0 (thresholdReset tr) out (storageObserved threshold initial vols))[t]?).map (fun row => row sc) =
      some (thresholdStates p threshold (initial :: vols.take t) sc) := by
  have hg := storageObserved_get threshold initial vols t ht
  have hlen : t < (storageObserved threshold initial vols).length := (List.getElem?_eq_some_iff.1 hg).1
  have he := (List.getElem?_eq_some_iff.1 hg).2
  refine index_of p none n _ t hlen (.inl rfl) sc hsc (volumeBefore initial vols t sc) threshold (by rw [he]) (by rw [he]) tr out _ ?_
  rw [states_spec p threshold _ (by simp), thresholdAfter]
  have : (initial :: vols.take t).getLast (by simp) = volumeBefore initial vols t := by
    cases t with
    | zero => rfl
    | succ t =>
      rw [List.getLast_eq_getElem]
      simp [volumeBefore, List.getD_eq_getElem?_getD, List.getElem?_eq_getElem (show t < vols.length by omega), Nat.min_eq_left (show t + 1 ≤ vols.length by omega)]
  rw [this]

/-- **C89 (threshold parameter on a node).** In every timestep after the first, the index of a `NodeThresholdParameter` is the state a `NodeThresholdRecorder` with the same predicate and
threshold has after the timestep before. In the first it is 0 (`C32_first`). -/
theorem C89_node_threshold (p : Predicate) (threshold : Rat) (n : Nat) (prev : Vec) (flows : List Vec) (tr : Triggered) (out : Nat → Int) (t : Nat) (ht : t < flows.length) (h0 : t ≠ 0)
    (sc : Nat) (hsc : sc < n) :
    ((thresholdRun ⟨p, false, some 0⟩ n 0 (thresholdReset tr) out (storageObserved threshold prev flows))[t]?).map (fun row => row sc) =
      some (thresholdStates p threshold (flows.take t) sc) := by
  have hg := storageObserved_get threshold prev flows t ht
  have hlen : t < (storageObserved threshold prev flows).length := (List.getElem?_eq_some_iff.1 hg).1
  have he := (List.getElem?_eq_some_iff.1 hg).2
  refine index_of p (some 0) n _ t hlen (.inr h0) sc hsc (volumeBefore prev flows t sc) threshold (by rw [he]) (by rw [he]) tr out _ ?_
  obtain ⟨u, rfl⟩ := Nat.exists_eq_succ_of_ne_zero h0
  have hne : flows.take (u + 1) ≠ [] := by
    intro h
    have := congrArg List.length h
    rw [List.length_take, List.length_nil] at this
    omega
  rw [states_spec p threshold _ hne, thresholdAfter]
  have : (flows.take (u + 1)).getLast hne = volumeBefore prev flows (u + 1) := by
    rw [List.getLast_eq_getElem]
    simp [volumeBefore, List.getD_eq_getElem?_getD, List.getElem?_eq_getElem (show u < flows.length by omega), Nat.min_eq_left (show u + 1 ≤ flows.length by omega)]
  rw [this]

/-- **C89 (threshold parameter on a recorder).** A `RecorderThresholdParameter` on the volume recorder of the storage has, in every timestep after the first, the same index as a
`StorageThresholdParameter` on the storage. In the first it is `initial_value` (`C32_first`), whatever the volume. -/
theorem C89_recorder_threshold (p : Predicate) (threshold : Rat) (a : Attr) (first : Int) (n m : Nat) (initial stored : Vec) (vols : List Vec) (hm : vols.length ≤ m)
    (tr tr' : Triggered) (out out' : Nat → Int) (t : Nat) (ht : t < vols.length) (h0 : t ≠ 0) (sc : Nat) (hsc : sc < n) :
    ((thresholdRun ⟨p, false, some first⟩ n 0 (thresholdReset tr) out (recorderObserved a threshold (State.start m initial stored) vols))[t]?).map (fun row => row sc) =
    ((thresholdRun ⟨p, false, none⟩ n 0 (thresholdReset tr') out' (storageObserved threshold initial vols))[t]?).map (fun row => row sc) := by
  obtain ⟨u, rfl⟩ := Nat.exists_eq_succ_of_ne_zero h0
  have hg := storageObserved_get threshold initial vols (u + 1) ht
  have hlen : u + 1 < (storageObserved threshold initial vols).length := (List.getElem?_eq_some_iff.1 hg).1
  have he := (List.getElem?_eq_some_iff.1 hg).2
  rw [index_of p none n _ (u + 1) hlen (.inl rfl) sc hsc (volumeBefore initial vols (u + 1) sc) threshold (by rw [he]) (by rw [he]) tr' out' _ rfl]
  have hlen' : u + 1 < (recorderObserved a threshold (State.start m initial stored) vols).length := by simpa [recorderObserved] using ht
  refine index_of p (some first) n _ (u + 1) hlen' (.inr h0) sc hsc (volumeBefore initial vols (u + 1) sc) threshold (by simp [recorderObserved]) ?_ tr out _ rfl
  simp only [recorderObserved, List.getElem_map, List.getElem_range, Nat.add_sub_cancel]
  rw [C89_volume a m initial stored (vols.take (u + 1)) (by simp; omega) u (by simp; omega)]
  simp [volumeBefore, List.getD_eq_getElem?_getD, List.getElem?_eq_getElem (show u < vols.length by omega)]

example : ((thresholdRun ⟨.lt, false, none⟩ 1 0 (thresholdReset fun _ => true) (fun _ => 0) (storageObserved 5 (fun _ => 10) [fun _ => 4, fun _ => 6])).map fun f => f 0) = [0, 1] ∧
    ((thresholdRun ⟨.lt, false, some 1⟩ 1 0 (thresholdReset fun _ => true) (fun _ => 0)
      (recorderObserved ⟨0, none⟩ 5 (State.start 2 (fun _ => 10) fun _ => 0) [fun _ => 4, fun _ => 6])).map fun f => f 0) = [1, 1] ∧
    thresholdStates .lt 5 [fun _ => 4] 0 = 1 := by decide +kernel

/-- **C89 (dates).** The years (or ordinal days) of a run never go back. With the predicate "at or after" (`≥`) or "after" (`>`) the index is 0 until the threshold and 1 from then on, with
ratchet or without. -/
theorem C89_dates (p : Predicate) (hp : p = .ge ∨ p = .gt) (ratchet : Bool) (threshold : Rat) (n : Nat) (xs : List Int) (hxs : xs.Pairwise (· ≤ ·)) (tr : Triggered) (out : Nat → Int)
    (t : Nat) (ht : t < xs.length) (sc : Nat) (hsc : sc < n) :
    ∃ h : t < (thresholdRun ⟨p, ratchet, none⟩ n 0 (thresholdReset tr) out (dateObserved threshold xs)).length,
      ((thresholdRun ⟨p, ratchet, none⟩ n 0 (thresholdReset tr) out (dateObserved threshold xs))[t] sc = 1 ↔ p.Rel (xs[t] : Rat) threshold) ∧
      ((thresholdRun ⟨p, ratchet, none⟩ n 0 (thresholdReset tr) out (dateObserved threshold xs))[t] sc = 0 ∨
        (thresholdRun ⟨p, ratchet, none⟩ n 0 (thresholdReset tr) out (dateObserved threshold xs))[t] sc = 1) := by
  have hlen : (dateObserved threshold xs).length = xs.length := by simp [dateObserved]
  have hs : ∀ (u : Nat) (hu : u < xs.length), Satisfies p ((dateObserved threshold xs)[u]'(by omega)) sc ↔ p.Rel (xs[u] : Rat) threshold := by
    intro u hu
    simp [Satisfies, dateObserved]
  cases ratchet with
  | false =>
    obtain ⟨h, h1, h0⟩ := C32_predicate ⟨p, false, none⟩ rfl n tr out (dateObserved threshold xs) t (by omega) (.inl rfl) sc hsc
    refine ⟨h, by rw [h1, hs t ht], ?_⟩
    by_cases hh : Satisfies p ((dateObserved threshold xs)[t]'(by omega)) sc
    · exact .inr (h1.2 hh)
    · exact .inl (h0.2 hh)
  | true =>
    obtain ⟨h, h1, h0⟩ := C32_ratchet_partial ⟨p, true, none⟩ rfl n tr out (dateObserved threshold xs) t (by omega) (.inl rfl) sc hsc
    refine ⟨h, ?_, h0⟩
    rw [h1]
    constructor
    · rintro ⟨u, hu, -, hh⟩
      rw [hs u (by omega)] at hh
      have hle : xs[u] ≤ xs[t] := by
        rcases Nat.lt_or_eq_of_le hu with hlt | rfl
        · exact List.pairwise_iff_getElem.1 hxs u t (by omega) ht hlt
        · exact le_refl _
      have hle' : (xs[u] : Rat) ≤ (xs[t] : Rat) := by exact_mod_cast hle
      rcases hp with rfl | rfl
      · exact le_trans (show threshold ≤ (xs[u] : Rat) from hh) hle'
      · exact lt_of_lt_of_le (show threshold < (xs[u] : Rat) from hh) hle'
    · exact fun hh => ⟨t, le_refl _, .inl rfl, (hs t ht).2 hh⟩

example : ((thresholdRun ⟨.ge, true, none⟩ 1 0 (thresholdReset fun _ => true) (fun _ => 0) (dateObserved 2017 [2015, 2016, 2017, 2018])).map fun f => f 0) = [0, 0, 1, 1] := by decide +kernel

/-! ## Discount factors -/

private theorem grown_eq (rate amount : Rat) (n : Nat) : grown rate amount n = amount * (1 + rate) ^ n := by
  induction n with
  | zero => simp [grown]
  | succ n ih => rw [grown, ih, pow_succ]; ring

/-- **C89 (discount factor).** What an amount has become `n` years after the base year, times the discount factor of that year, is the amount; in years before the base year the factor
is the growth until then. -/
theorem C89_discount (rate : Rat) (hr : -1 < rate) (base : Int) (amount : Rat) (n : Nat) :
    grown rate amount n * discount rate base (base + n) = amount ∧ amount * discount rate base (base - n) = grown rate amount n := by
  have h1 : (1 + rate) ≠ 0 := by linarith
  have h2 : (1 + rate) ^ n ≠ 0 := pow_ne_zero _ h1
  rw [grown_eq]
  constructor
  · rw [discount, add_sub_cancel_left, zpow_natCast]
    field_simp
  · rw [discount, show base - (n : Int) - base = -(n : Int) by ring, zpow_neg, zpow_natCast]
    field_simp

example : discount (1/10) 2020 2022 = 100/121 ∧ discount (1/10) 2020 2020 = 1 := by decide +kernel

end Verif.Levels

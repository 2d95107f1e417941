import Verif.Model.EventStatistics
import Verif.Props.Events
import Mathlib.Data.List.Sort
import Mathlib.Data.List.Nodup

/-! # C72: durations and statistics of events -/

namespace Verif.Events

open Verif.Run Verif.Recorders

private theorem le_foldl_max (l : List Nat) : ∀ a, a ≤ l.foldl max a ∧ ∀ x ∈ l, x ≤ l.foldl max a := by
  induction l with
  | nil => intro a; exact ⟨le_refl _, fun x h => by cases h⟩
  | cons y l ih =>
    intro a
    obtain ⟨h1, h2⟩ := ih (max a y)
    simp only [List.foldl_cons]
    refine ⟨by omega, fun x hx => ?_⟩
    rcases List.mem_cons.1 hx with rfl | hx
    · omega
    · exact h2 x hx

private theorem fold_set {V : Type} (agg : List V → Option Rat) (G : Nat → List V) : ∀ (ks : List Nat) (vs : List (Option Rat)),
    ks.Nodup → (∀ i ∈ ks, i < vs.length) → ∃ vs', (ks.map fun i => (i, G i)).foldl
      (fun acc g => acc.bind fun vs => if g.1 < vs.length then some (vs.set g.1 (agg g.2)) else none) (some vs) = some vs' ∧
      vs'.length = vs.length ∧ ∀ i, vs'[i]? = if i ∈ ks then some (agg (G i)) else vs[i]? := by
  intro ks
  induction ks with
  | nil => intro vs _ _; exact ⟨vs, rfl, rfl, fun i => by simp⟩
  | cons k ks ih =>
    intro vs hn hb
    have hk := hb k List.mem_cons_self
    obtain ⟨vs', h1, h2, h3⟩ := ih (vs.set k (agg (G k))) (List.nodup_cons.1 hn).2
      (fun i hi => by rw [List.length_set]; exact hb i (List.mem_cons_of_mem _ hi))
    refine ⟨vs', ?_, by rw [h2, List.length_set], fun i => ?_⟩
    · simp only [List.map_cons, List.foldl_cons, Option.bind_some]
      rw [if_pos hk]
      exact h1
    · rw [h3 i]
      by_cases hi : i ∈ ks
      · rw [if_pos hi, if_pos (List.mem_cons_of_mem _ hi)]
      · rw [if_neg hi]
        by_cases hik : i = k
        · subst hik
          rw [if_pos List.mem_cons_self, List.getElem?_set_self hk]
        · rw [if_neg (by simp [hik, hi]), List.getElem?_set_ne (fun h => hik h.symm)]

private theorem aggregate_ok {V : Type} (agg : List V → Option Rat) (ncomb : Nat) (rows : List (Nat × V))
    (h : ∀ r ∈ rows, r.1 < ncomb) : ∃ vs, aggregate agg ncomb rows = some vs ∧ vs.length = ncomb ∧ ∀ i < ncomb,
      vs[i]? = some (if rows.filter (fun r => r.1 = i) = [] then none else
        agg ((rows.filter fun r => r.1 = i).map Prod.snd)) := by
  have hn : ((List.range ((rows.map Prod.fst).foldl max 0 + 1)).filter fun i => i ∈ rows.map Prod.fst).Nodup :=
    List.nodup_range.filter _
  have hmem : ∀ i, i ∈ ((List.range ((rows.map Prod.fst).foldl max 0 + 1)).filter fun i => i ∈ rows.map Prod.fst) ↔
      i ∈ rows.map Prod.fst := by
    intro i
    rw [List.mem_filter, List.mem_range]
    simp only [decide_eq_true_eq]
    refine ⟨fun h => h.2, fun h => ⟨?_, h⟩⟩
    have := (le_foldl_max (rows.map Prod.fst) 0).2 i h
    omega
  obtain ⟨vs, h1, h2, h3⟩ := fold_set agg (fun i => (rows.filter fun r => r.1 = i).map Prod.snd) _
    (List.replicate ncomb none) hn (by
      intro i hi
      rw [hmem] at hi
      obtain ⟨r, hr, rfl⟩ := List.mem_map.1 hi
      simpa using h r hr)
  refine ⟨vs, h1, by simpa using h2, fun i hi => ?_⟩
  rw [h3 i]
  by_cases hm : i ∈ rows.map Prod.fst
  · rw [if_pos ((hmem i).2 hm), if_neg]
    obtain ⟨r, hr, he⟩ := List.mem_map.1 hm
    intro hnil
    have : r ∈ rows.filter (fun r => r.1 = i) := List.mem_filter.2 ⟨hr, by simpa using he⟩
    rw [hnil] at this
    cases this
  · rw [if_neg (fun h => hm ((hmem i).1 h)), if_pos, List.getElem?_replicate, if_pos hi]
    rw [List.filter_eq_nil_iff]
    intro r hr
    simp only [decide_eq_true_eq]
    rintro rfl
    exact hm (List.mem_map_of_mem hr)

private theorem filter_rows {V : Type} (f : Event → V) (es : List Event) (i : Nat) :
    (es.map fun e => (e.scenario, f e)).filter (fun r => r.1 = i) =
      (es.filter fun e => e.scenario = i).map fun e => (e.scenario, f e) := by
  rw [List.filter_map]
  rfl

/-- The events of a scenario, as a specification: the maximal runs of the trigger that last at least `minLength` or are in
progress at the end, in order, each with the tracked values of its timesteps. -/
def EventsOf (minLength n : Nat) (T : Nat → Bool) (V : Nat → Rat) (es : List Event) : Prop :=
  (∀ a b, (∃ e ∈ es, e.start = a ∧ e.stop = b) ↔ MaximalRun T n a b ∧ (minLength ≤ b - a ∨ b = n)) ∧
  (∀ e ∈ es, e.values = (List.range' e.start (e.stop - e.start)).map V) ∧ es.Pairwise (fun e f => e.stop < f.start)

/-- **C72 (durations).** After a run, the value of the event duration recorder in a scenario is the aggregate of the whole
days from start to end of the scenario's events, in order (the events are those of C42), and NaN if there are none. -/
theorem C72_duration (minLength ncomb : Nat) (os : List (List (Bool × Rat))) (hw : ∀ o ∈ os, o.length = ncomb)
    (date : Nat → Int) (agg : List Int → Option Rat) :
    ∃ v vs, (eventRecorder minLength ncomb).result os (some os.length) = some v ∧
      eventDuration date agg ncomb v.events = some vs ∧ vs.length = ncomb ∧ ∀ i < ncomb, ∃ es,
        EventsOf minLength os.length (fun k => ((os.getD k []).getD i (false, 0)).1)
          (fun k => ((os.getD k []).getD i (false, 0)).2) es ∧
        vs[i]? = some (if es = [] then none else agg (es.map fun e => (date e.stop - date e.start) / 86400000000000)) := by
  obtain ⟨v, h1, h2, h3⟩ := C42_partial minLength ncomb os hw
  obtain ⟨vs, g1, g2, g3⟩ := aggregate_ok agg ncomb (v.events.map fun e => (e.scenario, days date e)) (by
    intro r hr
    obtain ⟨e, he, rfl⟩ := List.mem_map.1 hr
    exact h2 e he)
  refine ⟨v, vs, h1, g1, g2, fun i hi => ⟨v.events.filter fun e => e.scenario = i, ?_, ?_⟩⟩
  · obtain ⟨h4, h5⟩ := h3 i hi _ _ rfl rfl
    refine ⟨fun a b => ⟨?_, fun h => ?_⟩, ?_, h5⟩
    · rintro ⟨e, he, rfl, rfl⟩
      have := (h4 e).1 ⟨(List.mem_filter.1 he).1, by simpa using (List.mem_filter.1 he).2⟩
      exact ⟨this.2.1, this.2.2.1⟩
    · have := (h4 ⟨i, a, b, (List.range' a (b - a)).map fun k => ((os.getD k []).getD i (false, 0)).2⟩).2
        ⟨rfl, h.1, h.2, rfl⟩
      exact ⟨_, List.mem_filter.2 ⟨this.1, by simp⟩, rfl, rfl⟩
    · intro e he
      exact ((h4 e).1 ⟨(List.mem_filter.1 he).1, by simpa using (List.mem_filter.1 he).2⟩).2.2.2
  · rw [g3 i hi, filter_rows]
    simp only [List.map_eq_nil_iff, List.map_map]
    rfl

/-- **C72 (statistics).** The value of the event statistic recorder in a scenario is the aggregate over the scenario's events
of the aggregated values of the tracked parameter during the event, and NaN if there are none. -/
theorem C72_statistic (minLength ncomb : Nat) (os : List (List (Bool × Rat))) (hw : ∀ o ∈ os, o.length = ncomb)
    (eventAgg : List Rat → Rat) (agg : List Rat → Option Rat) :
    ∃ v vs, (eventRecorder minLength ncomb).result os (some os.length) = some v ∧
      eventStatistic eventAgg agg ncomb v.events = some vs ∧ vs.length = ncomb ∧ ∀ i < ncomb, ∃ es,
        EventsOf minLength os.length (fun k => ((os.getD k []).getD i (false, 0)).1)
          (fun k => ((os.getD k []).getD i (false, 0)).2) es ∧
        vs[i]? = some (if es = [] then none else agg (es.map fun e => eventAgg e.values)) := by
  obtain ⟨v, h1, h2, h3⟩ := C42_partial minLength ncomb os hw
  obtain ⟨vs, g1, g2, g3⟩ := aggregate_ok agg ncomb (v.events.map fun e => (e.scenario, eventAgg e.values)) (by
    intro r hr
    obtain ⟨e, he, rfl⟩ := List.mem_map.1 hr
    exact h2 e he)
  refine ⟨v, vs, h1, g1, g2, fun i hi => ⟨v.events.filter fun e => e.scenario = i, ?_, ?_⟩⟩
  · obtain ⟨h4, h5⟩ := h3 i hi _ _ rfl rfl
    refine ⟨fun a b => ⟨?_, fun h => ?_⟩, ?_, h5⟩
    · rintro ⟨e, he, rfl, rfl⟩
      have := (h4 e).1 ⟨(List.mem_filter.1 he).1, by simpa using (List.mem_filter.1 he).2⟩
      exact ⟨this.2.1, this.2.2.1⟩
    · have := (h4 ⟨i, a, b, (List.range' a (b - a)).map fun k => ((os.getD k []).getD i (false, 0)).2⟩).2
        ⟨rfl, h.1, h.2, rfl⟩
      exact ⟨_, List.mem_filter.2 ⟨this.1, by simp⟩, rfl, rfl⟩
    · intro e he
      exact ((h4 e).1 ⟨(List.mem_filter.1 he).1, by simpa using (List.mem_filter.1 he).2⟩).2.2.2
  · rw [g3 i hi, filter_rows]
    simp only [List.map_eq_nil_iff, List.map_map]
    rfl

/-! ## Every timestep with the trigger on is in exactly one event -/

private theorem run_start (T : Nat → Bool) : ∀ k, T k = true → ∃ a ≤ k, (∀ j, a ≤ j → j ≤ k → T j = true) ∧
    (a = 0 ∨ T (a - 1) = false) := by
  intro k
  induction k with
  | zero =>
    intro h
    refine ⟨0, le_refl _, fun j _ hj => ?_, Or.inl rfl⟩
    obtain rfl : j = 0 := by omega
    exact h
  | succ k ih =>
    intro h
    cases hk : T k with
    | false =>
      refine ⟨k + 1, le_refl _, fun j h1 h2 => ?_, Or.inr hk⟩
      obtain rfl : j = k + 1 := by omega
      exact h
    | true =>
      obtain ⟨a, h1, h2, h3⟩ := ih hk
      refine ⟨a, by omega, fun j h4 h5 => ?_, h3⟩
      by_cases hj : j = k + 1
      · rw [hj]; exact h
      · exact h2 j h4 (by omega)

private theorem run_stop (T : Nat → Bool) (n : Nat) : ∀ d k, k + d = n → T k = true → 0 < d → ∃ b, k < b ∧ b ≤ n ∧
    (∀ j, k ≤ j → j < b → T j = true) ∧ (b = n ∨ T b = false) := by
  intro d
  induction d with
  | zero => intro k _ _ h; omega
  | succ d ih =>
    intro k hk hT _
    by_cases hd : d = 0
    · refine ⟨n, by omega, le_refl _, fun j h1 h2 => ?_, Or.inl rfl⟩
      obtain rfl : j = k := by omega
      exact hT
    · cases hn : T (k + 1) with
      | false =>
        refine ⟨k + 1, by omega, by omega, fun j h1 h2 => ?_, Or.inr hn⟩
        obtain rfl : j = k := by omega
        exact hT
      | true =>
        obtain ⟨b, h1, h2, h3, h4⟩ := ih (k + 1) (by omega) hn (by omega)
        refine ⟨b, by omega, h2, fun j h5 h6 => ?_, h4⟩
        by_cases hj : j = k
        · rw [hj]; exact hT
        · exact h3 j (by omega) h6

/-- The timesteps of the events, in order, are the timesteps with the trigger on. -/
private theorem steps_eq {minLength n : Nat} (hm : minLength ≤ 1) {T : Nat → Bool} {V : Nat → Rat} {es : List Event}
    (h : EventsOf minLength n T V es) :
    es.flatMap (fun e => List.range' e.start (e.stop - e.start)) = (List.range n).filter T := by
  obtain ⟨h1, -, h3⟩ := h
  have hs1 : (es.flatMap fun e => List.range' e.start (e.stop - e.start)).Pairwise (· < ·) := by
    have hst : ∀ e ∈ es, e.start ≤ e.stop := fun e he => by
      have := ((h1 e.start e.stop).1 ⟨e, he, rfl, rfl⟩).1.1
      omega
    clear h1
    induction es with
    | nil => exact List.Pairwise.nil
    | cons e es ih =>
      rw [List.flatMap_cons, List.pairwise_append]
      obtain ⟨p1, p2⟩ := List.pairwise_cons.1 h3
      refine ⟨List.pairwise_lt_range', ih p2 (fun x hx => hst x (List.mem_cons_of_mem _ hx)), ?_⟩
      intro a ha b hb
      obtain ⟨f, hf, hb⟩ := List.mem_flatMap.1 hb
      have := p1 f hf
      rw [List.mem_range'_1] at ha hb
      omega
  have hs2 : ((List.range n).filter T).Pairwise (· < ·) := List.pairwise_lt_range.filter _
  have hmem : ∀ k, k ∈ es.flatMap (fun e => List.range' e.start (e.stop - e.start)) ↔ k ∈ (List.range n).filter T := by
    intro k
    rw [List.mem_flatMap, List.mem_filter, List.mem_range]
    constructor
    · rintro ⟨e, he, hk⟩
      rw [List.mem_range'_1] at hk
      obtain ⟨⟨m1, m2, m3, -, -⟩, -⟩ := (h1 e.start e.stop).1 ⟨e, he, rfl, rfl⟩
      exact ⟨by omega, m3 k (by omega) (by omega)⟩
    · rintro ⟨hk, hT⟩
      obtain ⟨a, a1, a2, a3⟩ := run_start T k hT
      obtain ⟨b, b1, b2, b3, b4⟩ := run_stop T n (n - k) k (by omega) hT (by omega)
      obtain ⟨e, he, rfl, rfl⟩ := (h1 a b).2 ⟨⟨by omega, b2, fun j j1 j2 => by
        by_cases hj : j ≤ k
        · exact a2 j j1 hj
        · exact b3 j (by omega) j2, a3, b4⟩, Or.inl (by omega)⟩
      exact ⟨e, he, by rw [List.mem_range'_1]; omega⟩
  have hp := (List.perm_ext_iff_of_nodup (hs1.imp (fun h => Nat.ne_of_lt h)) (hs2.imp fun h => Nat.ne_of_lt h)).2 hmem
  exact hp.eq_of_pairwise (fun a b _ _ h1 h2 => by omega) hs1 hs2

/-- **C72 (days in events).** With daily timesteps and no minimum length, the summed duration of the events in a scenario is
the number of timesteps with the trigger on; NaN if there are none. -/
theorem C72_total_days (minLength ncomb : Nat) (hm : minLength ≤ 1) (os : List (List (Bool × Rat)))
    (hw : ∀ o ∈ os, o.length = ncomb) (date : Nat → Int) (hd : ∀ k, date k = date 0 + k * 86400000000000) :
    ∃ v vs, (eventRecorder minLength ncomb).result os (some os.length) = some v ∧
      eventDuration date (fun l => some ((l.sum : Int) : Rat)) ncomb v.events = some vs ∧ ∀ i < ncomb,
        let on := (os.filter fun o => (o.getD i (false, 0)).1).length
        vs[i]? = some (if on = 0 then none else some (on : Rat)) := by
  have hd : ∀ k, date k = date 0 + k * nsPerDay := hd
  obtain ⟨v, vs, h1, h2, h3, h4⟩ := C72_duration minLength ncomb os hw date fun l => some ((l.sum : Int) : Rat)
  refine ⟨v, vs, h1, h2, fun i hi => ?_⟩
  obtain ⟨es, he, hv⟩ := h4 i hi
  have hsteps := steps_eq hm he
  have hon : (os.filter fun o => (o.getD i (false, 0)).1).length =
      ((List.range os.length).filter fun k => ((os.getD k []).getD i (false, 0)).1).length := by
    have : os = (List.range os.length).map fun k => os.getD k [] := by
      apply List.ext_getElem (by simp)
      intro k hk _
      simp [List.getElem?_eq_getElem hk]
    conv_lhs => rw [this]
    rw [List.filter_map, List.length_map]
    rfl
  simp only
  rw [hv, hon, ← hsteps]
  rw [show (86400000000000 : Int) = nsPerDay from rfl]
  have hlen : ∀ l : List Event, (∀ e ∈ l, e.start < e.stop) →
      (l.map fun e => (date e.stop - date e.start) / nsPerDay).sum =
        ((l.flatMap fun e => List.range' e.start (e.stop - e.start)).length : Int) := by
    intro l
    induction l with
    | nil => intro _; rfl
    | cons e l ih =>
      intro hl
      have he := hl e List.mem_cons_self
      rw [List.map_cons, List.sum_cons, ih fun x hx => hl x (List.mem_cons_of_mem _ hx), List.flatMap_cons,
        List.length_append, List.length_range']
      have : (date e.stop - date e.start) / nsPerDay = e.stop - e.start := by
        rw [hd e.stop, hd e.start, show date 0 + (e.stop : Int) * nsPerDay - (date 0 + e.start * nsPerDay) =
          (e.stop - e.start) * nsPerDay by ring]
        exact Int.mul_ediv_cancel _ (by decide)
      rw [this]
      push_cast
      omega
  have hlt : ∀ e ∈ es, e.start < e.stop := fun e hm => ((he.1 e.start e.stop).1 ⟨e, hm, rfl, rfl⟩).1.1
  by_cases hes : es = []
  · subst hes; simp
  · rw [if_neg hes, if_neg, hlen es hlt]
    · simp
    · obtain ⟨e, l, rfl⟩ := List.exists_cons_of_ne_nil hes
      have := hlt e List.mem_cons_self
      rw [List.flatMap_cons, List.length_append, List.length_range']
      omega

/-- **C72 (totals over events).** With sums as both aggregations and no minimum length, the statistic of a scenario is the sum
of the tracked parameter over the timesteps with the trigger on. -/
theorem C72_total_value (minLength ncomb : Nat) (hm : minLength ≤ 1) (os : List (List (Bool × Rat)))
    (hw : ∀ o ∈ os, o.length = ncomb) :
    ∃ v vs, (eventRecorder minLength ncomb).result os (some os.length) = some v ∧
      eventStatistic List.sum (fun l => some l.sum) ncomb v.events = some vs ∧ ∀ i < ncomb,
        let on := os.filter fun o => (o.getD i (false, 0)).1
        vs[i]? = some (if on = [] then none else some (on.map fun o => (o.getD i (false, 0)).2).sum) := by
  obtain ⟨v, vs, h1, h2, h3, h4⟩ := C72_statistic minLength ncomb os hw List.sum fun l => some l.sum
  refine ⟨v, vs, h1, h2, fun i hi => ?_⟩
  obtain ⟨es, he, hv⟩ := h4 i hi
  have hsteps := steps_eq hm he
  have hon : (os.filter fun o => (o.getD i (false, 0)).1) =
      ((List.range os.length).filter fun k => ((os.getD k []).getD i (false, 0)).1).map fun k => os.getD k [] := by
    have : os = (List.range os.length).map fun k => os.getD k [] := by
      apply List.ext_getElem (by simp)
      intro k hk _
      simp [List.getElem?_eq_getElem hk]
    conv_lhs => rw [this]
    rw [List.filter_map]
    rfl
  simp only
  rw [hv, hon, ← hsteps, List.map_map]
  have hsum : ∀ l : List Event, (∀ e ∈ l, e.values = (List.range' e.start (e.stop - e.start)).map
      fun k => ((os.getD k []).getD i (false, 0)).2) →
      (l.map fun e => e.values.sum).sum = ((l.flatMap fun e => List.range' e.start (e.stop - e.start)).map
        ((fun o : List (Bool × Rat) => (o.getD i (false, 0)).2) ∘ fun k => os.getD k [])).sum := by
    intro l
    induction l with
    | nil => intro _; rfl
    | cons e l ih =>
      intro hl
      rw [List.map_cons, List.sum_cons, ih fun x hx => hl x (List.mem_cons_of_mem _ hx), List.flatMap_cons, List.map_append,
        List.sum_append, hl e List.mem_cons_self]
      rfl
  have hlt : ∀ e ∈ es, e.start < e.stop := fun e hm => ((he.1 e.start e.stop).1 ⟨e, hm, rfl, rfl⟩).1.1
  by_cases hes : es = []
  · subst hes; simp
  · rw [if_neg hes, if_neg, hsum es he.2.1]
    obtain ⟨e, l, rfl⟩ := List.exists_cons_of_ne_nil hes
    have := hlt e List.mem_cons_self
    intro hnil
    have hl := congrArg List.length hnil
    rw [List.flatMap_cons, List.length_map, List.length_append, List.length_range', List.length_nil] at hl
    omega

/-- **C72 fails in other sub-models of a coupled run.** There the timestepper is not advanced past the last timestep
(`C40_coupled`): an event in the last of three daily timesteps is recorded with a duration of zero days. -/
theorem C72_coupled_fails : ∃ v, (eventRecorder 1 1).result [[(false, 0)], [(false, 0)], [(true, 0)]] (some 2) = some v ∧
    eventDuration (fun k => k * nsPerDay) (fun l => some ((l.sum : Int) : Rat)) 1 v.events = some [some 0] :=
  ⟨_, rfl, by decide +kernel⟩

/-- Two scenarios, five days; in the first two events of two days and one day, in the second none. -/
example : ∃ v, (eventRecorder 1 2).result [[(true, 1), (false, 5)], [(true, 2), (false, 5)], [(false, 3), (false, 5)],
    [(true, 4), (false, 5)], [(false, 7), (false, 5)]] (some 5) = some v ∧
    eventDuration (fun k => k * nsPerDay) (fun l => some ((l.sum : Int) : Rat)) 2 v.events = some [some 3, none] ∧
    eventStatistic List.sum (fun l => some l.sum) 2 v.events = some [some 7, none] :=
  ⟨_, rfl, by decide +kernel, by decide +kernel⟩

end Verif.Events

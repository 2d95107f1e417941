import Verif.Spec.ResultTables
import Mathlib.Data.List.Nodup
import Mathlib.Data.List.Basic
import Mathlib.Algebra.Order.BigOperators.Group.List
import Mathlib.Tactic.Linarith
/-!
C112: tables of results.
-/

namespace Verif.ResultTables

variable {α : Type}

/-! ## Tables of all recorders -/

private theorem put_new {κ β : Type} [DecidableEq κ] (d : List (κ × β)) (k : κ) (v : β) (h : k ∉ d.map Prod.fst) : put d k v = d ++ [(k, v)] := by
  unfold put
  rw [if_neg]
  intro hc
  obtain ⟨p, hp, he⟩ := List.any_eq_true.mp hc
  exact h (List.mem_map.mpr ⟨p, hp, by simpa using he⟩)

private def pairs (rs : List (Rec α)) : List (Label × Frame α) := rs.filterMap fun r => r.frame.map fun f => (r.name, f)

private theorem frames_eq (rs : List (Rec α)) (h : Distinct rs) : frames rs = pairs rs := by
  have key : ∀ (rs : List (Rec α)) (d : List (Label × Frame α)), (rs.map Rec.name).Nodup → (∀ r ∈ rs, r.name ∉ d.map Prod.fst) →
      rs.foldl (fun d r => match r.frame with | none => d | some f => put d r.name f) d = d ++ pairs rs := by
    intro rs
    induction rs with
    | nil => intro d _ _; simp [pairs]
    | cons r rs ih =>
      intro d hn hd
      simp only [List.map_cons, List.nodup_cons] at hn
      rw [List.foldl_cons]
      cases hf : r.frame with
      | none =>
        simp only
        rw [ih d hn.2 fun q hq => hd q (by simp [hq])]
        simp [pairs, hf]
      | some f =>
        simp only
        rw [put_new d r.name f (hd r (by simp)), ih _ hn.2 ?_]
        · simp [pairs, hf]
        · intro q hq
          simp only [List.map_append, List.mem_append, List.map_cons, List.map_nil, List.mem_singleton, not_or]
          exact ⟨hd q (by simp [hq]), fun e => hn.1 (e ▸ List.mem_map.mpr ⟨q, hq, rfl⟩)⟩
  have := key rs [] h (by simp)
  rw [List.nil_append] at this
  rw [← this]
  unfold frames
  congr 1

private theorem mem_pairs (rs : List (Rec α)) (n : Label) (f : Frame α) : (n, f) ∈ pairs rs ↔ OfRecorder rs n f := by
  unfold pairs OfRecorder
  rw [List.mem_filterMap]
  constructor
  · rintro ⟨r, hr, h⟩
    cases hf : r.frame with
    | none => simp [hf] at h
    | some g => simp [hf] at h; exact ⟨r, hr, h.1, by rw [hf, h.2]⟩
  · rintro ⟨r, hr, rfl, h⟩
    exact ⟨r, hr, by simp [h]⟩

private theorem columns_place : ∀ (fs : List (Label × Frame α)) (j : Nat) (n : Label) (c : List Label), (fs.flatMap fun p => p.2.columns.map fun c => (p.1, c))[j]? = some (n, c) →
    ∃ f k, (n, f) ∈ fs ∧ place fs j = some (f, k) ∧ f.columns[k]? = some c
  | [], j, n, c, h => by simp at h
  | (m, g) :: fs, j, n, c, h => by
    rw [List.flatMap_cons] at h
    by_cases hj : j < g.columns.length
    · rw [List.getElem?_append_left (by simpa using hj), List.getElem?_map] at h
      obtain ⟨x, hx, he⟩ := Option.map_eq_some_iff.mp h
      injection he with h1 h2
      subst h1 h2
      exact ⟨g, j, by simp, by simp [place, hj], hx⟩
    · rw [List.getElem?_append_right (by simpa using hj), List.length_map] at h
      obtain ⟨f, k, h1, h2, h3⟩ := columns_place fs _ n c h
      exact ⟨f, k, by simp [h1], by simp [place, hj, h2], h3⟩

private theorem place_columns : ∀ (fs : List (Label × Frame α)) (n : Label) (f : Frame α) (k : Nat) (c : List Label), (n, f) ∈ fs → f.columns[k]? = some c →
    ∃ j, (fs.flatMap fun p => p.2.columns.map fun c => (p.1, c))[j]? = some (n, c) ∧ place fs j = some (f, k)
  | [], n, f, k, c, h, _ => by simp at h
  | (m, g) :: fs, n, f, k, c, h, hc => by
    have hk : k < f.columns.length := (List.getElem?_eq_some_iff.mp hc).1
    rcases List.mem_cons.mp h with h | h
    · injection h with h1 h2
      subst h1 h2
      refine ⟨k, ?_, by simp [place, hk]⟩
      rw [List.flatMap_cons, List.getElem?_append_left (by simpa using hk), List.getElem?_map, hc]
      rfl
    · obtain ⟨j, h1, h2⟩ := place_columns fs n f k c h hc
      refine ⟨g.columns.length + j, ?_, by simp [place, h2]⟩
      rw [List.flatMap_cons, List.getElem?_append_right (by simp), List.length_map, Nat.add_sub_cancel_left]
      exact h1

private theorem mem_union : ∀ (fs : List (Label × Frame α)) (l : Label), l ∈ union fs ↔ ∃ p ∈ fs, l ∈ p.2.index
  | [], l => by simp [union]
  | (n, f) :: fs, l => by
    simp only [union, List.mem_append, List.mem_filter, mem_union fs l, decide_eq_true_eq, List.mem_cons, exists_eq_or_imp]
    tauto

private theorem nodup_union : ∀ (fs : List (Label × Frame α)), (∀ p ∈ fs, p.2.index.Nodup) → (union fs).Nodup
  | [], _ => by simp [union]
  | (n, f) :: fs, h => by
    unfold union
    rw [List.nodup_append]
    refine ⟨h (n, f) (by simp), (nodup_union fs fun p hp => h p (by simp [hp])).filter _, ?_⟩
    intro a ha b hb e
    subst e
    simp at hb
    exact hb.2 ha

/-- What a joined table looks like. -/
private theorem concat_cases (fs : List (Label × Frame α)) (t : Table α) (h : concat fs = .ok t) :
    t.columns = (fs.flatMap fun p => p.2.columns.map fun c => (p.1, c)) ∧
    ((∀ p ∈ fs, p.2.index = t.index) ∧ (∀ i j, t.cell i j = match place fs j with | none => none | some (f, c) => if i < t.index.length then some (f.cell i c) else none) ∨
     (∀ p ∈ fs, p.2.index.Nodup) ∧ t.index = union fs ∧ ∀ i j, t.cell i j = match place fs j, (union fs)[i]? with
        | some (f, c), some l => if l ∈ f.index then some (f.cell (f.index.idxOf l) c) else none
        | _, _ => none) := by
  unfold concat at h
  cases fs with
  | nil => cases h
  | cons p fs =>
    obtain ⟨n0, f0⟩ := p
    simp only at h
    split at h
    · cases h
    · split at h
      · next h2 =>
        injection h with h
        subst h
        refine ⟨rfl, Or.inl ⟨fun p hp => by simpa using List.all_eq_true.mp h2 p hp, fun i j => rfl⟩⟩
      · split at h
        · next h3 =>
          injection h with h
          subst h
          exact ⟨rfl, Or.inr ⟨fun p hp => by simpa using List.all_eq_true.mp h3 p hp, rfl, fun i j => rfl⟩⟩
        · cases h

private theorem concat_has (fs : List (Label × Frame α)) (t : Table α) (h : concat fs = .ok t) (l n : Label) (c : List Label) (v : α) :
    t.Has l n c v ↔ ∃ f, (n, f) ∈ fs ∧ f.Has l c v := by
  obtain ⟨hc, hi⟩ := concat_cases fs t h
  constructor
  · rintro ⟨i, j, h1, h2, h3⟩
    rw [hc] at h2
    obtain ⟨f, k, m1, m2, m3⟩ := columns_place fs j n c h2
    refine ⟨f, m1, ?_⟩
    rcases hi with ⟨a, b⟩ | ⟨a, e, b⟩
    · rw [b, m2] at h3
      simp only at h3
      split at h3
      · injection h3 with h3
        exact ⟨i, k, by rw [a _ m1]; exact h1, m3, h3⟩
      · cases h3
    · rw [b, m2, ← e, h1] at h3
      simp only at h3
      split at h3
      · next hm =>
        injection h3 with h3
        exact ⟨f.index.idxOf l, k, by rw [List.getElem?_eq_getElem (List.idxOf_lt_length_of_mem hm)]; simp, m3, h3⟩
      · cases h3
  · rintro ⟨f, m1, i, k, h1, h2, h3⟩
    obtain ⟨j, j1, j2⟩ := place_columns fs n f k c m1 h2
    rcases hi with ⟨a, b⟩ | ⟨a, e, b⟩
    · refine ⟨i, j, by rw [← a _ m1]; exact h1, by rw [hc]; exact j1, ?_⟩
      rw [b, j2]
      simp only
      rw [if_pos, h3]
      rw [← a _ m1]
      exact (List.getElem?_eq_some_iff.mp h1).1
    · have hm : l ∈ f.index := List.mem_of_getElem? h1
      obtain ⟨i', hi'⟩ := List.getElem?_of_mem ((mem_union fs l).mpr ⟨_, m1, hm⟩)
      refine ⟨i', j, by rw [e]; exact hi', by rw [hc]; exact j1, ?_⟩
      rw [b, j2, hi']
      simp only
      rw [if_pos hm, ← h3]
      congr 2
      obtain ⟨hlt, he⟩ := List.getElem?_eq_some_iff.mp h1
      rw [← he]
      exact (a _ m1).idxOf_getElem i hlt

/-- **C112 (all recorders).** A number stands in the joined table in the column of a recorder exactly if it stands there in the recorder's own table: nothing is lost, moved to another row or column or attributed to another
recorder, also if the recorders have different rows. -/
theorem C112_cells (rs : List (Rec α)) (hd : Distinct rs) (t : Table α) (h : toDataframe rs = .ok t) (l n : Label) (c : List Label) (v : α) :
    t.Has l n c v ↔ ∃ f, OfRecorder rs n f ∧ f.Has l c v := by
  unfold toDataframe at h
  rw [frames_eq rs hd] at h
  rw [concat_has _ t h l n c v]
  exact exists_congr fun f => and_congr_left fun _ => mem_pairs rs n f

/-- **C112 (all recorders).** The rows of the joined table are those of the recorders' tables: the same rows in the same order if all agree, otherwise every label once. -/
theorem C112_rows (rs : List (Rec α)) (hd : Distinct rs) (t : Table α) (h : toDataframe rs = .ok t) :
    (∀ l, l ∈ t.index ↔ ∃ n f, OfRecorder rs n f ∧ l ∈ f.index) ∧ ((∀ n f, OfRecorder rs n f → f.index = t.index) ∨ t.index.Nodup) := by
  unfold toDataframe at h
  rw [frames_eq rs hd] at h
  have hne : ∃ p, p ∈ pairs rs := by
    cases hp : pairs rs with
    | nil => rw [hp] at h; cases h
    | cons p ps => exact ⟨p, by simp⟩
  obtain ⟨-, hi⟩ := concat_cases _ t h
  rcases hi with ⟨a, -⟩ | ⟨a, e, -⟩
  · refine ⟨fun l => ⟨fun hl => ?_, ?_⟩, Or.inl fun n f hf => a (n, f) ((mem_pairs rs n f).mpr hf)⟩
    · obtain ⟨⟨n, f⟩, hp⟩ := hne
      exact ⟨n, f, (mem_pairs rs n f).mp hp, by rw [a (n, f) hp]; exact hl⟩
    · rintro ⟨n, f, hf, hl⟩
      rw [← a (n, f) ((mem_pairs rs n f).mpr hf)]
      exact hl
  · refine ⟨fun l => ?_, Or.inr (by rw [e]; exact nodup_union _ a)⟩
    rw [e, mem_union]
    constructor
    · rintro ⟨⟨n, f⟩, hp, hl⟩
      exact ⟨n, f, (mem_pairs rs n f).mp hp, hl⟩
    · rintro ⟨n, f, hf, hl⟩
      exact ⟨(n, f), (mem_pairs rs n f).mpr hf, hl⟩

private theorem all_same {β γ : Type} [DecidableEq γ] (g : β → γ) (x : β) (xs : List β) : (x :: xs).all (fun p => g p = g x) = true ↔ ∀ p ∈ x :: xs, ∀ q ∈ x :: xs, g p = g q := by
  rw [List.all_eq_true]
  constructor
  · intro h p hp q hq
    have a := h p hp
    have b := h q hq
    simp only [decide_eq_true_eq] at a b
    rw [a, b]
  · intro h p hp
    simp [h p hp x (by simp)]

/-- **C112 (all recorders).** There is a joined table exactly if there is a recorder with a table, the tables agree in their columns or at least in the number of levels, and they agree in their rows or have no row label twice. -/
theorem C112_exists_partial (rs : List (Rec α)) (hd : Distinct rs) :
    (∃ t, toDataframe rs = .ok t) ↔ (∃ n f, OfRecorder rs n f) ∧
      ((∀ n f m g, OfRecorder rs n f → OfRecorder rs m g → f.columns = g.columns) ∨ (∀ n f m g, OfRecorder rs n f → OfRecorder rs m g → f.levels = g.levels)) ∧
      ((∀ n f m g, OfRecorder rs n f → OfRecorder rs m g → f.index = g.index) ∨ ∀ n f, OfRecorder rs n f → f.index.Nodup) := by
  unfold toDataframe
  rw [frames_eq rs hd]
  have conv : ∀ {γ : Type} (g : Frame α → γ), (∀ n f m k, OfRecorder rs n f → OfRecorder rs m k → g f = g k) ↔ ∀ p ∈ pairs rs, ∀ q ∈ pairs rs, g p.2 = g q.2 := by
    intro γ g
    constructor
    · intro h p hp q hq
      exact h p.1 p.2 q.1 q.2 ((mem_pairs rs _ _).mp hp) ((mem_pairs rs _ _).mp hq)
    · intro h n f m k hf hk
      exact h (n, f) ((mem_pairs rs n f).mpr hf) (m, k) ((mem_pairs rs m k).mpr hk)
  have conv2 : (∀ n f, OfRecorder rs n f → f.index.Nodup) ↔ ∀ p ∈ pairs rs, p.2.index.Nodup :=
    ⟨fun h p hp => h p.1 p.2 ((mem_pairs rs _ _).mp hp), fun h n f hf => h (n, f) ((mem_pairs rs n f).mpr hf)⟩
  have conv3 : (∃ n f, OfRecorder rs n f) ↔ pairs rs ≠ [] := by
    constructor
    · rintro ⟨n, f, h⟩ e
      have := (mem_pairs rs n f).mpr h
      rw [e] at this
      simp at this
    · intro h
      obtain ⟨⟨n, f⟩, hp⟩ := List.exists_mem_of_ne_nil _ h
      exact ⟨n, f, (mem_pairs rs n f).mp hp⟩
  rw [conv Frame.columns, conv Frame.levels, conv Frame.index, conv2, conv3]
  generalize pairs rs = fs
  cases fs with
  | nil => simp [concat]
  | cons p fs =>
    obtain ⟨n0, f0⟩ := p
    rw [← all_same (fun p : Label × Frame α => p.2.columns) (n0, f0) fs, ← all_same (fun p : Label × Frame α => p.2.levels) (n0, f0) fs, ← all_same (fun p : Label × Frame α => p.2.index) (n0, f0) fs]
    have hnd : (∀ p ∈ (n0, f0) :: fs, p.2.index.Nodup) ↔ ((n0, f0) :: fs).all (fun p => p.2.index.Nodup) = true := by
      rw [List.all_eq_true]
      simp only [decide_eq_true_eq]
    rw [hnd]
    unfold concat
    simp only
    generalize ((n0, f0) :: fs).all (fun p => decide (p.2.columns = f0.columns)) = b1
    generalize ((n0, f0) :: fs).all (fun p => decide (p.2.levels = f0.levels)) = b2
    generalize ((n0, f0) :: fs).all (fun p => decide (p.2.index = f0.index)) = b3
    generalize ((n0, f0) :: fs).all (fun p => decide p.2.index.Nodup) = b4
    cases b1 <;> cases b2 <;> cases b3 <;> cases b4 <;> simp

/-- Flows of one day for two scenarios (two levels of column labels), and the table of an event recorder without events. -/
def flows : Rec Nat := ⟨"flow".toList, some ⟨2, ["2015-01-01".toList], [["0".toList, "0".toList], ["0".toList, "1".toList]], fun i j => 10 * i + j⟩⟩
def events : Rec Nat := ⟨"events".toList, some ⟨1, [], [["scenario_id".toList], ["start".toList], ["end".toList]], fun _ _ => 0⟩⟩

/-- **C112 (all recorders).** Recorders that have tables each do not always have one together: with more than one scenario, an array recorder and an event recorder in the same model make `to_dataframe` of the model fail. -/
theorem C112_levels_fails : Distinct [flows, events] ∧ (∃ t, toDataframe [flows] = .ok t) ∧ (∃ t, toDataframe [events] = .ok t) ∧ (toDataframe [flows, events]).toOption.isNone = true := by
  refine ⟨by unfold Distinct; decide +kernel, ⟨_, rfl⟩, ⟨_, rfl⟩, by decide +kernel⟩

/-! ## Results of a run -/

private theorem foldl_put {β : Type} (pre : Label) (l : List (Label × β)) (d : List (Label × Value β)) (hn : (l.map Prod.fst).Nodup) (hd : ∀ p ∈ l, pre ++ p.1 ∉ d.map Prod.fst) :
    l.foldl (fun d p => put d (pre ++ p.1) (.other p.2)) d = d ++ l.map fun p => (pre ++ p.1, .other p.2) := by
  induction l generalizing d with
  | nil => simp
  | cons p l ih =>
    simp only [List.map_cons, List.nodup_cons] at hn
    rw [List.foldl_cons, put_new _ _ _ (hd p (by simp)), ih _ hn.2 ?_]
    · simp
    · intro q hq
      simp only [List.map_append, List.mem_append, List.map_cons, List.map_nil, List.mem_singleton, not_or]
      refine ⟨hd q (by simp [hq]), fun e => hn.1 ?_⟩
      rw [List.append_cancel_left_eq] at e
      exact e ▸ List.mem_map.mpr ⟨q, hq, rfl⟩

private theorem dotted (k : Label) (h : k ∈ "timestep".toList :: attributeNames) : '.' ∉ k := by
  revert h
  revert k
  decide +kernel

/-- **C112 (results).** The table of a result has one row for every attribute, every setting and every statistic of the solver, with its value, and no row hides another, whatever the solver calls its settings. -/
theorem C112_result {β : Type} (r : Result β) (ha : r.attributes.map Prod.fst = ["timesteps", "time_taken", "time_taken_before", "time_taken_after", "time_taken_with_overhead", "speed",
      "num_scenarios", "solver_name", "version"].map String.toList) (hs : (r.settings.map Prod.fst).Nodup) (ht : (r.stats.map Prod.fst).Nodup) :
    r.table = ("timestep".toList, .date r.timestep) :: r.attributes.map (fun a => (a.1, Value.other a.2)) ++ r.settings.map (fun p => ("solver_settings.".toList ++ p.1, .other p.2)) ++
      r.stats.map (fun p => ("solver_stats.".toList ++ p.1, .other p.2)) ∧ (r.table.map Prod.fst).Nodup := by
  have ha : r.attributes.map Prod.fst = attributeNames := ha
  rw [show "solver_settings.".toList = settingsPrefix by decide +kernel, show "solver_stats.".toList = statsPrefix by decide +kernel]
  have hk : (("timestep".toList, Value.date r.timestep) :: r.attributes.map (fun a => (a.1, Value.other a.2))).map Prod.fst = "timestep".toList :: attributeNames := by
    rw [← ha]
    simp [Function.comp_def]
  have d1 : ∀ k : Label, settingsPrefix ++ k ∉ "timestep".toList :: attributeNames := fun k h => dotted _ h (by simp [settingsPrefix])
  have d2 : ∀ k : Label, statsPrefix ++ k ∉ "timestep".toList :: attributeNames := fun k h => dotted _ h (by simp [statsPrefix])
  have d3 : ∀ a b : Label, settingsPrefix ++ a ≠ statsPrefix ++ b := fun a b h => by simp [settingsPrefix, statsPrefix] at h
  have e : r.table = ("timestep".toList, .date r.timestep) :: r.attributes.map (fun a => (a.1, Value.other a.2)) ++ r.settings.map (fun p => (settingsPrefix ++ p.1, .other p.2)) ++
      r.stats.map (fun p => (statsPrefix ++ p.1, .other p.2)) := by
    unfold Result.table
    simp only
    rw [foldl_put settingsPrefix r.settings _ hs ?_, foldl_put statsPrefix r.stats _ ht ?_]
    · intro p _
      rw [List.map_append, hk, List.mem_append, not_or]
      refine ⟨d2 _, fun hm => ?_⟩
      rw [List.map_map, List.mem_map] at hm
      obtain ⟨q, -, hq⟩ := hm
      exact d3 _ _ hq
    · intro p _
      rw [hk]
      exact d1 _
  refine ⟨e, ?_⟩
  rw [e, List.map_append, List.map_append, hk, List.nodup_append, List.nodup_append]
  have inj : ∀ pre : Label, Function.Injective fun k : Label => pre ++ k := fun pre a b h => List.append_cancel_left h
  have n1 : ((r.settings.map fun p => (settingsPrefix ++ p.1, (Value.other p.2 : Value β))).map Prod.fst).Nodup := by
    have := hs.map (inj settingsPrefix)
    simpa [List.map_map, Function.comp_def] using this
  have n2 : ((r.stats.map fun p => (statsPrefix ++ p.1, (Value.other p.2 : Value β))).map Prod.fst).Nodup := by
    have := ht.map (inj statsPrefix)
    simpa [List.map_map, Function.comp_def] using this
  refine ⟨⟨by decide +kernel, n1, ?_⟩, n2, ?_⟩
  · rintro a ham b hb rfl
    rw [List.map_map, List.mem_map] at hb
    obtain ⟨q, -, rfl⟩ := hb
    exact d1 _ ham
  · rintro a ham b hb rfl
    rw [List.map_map, List.mem_map] at hb
    obtain ⟨q, -, rfl⟩ := hb
    rcases List.mem_append.mp ham with h | h
    · exact d2 _ h
    · rw [List.map_map, List.mem_map] at h
      obtain ⟨p, -, hp⟩ := h
      exact d3 _ _ hp

/-! ## Aligned series -/

private theorem find_unique {b : List (Int × α)} (hb : Ordered b) (t : Int) (y : α) : b.find? (fun q => q.1 = t) = some (t, y) ↔ (t, y) ∈ b := by
  constructor
  · exact List.mem_of_find?_eq_some
  · intro h
    induction b with
    | nil => simp at h
    | cons p b ih =>
      unfold Ordered at hb ih
      rw [List.pairwise_cons] at hb
      rw [List.find?_cons]
      rcases List.mem_cons.mp h with h | h
      · subst h
        simp
      · have := hb.1 _ h
        have hne : decide (p.1 = t) = false := by simp only [decide_eq_false_iff_not]; intro e; simp only at this; omega
        rw [hne]
        exact ih hb.2 h

private theorem mem_inner {a b : List (Int × α)} (hb : Ordered b) (t : Int) (x y : α) : (t, x, y) ∈ inner a b ↔ (t, x) ∈ a ∧ (t, y) ∈ b := by
  unfold inner
  rw [List.mem_filterMap]
  constructor
  · rintro ⟨p, hp, h⟩
    obtain ⟨q, hq, he⟩ := Option.map_eq_some_iff.mp h
    have h1 := List.find?_some hq
    simp only [decide_eq_true_eq] at h1
    injection he with e1 e2
    injection e2 with e2 e3
    subst e1 e2 e3
    refine ⟨hp, ?_⟩
    rw [← h1]
    exact List.mem_of_find?_eq_some hq
  · rintro ⟨h1, h2⟩
    refine ⟨_, h1, ?_⟩
    rw [(find_unique hb t y).mpr h2]
    rfl

private theorem inner_ordered {a b : List (Int × α)} (ha : Ordered a) : (inner a b).Pairwise fun p q => p.1 < q.1 := by
  unfold inner
  refine List.Pairwise.filterMap _ ?_ ha
  intro p q hpq r hr s hs
  obtain ⟨_, _, rfl⟩ := Option.map_eq_some_iff.mp hr
  obtain ⟨_, _, rfl⟩ := Option.map_eq_some_iff.mp hs
  exact hpq

/-- The times from `start` to `end`. -/
def Within (start stop : Option Int) (t : Int) : Prop := (∀ s, start = some s → s ≤ t) ∧ ∀ e, stop = some e → t ≤ e

private theorem getLast_ge {β : Type} (g : β → Int) (l : List β) (h : l.Pairwise fun p q => g p < g q) (last : β) (hl : l.getLast? = some last) : ∀ p ∈ l, g p ≤ g last := by
  obtain ⟨ys, rfl⟩ := List.getLast?_eq_some_iff.mp hl
  intro p hp
  rcases List.mem_append.mp hp with h1 | h1
  · exact le_of_lt ((List.pairwise_append.mp h).2.2 p h1 last (by simp))
  · simp at h1; rw [h1]

private theorem head_le {β : Type} (g : β → Int) (l : List β) (h : l.Pairwise fun p q => g p < g q) (first : β) (hl : l.head? = some first) : ∀ p ∈ l, g first ≤ g p := by
  cases l with
  | nil => simp at hl
  | cons x l =>
    simp at hl
    subst hl
    intro p hp
    rcases List.mem_cons.mp hp with rfl | h1
    · exact le_refl _
    · exact le_of_lt ((List.pairwise_cons.mp h).1 p h1)

/-- **C112 (aligned series).** Two series with different names and at least one time in common are cut to the times that are in both and between the given dates (inclusive), each with its own values, in order; so both have the
same times. -/
theorem C112_align_partial (a b : Series α) (names : Option (List Label)) (start stop : Option Int) (ha : Ordered a.rows) (hb : Ordered b.rows) (n0 n1 : Label) (hn : names.getD [a.name, b.name] = [n0, n1]) (hne : n0 ≠ n1)
    (hc : ∃ t x y, (t, x) ∈ a.rows ∧ (t, y) ∈ b.rows) :
    ∃ ra rb, alignSeries a b names start stop = .ok (.series ra, .series rb) ∧ ra.map Prod.fst = rb.map Prod.fst ∧ Ordered ra ∧
      (∀ t x, (t, x) ∈ ra ↔ (t, x) ∈ a.rows ∧ (∃ y, (t, y) ∈ b.rows) ∧ Within start stop t) ∧ (∀ t y, (t, y) ∈ rb ↔ (t, y) ∈ b.rows ∧ (∃ x, (t, x) ∈ a.rows) ∧ Within start stop t) := by
  have hord := inner_ordered (b := b.rows) ha
  obtain ⟨t0, x0, y0, hx0, hy0⟩ := hc
  have hmem0 := (mem_inner hb t0 x0 y0).mpr ⟨hx0, hy0⟩
  obtain ⟨first, hf⟩ : ∃ f, (inner a.rows b.rows).head? = some f := by
    cases h : inner a.rows b.rows with
    | nil => rw [h] at hmem0; simp at hmem0
    | cons p l => exact ⟨p, rfl⟩
  obtain ⟨last, hl⟩ : ∃ f, (inner a.rows b.rows).getLast? = some f := by
    cases h : (inner a.rows b.rows).getLast? with
    | none => rw [List.getLast?_eq_none_iff.mp h] at hmem0; simp at hmem0
    | some p => exact ⟨p, rfl⟩
  have hge := getLast_ge (fun p : Int × α × α => p.1) _ hord last hl
  have hle := head_le (fun p : Int × α × α => p.1) _ hord first hf
  obtain ⟨df, hdf, hdo, hdm⟩ : ∃ df : List (Int × α × α), (if start.isSome ∨ stop.isSome then (inner a.rows b.rows).filter fun r => start.getD first.1 ≤ r.1 ∧ r.1 ≤ stop.getD last.1 else inner a.rows b.rows) = df ∧
      (df.Pairwise fun p q => p.1 < q.1) ∧ ∀ r, r ∈ df ↔ r ∈ inner a.rows b.rows ∧ Within start stop r.1 := by
    refine ⟨_, rfl, ?_, ?_⟩
    · split
      · exact hord.filter _
      · exact hord
    · intro r
      split
      · rw [List.mem_filter]
        refine and_congr_right fun hr => ?_
        simp only [decide_eq_true_eq, Within]
        have h1 := hge r hr
        have h2 := hle r hr
        cases start <;> cases stop <;> simp <;> omega
      · next h =>
        rw [not_or] at h
        refine ⟨fun hr => ⟨hr, ?_⟩, fun hr => hr.1⟩
        unfold Within
        rw [Option.not_isSome_iff_eq_none, Option.not_isSome_iff_eq_none] at h
        simp [h.1, h.2]
  refine ⟨df.map fun r => (r.1, r.2.1), df.map fun r => (r.1, r.2.2), ?_, ?_, ?_, ?_, ?_⟩
  · unfold alignSeries
    simp only [hn, hf, hl, hdf, if_neg hne]
  · simp [Function.comp_def]
  · unfold Ordered
    rw [List.pairwise_map]
    exact hdo
  · intro t x
    rw [List.mem_map]
    constructor
    · rintro ⟨⟨t', x', y'⟩, hr, e⟩
      injection e with e1 e2
      simp only at e1 e2
      subst e1 e2
      obtain ⟨h1, h2⟩ := (hdm _).mp hr
      obtain ⟨h3, h4⟩ := (mem_inner hb _ _ _).mp h1
      exact ⟨h3, ⟨_, h4⟩, h2⟩
    · rintro ⟨h1, ⟨y, h2⟩, h3⟩
      exact ⟨(t, x, y), (hdm _).mpr ⟨(mem_inner hb _ _ _).mpr ⟨h1, h2⟩, h3⟩, rfl⟩
  · intro t y
    rw [List.mem_map]
    constructor
    · rintro ⟨⟨t', x', y'⟩, hr, e⟩
      injection e with e1 e2
      simp only at e1 e2
      subst e1 e2
      obtain ⟨h1, h2⟩ := (hdm _).mp hr
      obtain ⟨h3, h4⟩ := (mem_inner hb _ _ _).mp h1
      exact ⟨h4, ⟨_, h3⟩, h2⟩
    · rintro ⟨h1, ⟨x, h2⟩, h3⟩
      exact ⟨(t, x, y), (hdm _).mpr ⟨(mem_inner hb _ _ _).mpr ⟨h2, h1⟩, h3⟩, rfl⟩

/-- **C112 (aligned series).** Two series of the same name (the flow of the same node in two runs, say) are not returned as series: each result is the table of both. And series without a common time are an error. -/
theorem C112_align_fails (a b : Series α) (start stop : Option Int) :
    (a.name = b.name → ∀ p q, alignSeries a b none start stop = .ok (p, q) → ∃ rows, p = .both rows ∧ q = .both rows) ∧
    (inner a.rows b.rows = [] → ∀ names p, alignSeries a b names start stop ≠ .ok p) := by
  constructor
  · intro hn p q h
    unfold alignSeries at h
    simp only [Option.getD_none, hn] at h
    split at h
    · simp only [if_true] at h
      injection h with h
      injection h with h1 h2
      exact ⟨_, h1.symm, h2.symm⟩
    · cases h
  · intro he names p h
    unfold alignSeries at h
    simp only [he] at h
    split at h
    · simp at h
    · cases h

/-! ## Profiler -/

private theorem profile_from (cs : List Call) (p : Profiler) (h : Readings p.lastTime cs) :
    let q := cs.foldl (fun p c => p.checkpoint c.phase c.className c.name c.time c.memory c.time' c.memory') p
    ∃ es : List Entry, q.entries = p.entries ++ es ∧ es.map (fun e => (e.phase, e.className, e.name)) = cs.map (fun c => (c.phase, c.className, c.name)) ∧ (∀ e ∈ es, 0 ≤ e.time) ∧
      (es.map Entry.time).sum ≤ q.lastTime - p.lastTime := by
  induction cs generalizing p with
  | nil => exact ⟨[], by simp, rfl, by simp, by simp⟩
  | cons c cs ih =>
    obtain ⟨h1, h2, h3⟩ := h
    obtain ⟨es, e1, e2, e3, e4⟩ := ih (p.checkpoint c.phase c.className c.name c.time c.memory c.time' c.memory') h3
    simp only [List.foldl_cons]
    refine ⟨⟨c.phase, c.className, c.name, c.time - p.lastTime, match c.memory, p.lastMemory with | some m, some l => some (m - l) | _, _ => none⟩ :: es, ?_, ?_, ?_, ?_⟩
    · rw [e1]
      simp only [Profiler.checkpoint, List.append_assoc, List.singleton_append]
      cases c.memory <;> cases p.lastMemory <;> rfl
    · simp [e2]
    · intro e he
      rcases List.mem_cons.mp he with rfl | he
      · simp only; linarith
      · exact e3 e he
    · rw [List.map_cons, List.sum_cons]
      have : (p.checkpoint c.phase c.className c.name c.time c.memory c.time' c.memory').lastTime = c.time' := rfl
      rw [this] at e4
      simp only
      linarith

/-- **C112 (profiler).** With a clock that never goes back, the profiler has one entry for every checkpoint, in order, with its labels; no time is negative and the times add up to no more than has passed since it was created. -/
theorem C112_profiler (t : Rat) (m : Option Rat) (cs : List Call) (h : Readings t cs) :
    (profile t m cs).entries.map (fun e => (e.phase, e.className, e.name)) = cs.map (fun c => (c.phase, c.className, c.name)) ∧ (∀ e ∈ (profile t m cs).entries, 0 ≤ e.time) ∧
    ((profile t m cs).entries.map Entry.time).sum ≤ (profile t m cs).lastTime - t := by
  obtain ⟨es, e1, e2, e3, e4⟩ := profile_from cs ⟨[], t, m⟩ h
  have e1' : (profile t m cs).entries = es := by simpa [profile] using e1
  rw [e1']
  exact ⟨e2, e3, e4⟩

/-- **C112 (profiler).** If the second reading of every checkpoint agrees with the first, the times add up exactly: nothing is counted twice. -/
theorem C112_profiler_sum (t : Rat) (m : Option Rat) (cs : List Call) (h : ∀ c ∈ cs, c.time' = c.time) : ((profile t m cs).entries.map Entry.time).sum = (profile t m cs).lastTime - t := by
  have key : ∀ (cs : List Call) (p : Profiler), (∀ c ∈ cs, c.time' = c.time) →
      ((cs.foldl (fun p c => p.checkpoint c.phase c.className c.name c.time c.memory c.time' c.memory') p).entries.map Entry.time).sum - (p.entries.map Entry.time).sum =
      (cs.foldl (fun p c => p.checkpoint c.phase c.className c.name c.time c.memory c.time' c.memory') p).lastTime - p.lastTime := by
    intro cs
    induction cs with
    | nil => intro p _; simp
    | cons c cs ih =>
      intro p hc
      rw [List.foldl_cons]
      have := ih (p.checkpoint c.phase c.className c.name c.time c.memory c.time' c.memory') fun d hd => hc d (by simp [hd])
      have e : ((p.checkpoint c.phase c.className c.name c.time c.memory c.time' c.memory').entries.map Entry.time).sum = (p.entries.map Entry.time).sum + (c.time - p.lastTime) := by simp [Profiler.checkpoint]
      have e2 : (p.checkpoint c.phase c.className c.name c.time c.memory c.time' c.memory').lastTime = c.time := hc c (by simp)
      rw [e, e2] at this
      linarith
  have := key cs ⟨[], t, m⟩ h
  simpa [profile] using this

/-- **C112 (profiler).** Without a memory reading no entry has one; with readings that are always there, every entry has the increase since the previous one. -/
theorem C112_profiler_memory (t m : Rat) (cs : List Call) :
    ((∀ c ∈ cs, c.memory = none) → ∀ e ∈ (profile t none cs).entries, e.memory = none) ∧
    ((∀ c ∈ cs, ∃ x y, c.memory = some x ∧ c.memory' = some y) → ∀ e ∈ (profile t (some m) cs).entries, e.memory ≠ none) := by
  constructor
  · intro h
    have key : ∀ (cs : List Call) (p : Profiler), (∀ c ∈ cs, c.memory = none) → (∀ e ∈ p.entries, e.memory = none) →
        ∀ e ∈ (cs.foldl (fun p c => p.checkpoint c.phase c.className c.name c.time c.memory c.time' c.memory') p).entries, e.memory = none := by
      intro cs
      induction cs with
      | nil => intro p _ hp; exact hp
      | cons c cs ih =>
        intro p hc hp
        refine ih _ (fun d hd => hc d (by simp [hd])) ?_
        intro e he
        simp only [Profiler.checkpoint, List.mem_append, List.mem_singleton] at he
        rcases he with he | rfl
        · exact hp e he
        · simp [hc c (by simp)]
    exact key cs ⟨[], t, none⟩ h (by simp)
  · intro h
    have key : ∀ (cs : List Call) (p : Profiler), (∀ c ∈ cs, ∃ x y, c.memory = some x ∧ c.memory' = some y) → p.lastMemory ≠ none → (∀ e ∈ p.entries, e.memory ≠ none) →
        ∀ e ∈ (cs.foldl (fun p c => p.checkpoint c.phase c.className c.name c.time c.memory c.time' c.memory') p).entries, e.memory ≠ none := by
      intro cs
      induction cs with
      | nil => intro p _ _ hp; exact hp
      | cons c cs ih =>
        intro p hc hl hp
        obtain ⟨x, y, hx, hy⟩ := hc c (by simp)
        refine ih _ (fun d hd => hc d (by simp [hd])) (by simp [Profiler.checkpoint, hy]) ?_
        intro e he
        simp only [Profiler.checkpoint, List.mem_append, List.mem_singleton] at he
        rcases he with he | rfl
        · exact hp e he
        · cases hm : p.lastMemory with
          | none => exact absurd hm hl
          | some l => simp [hx]
    exact key cs ⟨[], t, some m⟩ h (by simp) (by simp)

/-! ## Concrete cases -/

/-- Two recorders with different rows; `C112_cells`, `C112_rows` and `C112_exists_partial` apply. -/
example : let r : Rec Nat := ⟨"a".toList, some ⟨1, ["x".toList, "y".toList], [["0".toList]], fun i _ => i⟩⟩
    let s : Rec Nat := ⟨"b".toList, some ⟨1, ["y".toList, "z".toList], [["0".toList]], fun i _ => 10 + i⟩⟩
    Distinct [r, ⟨"mean".toList, none⟩, s] ∧ ((toDataframe [r, ⟨"mean".toList, none⟩, s]).toOption.map fun t => (t.index, (List.range 3).map fun i => (t.cell i 0, t.cell i 1))) =
      some (["x".toList, "y".toList, "z".toList], [(some 0, none), (some 1, some 10), (none, some 11)]) := by
  refine ⟨by unfold Distinct; decide +kernel, by decide +kernel⟩

/-- `C112_result` applies to a result. -/
example : let r : Result Nat := ⟨735000, attributeNames.map fun n => (n, n.length), [("time_limit".toList, 5)], [("total".toList, 1), ("time_limit".toList, 2)]⟩
    r.attributes.map Prod.fst = attributeNames ∧ (r.settings.map Prod.fst).Nodup ∧ (r.stats.map Prod.fst).Nodup ∧ r.table.length = 13 := by decide +kernel

/-- `C112_align_partial` applies: the common times are 2, 3 and 4; the last is cut off. -/
example : let a : Series Nat := ⟨"A".toList, [(1, 10), (2, 20), (3, 30), (4, 40)]⟩
    let b : Series Nat := ⟨"B".toList, [(2, 200), (3, 300), (4, 400), (5, 500)]⟩
    Ordered a.rows ∧ Ordered b.rows ∧ alignSeries a b none none (some 3) = .ok (.series [(2, 20), (3, 30)], .series [(2, 200), (3, 300)]) := by
  refine ⟨by unfold Ordered; decide, by unfold Ordered; decide, rfl⟩

/-- `C112_profiler` applies. -/
example : Readings 0 [⟨"setup", "Input", "a", 1, some 5, 2, some 5⟩, ⟨"setup", "Input", "b", 4, some 8, 4, some 8⟩] := ⟨by norm_num, by norm_num, by norm_num, by norm_num, trivial⟩

end Verif.ResultTables

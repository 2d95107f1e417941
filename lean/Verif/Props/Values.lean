import Verif.Spec.Values
import Verif.Spec.Datasets
import Verif.Props.Datasets
import Mathlib.Tactic.Ring
import Mathlib.Tactic.Tauto
/-!
# C110 Values of parameters in documents

What a parameter returns is the number that stands in the document, or in the table it names, for the day and the member of the scenario; data of the wrong size are refused.
-/

namespace Verif.Values

open Verif.Datasets

variable {α : Type}

private theorem known_all (k : Kind) (os : List (String × String)) (h : Known k os) : (os.all fun o => o.1 ∈ k.keywords) = true := by
  rw [List.all_eq_true]
  intro o ho
  rw [decide_eq_true_eq]
  rcases h o ho with h' | ⟨rfl, h'⟩
  · cases k <;> simp [Kind.keywords, h']
  · rcases h' with h' | h' | h' <;> simp [Kind.keywords, h']

private theorem load_eq (w : World α) (k : Kind) (d : Doc α) (a : Arr α) (rest : List (String × String)) (sc : Option Nat) (h1 : loadValues w d = .ok (a, rest))
    (h2 : sizeOf w d.scenario = .ok sc) (h3 : sc.isSome = k.needsScenario) (h4 : Known k rest) :
    load w k d = match construct k (sc.getD 0) a with | .error e => .error e | .ok a => .ok ⟨k, a, rest⟩ := by
  unfold load
  rw [h1]
  simp only [h2, h3, ne_eq, not_true_eq_false, if_false, known_all k rest h4, if_true]
  cases construct k (sc.getD 0) a <;> rfl

private theorem flatten_at (n : Nat) : ∀ (rows : List (List α)), (∀ r ∈ rows, r.length = n) → ∀ i j, j < n → rows.flatten[i * n + j]? = (rows[i]?).bind (·[j]?)
  | [], _, i, j, _ => by simp
  | r :: rows, h, 0, j, hj => by
    have hr := h r (by simp)
    rw [List.flatten_cons, List.getElem?_append_left (by omega)]
    simp
  | r :: rows, h, i + 1, j, hj => by
    have hr := h r (by simp)
    rw [List.flatten_cons, List.getElem?_append_right (by rw [hr, Nat.succ_mul]; omega), hr]
    rw [show (i + 1) * n + j - n = i * n + j by rw [Nat.succ_mul]; omega, flatten_at n rows (fun r hr => h r (by simp [hr])) i j hj]
    simp

private theorem at2_rows (rows : List (List α)) (n : Nat) (h : ∀ r ∈ rows, r.length = n) (i j : Nat) :
    Arr.at2 ⟨[rows.length, n], rows.flatten⟩ i j = (rows[i]?).bind (·[j]?) := by
  unfold Arr.at2
  simp only
  split
  · next hc => exact flatten_at n rows h i j hc.2
  · next hc =>
    by_cases hi : i < rows.length
    · have hj : ¬ j < n := fun hj => hc ⟨hi, hj⟩
      have := h _ (List.getElem_mem hi)
      rw [List.getElem?_eq_getElem hi, Option.bind_some, List.getElem?_eq_none (by omega)]
    · rw [List.getElem?_eq_none (by omega)]; rfl

private theorem at1_list (l : List α) (i : Nat) : Arr.at1 ⟨[l.length], l⟩ i = l[i]? := by
  unfold Arr.at1
  simp only
  split
  · rfl
  · rw [List.getElem?_eq_none (by omega)]

private theorem construct_list (k : Kind) (ok : Nat → Prop) (at' : Day → Nat) (hk : OverTime k ok at') (l : List α) :
    (ok l.length → construct k 0 ⟨[l.length], l⟩ = .ok ⟨[l.length], l⟩) ∧ (¬ ok l.length → ∃ e, construct k 0 ⟨[l.length], l⟩ = .error e) := by
  cases hk with
  | daily =>
    constructor
    · intro h; simp [construct, squeeze, len, h]
    · intro h
      by_cases h1 : l.length = 1
      · exact ⟨.value, by simp [construct, squeeze, h1]⟩
      · exact ⟨.value, by simp [construct, squeeze, len, h1, h]⟩
  | weekly =>
    constructor
    · intro h
      rcases h with h | h <;> simp [construct, squeeze, len, h]
    · intro h
      rw [not_or] at h
      by_cases h1 : l.length = 1
      · exact ⟨.value, by simp [construct, squeeze, h1]⟩
      · exact ⟨.value, by simp [construct, squeeze, len, h1, h.1, h.2]⟩
  | monthly =>
    constructor
    · intro h; simp [construct, len, h, oneDimensional]
    · intro h; exact ⟨.value, by simp [construct, len, h]⟩
  | arrayIndexed => exact ⟨fun _ => rfl, fun h => absurd trivial h⟩

private theorem needs_overTime {k : Kind} {ok : Nat → Prop} {at' : Day → Nat} (hk : OverTime k ok at') : k.needsScenario = false := by cases hk <;> rfl
private theorem needs_perMember {k : Kind} {n : Nat} {at' : Day → Nat} (hk : PerMember k n at') : k.needsScenario = true := by cases hk <;> rfl

private theorem value_overTime {k : Kind} {ok : Nat → Prop} {at' : Day → Nat} (hk : OverTime k ok at') (a : Arr α) (os : List (String × String)) (t : Day) (i : Nat) :
    Param.value ⟨k, a, os⟩ t i = a.at1 (at' t) := by cases hk <;> rfl
private theorem value_perMember {k : Kind} {n : Nat} {at' : Day → Nat} (hk : PerMember k n at') (a : Arr α) (os : List (String × String)) (t : Day) (i : Nat) :
    Param.value ⟨k, a, os⟩ t i = a.at2 i (at' t) := by cases hk <;> rfl

private theorem construct_perMember {k : Kind} {n : Nat} {at' : Day → Nat} (hk : PerMember k n at') (size : Nat) (a : Arr α) : construct k size a = memberRows n size a := by cases hk <;> rfl

/-- **C110 (list).** A list of values over time is accepted exactly if it has the right length, and the parameter returns the value that stands in the list for the day. -/
theorem C110_list (w : World α) (k : Kind) (ok : Nat → Prop) (at' : Day → Nat) (hk : OverTime k ok at') (l : List α) (url : Option String) (os : List (String × String)) (ho : Known k os) :
    (ok l.length → ∃ p, load w k { values := some (.list l), url := url, options := os } = .ok p ∧ p.options = os ∧ ∀ t i, p.value t i = l[at' t]?) ∧
    (¬ ok l.length → ∃ e, load w k { values := some (.list l), url := url, options := os } = .error e) := by
  have h := load_eq w k { values := some (.list l), url := url, options := os } ⟨[l.length], l⟩ os none rfl rfl (needs_overTime hk).symm ho
  obtain ⟨c1, c2⟩ := construct_list k ok at' hk l
  constructor
  · intro hl
    rw [show ((none : Option Nat).getD 0) = 0 from rfl, c1 hl] at h
    exact ⟨_, h, rfl, fun t i => by rw [value_overTime hk]; exact at1_list l _⟩
  · intro hl
    obtain ⟨e, he⟩ := c2 hl
    rw [show ((none : Option Nat).getD 0) = 0 from rfl, he] at h
    exact ⟨e, h⟩

example : OverTime .weekly (fun n => n = 52 ∨ n = 53) (·.week) ∧ Known .monthly [("interp_day", "first")] ∧
    ((load (α := Nat) ⟨fun _ => none, fun _ _ => none, fun _ => none⟩ .monthly { values := some (.list (List.range 12)) }).toOption.bind fun p => p.value ⟨40, 2, 5, 40⟩ 0) = some 1 :=
  ⟨.weekly, by simp [Known], by decide +kernel⟩

private theorem ofInline_rows (rows : List (List α)) (n : Nat) (hne : rows ≠ []) (h : ∀ r ∈ rows, r.length = n) :
    ofInline (.rows rows) = .ok ⟨[rows.length, n], rows.flatten⟩ := by
  cases rows with
  | nil => exact absurd rfl hne
  | cons r rs =>
    have hr := h r (by simp)
    have ha : (rs.all fun s => s.length == r.length) = true := by
      rw [List.all_eq_true]; intro s hs; rw [beq_iff_eq, hr]; exact h s (by simp [hs])
    simp only [ofInline, ha, if_true, List.length_cons]
    rw [hr]

private theorem ofInline_rows_error (rows : List (List α)) :
    (∃ e, ofInline (.rows rows) = .error e) ∨ (rows = [] ∧ ofInline (.rows rows) = .ok ⟨[0], []⟩) ∨
      ∃ n, rows ≠ [] ∧ (∀ r ∈ rows, r.length = n) ∧ ofInline (.rows rows) = .ok ⟨[rows.length, n], rows.flatten⟩ := by
  cases rows with
  | nil => exact Or.inr (Or.inl ⟨rfl, rfl⟩)
  | cons r rs =>
    by_cases ha : (rs.all fun s => s.length == r.length) = true
    · refine Or.inr (Or.inr ⟨r.length, by simp, ?_, ?_⟩)
      · intro s hs
        rcases List.mem_cons.1 hs with rfl | hs
        · rfl
        · exact beq_iff_eq.1 (List.all_eq_true.1 ha s hs)
      · simp only [ofInline, ha, if_true, List.length_cons]
    · exact Or.inl ⟨.value, by simp only [ofInline, ha]; rfl⟩

private theorem loadValues_inline (w : World α) (v : Inline α) (url sc : Option String) (os : List (String × String)) :
    loadValues w { values := some v, url := url, scenario := sc, options := os } = match ofInline v with | .error e => .error e | .ok a => .ok (a, os) := by
  unfold loadValues
  simp only [choiceKeys]
  cases ofInline v <;> rfl

/-- **C110 (one source).** Values in the document together with the name of a table, of columns or of rows are refused: the data are never silently taken from one of the two. -/
theorem C110_conflict (w : World α) (k : Kind) (d : Doc α) (v : Inline α) (hv : d.values = some v) (p : Param α) (h : load w k d = .ok p) :
    d.table = none ∧ d.choice.column = none ∧ d.choice.columns = none ∧ d.choice.index = none ∧ d.choice.indexes = none ∧ p.options = d.options := by
  unfold load loadValues at h
  rw [hv] at h
  dsimp only at h
  cases hi : ofInline v with
  | error e => rw [hi] at h; cases h
  | ok a =>
    rw [hi] at h
    dsimp only at h
    generalize hR : (if d.table.isSome then [("table", "")] else []) ++ (choiceKeys d.choice).map (fun k => (k, "")) ++ d.options = rest at h
    cases hs : sizeOf w d.scenario with
    | error e => rw [hs] at h; cases h
    | ok sc =>
      rw [hs] at h
      dsimp only at h
      split_ifs at h with c1 c2
      cases hc : construct k (sc.getD 0) a with
      | error e => rw [hc] at h; cases h
      | ok b =>
        rw [hc] at h
        cases h
        rw [List.all_eq_true, ← hR] at c2
        have key : ∀ s : String, s ∉ k.keywords → (s, "") ∉ (if d.table.isSome then [("table", "")] else []) ++ (choiceKeys d.choice).map (fun k => (k, "")) ++ d.options :=
          fun s h1 h2 => h1 (by simpa using c2 _ h2)
        have nk : ∀ s ∈ ["table", "column", "columns", "index", "indexes"], s ∉ k.keywords := by cases k <;> decide
        unfold choiceKeys at key
        have h1 : d.table = none := by
          cases e : d.table with
          | none => rfl
          | some x => exact absurd (by rw [e]; simp) (key "table" (nk _ (by simp)))
        have h2 : d.choice.column = none := by
          cases e : d.choice.column with
          | none => rfl
          | some x => exact absurd (by rw [e]; simp) (key "column" (nk _ (by simp)))
        have h3 : d.choice.columns = none := by
          cases e : d.choice.columns with
          | none => rfl
          | some x => exact absurd (by rw [e]; simp) (key "columns" (nk _ (by simp)))
        have h4 : d.choice.index = none := by
          cases e : d.choice.index with
          | none => rfl
          | some x => exact absurd (by rw [e]; simp) (key "index" (nk _ (by simp)))
        have h5 : d.choice.indexes = none := by
          cases e : d.choice.indexes with
          | none => rfl
          | some x => exact absurd (by rw [e]; simp) (key "indexes" (nk _ (by simp)))
        refine ⟨h1, h2, h3, h4, h5, ?_⟩
        dsimp only
        rw [← hR]
        simp [choiceKeys, h1, h2, h3, h4, h5]

example : (load (α := Nat) ⟨fun _ => none, fun _ _ => none, fun _ => none⟩ .monthly { values := some (.list (List.range 12)) }).toOption.isSome = true ∧
    (load (α := Nat) ⟨fun _ => none, fun _ _ => none, fun _ => none⟩ .monthly { values := some (.list (List.range 12)), choice := ⟨none, none, some "x".toList, none⟩ }).toOption.isSome = false := by
  decide +kernel

private theorem load_error (w : World α) (k : Kind) (d : Doc α) (e : Err) (h : loadValues w d = .error e) : load w k d = .error e := by
  unfold load; rw [h]

/-- **C110 (rows).** A list of rows, one for every member of the scenario, is accepted exactly if there are as many rows as members and every row has the right length; the parameter
returns the value of the row of the member for the day. -/
theorem C110_rows (w : World α) (k : Kind) (n : Nat) (at' : Day → Nat) (hk : PerMember k n at') (s : String) (m : Nat) (hs : w.scenarios s = some m) (hm : 0 < m)
    (rows : List (List α)) (url : Option String) (os : List (String × String)) (ho : Known k os) :
    (rows.length = m ∧ (∀ r ∈ rows, r.length = n) →
      ∃ p, load w k { values := some (.rows rows), url := url, scenario := some s, options := os } = .ok p ∧ p.options = os ∧ ∀ t i, p.value t i = (rows[i]?).bind (·[at' t]?)) ∧
    (¬ (rows.length = m ∧ ∀ r ∈ rows, r.length = n) → ∃ e, load w k { values := some (.rows rows), url := url, scenario := some s, options := os } = .error e) := by
  have hsize : sizeOf w (some s) = .ok (some m) := by simp [sizeOf, hs]
  constructor
  · rintro ⟨h1, h2⟩
    have hne : rows ≠ [] := by rintro rfl; simp at h1; omega
    have hv := loadValues_inline w (.rows rows) url (some s) os
    rw [ofInline_rows rows n hne h2] at hv
    have h := load_eq w k _ _ _ _ hv hsize (needs_perMember hk).symm ho
    rw [construct_perMember hk] at h
    simp only [memberRows, Option.getD_some, h1, if_true] at h
    refine ⟨_, h, rfl, fun t i => ?_⟩
    rw [value_perMember hk, ← h1]
    exact at2_rows rows n h2 i _
  · intro hn
    have hv := loadValues_inline w (.rows rows) url (some s) os
    rcases ofInline_rows_error rows with ⟨e, he⟩ | ⟨-, he⟩ | ⟨n', -, hr, he⟩
    · rw [he] at hv
      exact ⟨e, load_error w k _ e hv⟩
    · rw [he] at hv
      have h := load_eq w k _ _ _ _ hv hsize (needs_perMember hk).symm ho
      rw [construct_perMember hk] at h
      exact ⟨.value, h⟩
    · rw [he] at hv
      have h := load_eq w k _ _ _ _ hv hsize (needs_perMember hk).symm ho
      rw [construct_perMember hk] at h
      refine ⟨.value, h.trans ?_⟩
      simp only [memberRows, Option.getD_some]
      by_cases h1 : m = rows.length
      · have h2 : n' ≠ n := by rintro rfl; exact hn ⟨h1.symm, hr⟩
        simp [h1, h2]
      · simp [h1]

example : PerMember .scenarioMonthly 12 (·.month - 1) ∧
    ((load (α := Nat) ⟨fun _ => none, fun _ _ => none, fun _ => some 2⟩ .scenarioMonthly
      { values := some (.rows [List.range 12, (List.range 12).map (· + 100)]), scenario := some "s" }).toOption.bind fun p => p.value ⟨40, 2, 5, 40⟩ 1) = some 101 :=
  ⟨.monthly, by decide +kernel⟩

/-- **C110 (members).** The values of the members of a scenario, in time for `ArrayIndexedScenarioParameter` and without time for `ConstantScenarioParameter`. -/
theorem C110_members (w : World α) (s : String) (m : Nat) (hs : w.scenarios s = some m) (url : Option String) (os : List (String × String)) :
    (∀ l : List α, Known .constantScenario os →
      (l.length = m → ∃ p, load w .constantScenario { values := some (.list l), url := url, scenario := some s, options := os } = .ok p ∧ ∀ t i, p.value t i = l[i]?) ∧
      (l.length ≠ m → ∃ e, load w .constantScenario { values := some (.list l), url := url, scenario := some s, options := os } = .error e)) ∧
    (∀ rows : List (List α), Known .arrayIndexedScenario os → rows ≠ [] →
      ((∀ r ∈ rows, r.length = m) →
        ∃ p, load w .arrayIndexedScenario { values := some (.rows rows), url := url, scenario := some s, options := os } = .ok p ∧ ∀ t i, p.value t i = (rows[t.index]?).bind (·[i]?)) ∧
      (¬ (∀ r ∈ rows, r.length = m) → ∃ e, load w .arrayIndexedScenario { values := some (.rows rows), url := url, scenario := some s, options := os } = .error e)) := by
  have hsize : sizeOf w (some s) = .ok (some m) := by simp [sizeOf, hs]
  refine ⟨fun l ho => ?_, fun rows ho hne => ?_⟩
  · have hv := loadValues_inline w (.list l) url (some s) os
    have h := load_eq w .constantScenario _ _ _ _ hv hsize rfl ho
    constructor
    · intro hl
      have hc : construct .constantScenario m (⟨[l.length], l⟩ : Arr α) = .ok ⟨[l.length], l⟩ := by simp [construct, len, hl]
      rw [Option.getD_some, hc] at h
      exact ⟨_, h, fun t i => at1_list l i⟩
    · intro hl
      have hc : construct .constantScenario m (⟨[l.length], l⟩ : Arr α) = .error .value := by simp [construct, len, Ne.symm hl]
      rw [Option.getD_some, hc] at h
      exact ⟨_, h⟩
  · have hv := loadValues_inline w (.rows rows) url (some s) os
    constructor
    · intro hr
      rw [ofInline_rows rows m hne hr] at hv
      have h := load_eq w .arrayIndexedScenario _ _ _ _ hv hsize rfl ho
      simp only [construct, Option.getD_some, ne_eq, not_true_eq_false, if_false] at h
      exact ⟨_, h, fun t i => at2_rows rows m hr t.index i⟩
    · intro hn
      rcases ofInline_rows_error rows with ⟨e, he⟩ | ⟨h0, -⟩ | ⟨n', -, hr, he⟩
      · rw [he] at hv
        exact ⟨e, load_error w _ _ e hv⟩
      · exact absurd h0 hne
      · rw [he] at hv
        have h := load_eq w .arrayIndexedScenario _ _ _ _ hv hsize rfl ho
        have h2 : m ≠ n' := by rintro rfl; exact hn hr
        simp only [construct, Option.getD_some, ne_eq, h2, not_false_eq_true, if_true] at h
        exact ⟨_, h⟩

example : ((load (α := Nat) ⟨fun _ => none, fun _ _ => none, fun _ => some 2⟩ .arrayIndexedScenario
      { values := some (.rows [[1, 2], [3, 4], [5, 6]]), scenario := some "s" }).toOption.bind fun p => p.value ⟨2, 1, 0, 2⟩ 1) = some 6 := by decide +kernel

/-! ## Tables -/

private theorem loadValues_table (w : World α) (t : Label) (f : Frame α) (hf : w.tables t = some f) (c : Choice) (x : Data α) (hx : select c f = .ok x) (url sc : Option String)
    (os : List (String × String)) :
    loadValues w { table := some t, url := url, choice := c, scenario := sc, options := os } = .ok (squeeze (ofData x), os) := by
  unfold loadValues
  simp only [hf, hx]

private theorem range_map_at (n : Nat) (v : Nat → α) (i : Nat) : ((List.range n).map v)[i]? = if i < n then some (v i) else none := by
  rw [List.getElem?_map]
  split
  · next h => rw [List.getElem?_range h]; rfl
  · next h => rw [List.getElem?_eq_none (by simp; omega)]; rfl

/-- **C110 (column).** The column of a table as values over time: it is accepted exactly if the table has the right number of rows (and, for `ArrayIndexedParameter`, not just one), and
the value returned is that in the row of the day. -/
theorem C110_column (w : World α) (k : Kind) (ok : Nat → Prop) (at' : Day → Nat) (hk : OverTime k ok at') (t : Label) (f : Frame α) (hf : w.tables t = some f) (hp : f.Proper)
    (c : Label) (hc : c ∈ f.columns) (url : Option String) (os : List (String × String)) (ho : Known k os) :
    (ok f.index.length ∧ f.index.length ≠ 1 → ∃ p, load w k { table := some t, choice := ⟨some c, none, none, none⟩, url := url, options := os } = .ok p ∧ p.options = os ∧
      ∀ d i, (∀ r, f.index[at' d]? = some r → ∃ x, p.value d i = some x ∧ f.Has r c x) ∧ (f.index.length ≤ at' d → p.value d i = none)) ∧
    (¬ (ok f.index.length ∧ f.index.length ≠ 1) → ∃ e, load w k { table := some t, choice := ⟨some c, none, none, none⟩, url := url, options := os } = .error e) := by
  obtain ⟨v, hv, hcell⟩ := C90_column f hp c hc
  have h := load_eq w k _ _ _ none (loadValues_table w t f hf _ _ hv url none os) rfl (needs_overTime hk).symm ho
  rw [show ((none : Option Nat).getD 0) = 0 from rfl] at h
  by_cases h1 : f.index.length = 1
  · refine ⟨fun hh => absurd h1 hh.2, fun _ => ?_⟩
    have hsq : squeeze (ofData (.series f.index v)) = ⟨[], (List.range f.index.length).map v⟩ := by simp [squeeze, ofData, h1]
    rw [hsq] at h
    have hc : ∃ e, construct k 0 (⟨[], (List.range f.index.length).map v⟩ : Arr α) = .error e := by cases hk <;> exact ⟨_, rfl⟩
    obtain ⟨e, he⟩ := hc
    rw [he] at h
    exact ⟨e, h⟩
  · have hsq : squeeze (ofData (.series f.index v)) = ⟨[((List.range f.index.length).map v).length], (List.range f.index.length).map v⟩ := by simp [squeeze, ofData, h1]
    rw [hsq] at h
    obtain ⟨c1, c2⟩ := construct_list k ok at' hk ((List.range f.index.length).map v)
    have hlen : ((List.range f.index.length).map v).length = f.index.length := by simp
    constructor
    · rintro ⟨h2, -⟩
      rw [c1 (by rw [hlen]; exact h2)] at h
      refine ⟨_, h, rfl, fun d i => ⟨fun r hr => ⟨v (at' d), ?_, hcell _ _ hr⟩, fun hd => ?_⟩⟩
      · rw [value_overTime hk, at1_list, range_map_at, if_pos (List.getElem?_eq_some_iff.1 hr).1]
      · rw [value_overTime hk, at1_list, range_map_at, if_neg (by omega)]
    · intro hn
      obtain ⟨e, he⟩ := c2 (by rw [hlen]; exact fun h2 => hn ⟨h2, h1⟩)
      rw [he] at h
      exact ⟨e, h⟩

private def yearFrame : Frame Nat := ⟨(List.range 12).map fun i => [Char.ofNat (97 + i)], ["x".toList, "y".toList], fun i j => 10 * i + j⟩

private def sampleWorld : World Nat := ⟨fun _ => some yearFrame, fun _ _ => some yearFrame, fun _ => some 2⟩

private theorem year_proper : yearFrame.Proper := by unfold Frame.Proper yearFrame; decide +kernel

example : OverTime .monthly (· = 12) (·.month - 1) ∧ sampleWorld.tables "t".toList = some yearFrame ∧ yearFrame.Proper ∧ "y".toList ∈ yearFrame.columns ∧
    ((load sampleWorld .monthly { table := some "t".toList, choice := ⟨some "y".toList, none, none, none⟩ }).toOption.bind fun p => p.value ⟨40, 2, 5, 40⟩ 0) = some 11 :=
  ⟨.monthly, rfl, year_proper, by decide +kernel, by decide +kernel⟩

private theorem ofData_frame (f : Frame α) : ofData (.frame f) =
    ⟨[((List.range f.index.length).map fun i => (List.range f.columns.length).map (f.cell i)).length, f.columns.length],
      ((List.range f.index.length).map fun i => (List.range f.columns.length).map (f.cell i)).flatten⟩ := by
  simp [ofData, List.flatMap_def]

private theorem frame_at2 (f : Frame α) (i j : Nat) : (ofData (.frame f)).at2 i j = if i < f.index.length ∧ j < f.columns.length then some (f.cell i j) else none := by
  rw [ofData_frame, at2_rows _ f.columns.length (by simp), range_map_at]
  by_cases hi : i < f.index.length
  · by_cases hj : j < f.columns.length <;> simp [hi, hj]
  · simp [hi]

private theorem squeeze_frame (f : Frame α) (h1 : f.index.length ≠ 1) (h2 : f.columns.length ≠ 1) : squeeze (ofData (.frame f)) = ofData (.frame f) := by
  simp [squeeze, ofData, h1, h2]

/-- **C110 (table).** A table with a row for every member of a scenario of more than one: it is accepted exactly if there are as many rows as members and as many columns as days (weeks,
months), and the value returned is that in the row of the member and the column of the day. -/
theorem C110_table (w : World α) (k : Kind) (n : Nat) (at' : Day → Nat) (hk : PerMember k n at') (s : String) (m : Nat) (hs : w.scenarios s = some m) (hm : m ≠ 1)
    (t : Label) (f : Frame α) (hf : w.tables t = some f) (url : Option String) (os : List (String × String)) (ho : Known k os) :
    (f.index.length = m ∧ f.columns.length = n → ∃ p, load w k { table := some t, choice := whole, url := url, scenario := some s, options := os } = .ok p ∧ p.options = os ∧
      ∀ d i, (∀ r c, f.index[i]? = some r → f.columns[at' d]? = some c → ∃ x, p.value d i = some x ∧ f.Has r c x) ∧
        (f.index.length ≤ i ∨ f.columns.length ≤ at' d → p.value d i = none)) ∧
    (¬ (f.index.length = m ∧ f.columns.length = n) → ∃ e, load w k { table := some t, choice := whole, url := url, scenario := some s, options := os } = .error e) := by
  have hsize : sizeOf w (some s) = .ok (some m) := by simp [sizeOf, hs]
  have h := load_eq w k _ _ _ _ (loadValues_table w t f hf whole (.frame f) rfl url (some s) os) hsize (needs_perMember hk).symm ho
  rw [construct_perMember hk, Option.getD_some] at h
  have hn1 : n ≠ 1 := by cases hk <;> decide
  constructor
  · rintro ⟨h1, h2⟩
    rw [squeeze_frame f (by omega) (by omega)] at h
    have hc : memberRows n m (ofData (.frame f)) = .ok (ofData (.frame f)) := by simp [memberRows, ofData, h1, h2]
    rw [hc] at h
    refine ⟨_, h, rfl, fun d i => ⟨fun r c hr hc => ⟨f.cell i (at' d), ?_, i, at' d, hr, hc, rfl⟩, fun hd => ?_⟩⟩
    · rw [value_perMember hk, frame_at2, if_pos ⟨(List.getElem?_eq_some_iff.1 hr).1, (List.getElem?_eq_some_iff.1 hc).1⟩]
    · rw [value_perMember hk, frame_at2, if_neg (by omega)]
  · intro hn
    have hc : ∃ e, memberRows n m (squeeze (ofData (.frame f))) = .error e := by
      by_cases h1 : f.index.length = 1
      · by_cases h2 : f.columns.length = 1
        · exact ⟨.value, by simp [memberRows, squeeze, ofData, h1, h2]⟩
        · exact ⟨.value, by simp [memberRows, squeeze, ofData, h1, h2]⟩
      · by_cases h2 : f.columns.length = 1
        · exact ⟨.value, by simp [memberRows, squeeze, ofData, h1, h2]⟩
        · rw [squeeze_frame f h1 h2]
          by_cases h3 : m = f.index.length
          · have h4 : f.columns.length ≠ n := fun h4 => hn ⟨h3.symm, h4⟩
            exact ⟨.value, by simp [memberRows, ofData, h3, h4]⟩
          · exact ⟨.value, by simp [memberRows, ofData, h3]⟩
    obtain ⟨e, he⟩ := hc
    rw [he] at h
    exact ⟨e, h⟩

private def memberFrame : Frame Nat := ⟨["a".toList, "b".toList], (List.range 12).map fun i => [Char.ofNat (97 + i)], fun i j => 100 * i + j⟩

example : ((load ⟨fun _ => some memberFrame, fun _ _ => none, fun _ => some 2⟩ .scenarioMonthly
      { table := some "t".toList, choice := whole, scenario := some "s" }).toOption.bind fun p => p.value ⟨40, 2, 5, 40⟩ 1) = some 101 := by decide +kernel

/-- **C110 (cell).** An entry that names a column and a row of a table is the number that stands there; without such a row or column it is refused. -/
theorem C110_cell (w : World α) (t : Label) (f : Frame α) (hf : w.tables t = some f) (hp : f.Proper) (c r : Label) (url : Option String) (os : List (String × String)) (x : α) :
    (loadNumber w { table := some t, choice := ⟨some c, none, some r, none⟩, url := url, options := os } = .ok x ↔ f.Has r c x) ∧
    (loadConstant w none { table := some t, choice := ⟨some c, none, some r, none⟩, url := url, options := os } = .ok x ↔ f.Has r c x) := by
  have key : loadNumber w { table := some t, choice := ⟨some c, none, some r, none⟩, url := url, options := os } = .ok x ↔ f.Has r c x := by
    have hcell := C90_cell f hp c r
    constructor
    · intro h
      cases hd : select ⟨some c, none, some r, none⟩ f with
      | error e => simp [loadNumber, loadValues, hf, hd] at h
      | ok d =>
        obtain ⟨y, rfl, hy⟩ := (hcell d).1 hd
        rw [loadNumber, loadValues_table w t f hf _ _ hd url none os] at h
        simp only [squeeze, ofData, toNumber, List.filter_nil, List.all_nil, if_true, Except.ok.injEq] at h
        exact h ▸ hy
    · intro h
      rw [loadNumber, loadValues_table w t f hf _ _ ((hcell (.scalar x)).2 ⟨x, rfl, h⟩) url none os]
      rfl
  exact ⟨key, key⟩

example : (loadNumber sampleWorld { table := some "t".toList, choice := ⟨some "y".toList, none, some "c".toList, none⟩ }).toOption = some 21 := by decide +kernel

/-! ## Where the values are looked for -/

/-- **C110 (sources).** Values in the document come first, then the table, then the file; a file counts as the table that pandas makes of it; without any of them there is an error. -/
theorem C110_sources (w : World α) (k : Kind) (d : Doc α) :
    (∀ v u, d.values = some v → load w k { d with url := u } = load w k d) ∧
    (∀ t u, d.values = none → d.table = some t → load w k { d with url := u } = load w k d) ∧
    (∀ t u os, d.values = none → d.table = some t → w.tables t = w.read u os → w.tables t ≠ none → d.options = [] →
      load w k { d with table := none, url := some u, options := os } = load w k d) ∧
    (d.values = none → d.table = none → d.url = none → load w k d = .error .value) := by
  refine ⟨fun v u hv => ?_, fun t u hv ht => ?_, fun t u os hv ht hr hn hos => ?_, fun hv ht hu => ?_⟩
  · simp only [load, loadValues, hv]
  · simp only [load, loadValues, hv, ht]
  · cases hx : w.tables t with
    | none => exact absurd hx hn
    | some f =>
      rw [hx] at hr
      simp only [load, loadValues, hv, ht, hx, ← hr, hos]
  · simp only [load, loadValues, hv, ht, hu]

example : ∃ d : Doc Nat, d.values = none ∧ d.table = some "t".toList ∧ sampleWorld.tables "t".toList = sampleWorld.read "f" [("index_col", "0")] ∧
    sampleWorld.tables "t".toList ≠ none ∧ d.options = [] := ⟨{ table := some "t".toList }, rfl, rfl, rfl, by simp [sampleWorld], rfl⟩

/-- **C110 (scenario).** Only documents that fit the class are accepted: the classes with numbers per member need a scenario, which must exist, and the others refuse one; options the class does not know are refused. -/
theorem C110_scenario (w : World α) (k : Kind) (d : Doc α) (p : Param α) (h : load w k d = .ok p) :
    (k ∈ [Kind.daily, .weekly, .monthly, .arrayIndexed] → d.scenario = none) ∧
    (k ∉ [Kind.daily, .weekly, .monthly, .arrayIndexed] → ∃ s n, d.scenario = some s ∧ w.scenarios s = some n) ∧ p.kind = k ∧ Known k p.options := by
  unfold load at h
  cases hv : loadValues w d with
  | error e => rw [hv] at h; cases h
  | ok v =>
    obtain ⟨a, rest⟩ := v
    rw [hv] at h
    simp only at h
    cases hs : sizeOf w d.scenario with
    | error e => rw [hs] at h; cases h
    | ok sc =>
      rw [hs] at h
      simp only at h
      by_cases h1 : sc.isSome ≠ k.needsScenario
      · rw [if_pos h1] at h; cases h
      · rw [if_neg h1] at h
        rw [not_not] at h1
        by_cases h2 : (rest.all fun o => o.1 ∈ k.keywords) = true
        · rw [if_pos h2] at h
          cases hc : construct k (sc.getD 0) a with
          | error e => rw [hc] at h; cases h
          | ok b =>
            rw [hc] at h
            injection h with h
            subst h
            have hsc : sc.isSome = false → d.scenario = none := by
              intro hn
              cases hd : d.scenario with
              | none => rfl
              | some s =>
                rw [hd] at hs
                simp only [sizeOf] at hs
                cases hw : w.scenarios s with
                | none => rw [hw] at hs; cases hs
                | some n => rw [hw] at hs; injection hs with hs; subst hs; cases hn
            have hsc2 : sc.isSome = true → ∃ s n, d.scenario = some s ∧ w.scenarios s = some n := by
              intro hn
              cases hd : d.scenario with
              | none => rw [hd] at hs; injection hs with hs; subst hs; cases hn
              | some s =>
                rw [hd] at hs
                simp only [sizeOf] at hs
                cases hw : w.scenarios s with
                | none => rw [hw] at hs; cases hs
                | some n => exact ⟨s, n, rfl, hw⟩
            refine ⟨fun hk => hsc ?_, fun hk => hsc2 ?_, rfl, ?_⟩
            · rw [h1]; cases k <;> first | rfl | (exfalso; revert hk; decide)
            · rw [h1]; cases k <;> first | rfl | (exfalso; exact hk (by decide))
            · intro o ho
              have := List.all_eq_true.mp h2 o ho
              rw [decide_eq_true_eq] at this
              revert this
              cases k <;> simp [Kind.keywords] <;> tauto
        · rw [if_neg h2] at h; cases h

/-- **C110 (constants).** A constant parameter has its `value` if there is one; otherwise, and where a number is expected, exactly one number must be given: a list must have one entry. -/
theorem C110_constant (w : World α) (d : Doc α) (x y : α) (l : List α) (url : Option String) (os : List (String × String)) :
    loadConstant w (some x) d = .ok x ∧ (loadNumber w { values := some (.list l), url := url, options := os } = .ok y ↔ l = [y]) ∧
    (loadConstant w none { values := some (.list l), url := url, options := os } = .ok y ↔ l = [y]) := by
  have key : loadNumber w { values := some (.list l), url := url, options := os } = .ok y ↔ l = [y] := by
    match l with
    | [] => simp [loadNumber, loadValues, ofInline, toNumber]
    | [a] => simp [loadNumber, loadValues, ofInline, toNumber]
    | a :: b :: l => simp [loadNumber, loadValues, ofInline, toNumber]
  exact ⟨rfl, key, key⟩

/-- **C110 fails** for scenarios of one member: the same numbers are accepted in the document, and refused in a table. -/
theorem C110_single_fails : ∃ (w : World Nat) (f : Frame Nat) (t : Label) (rows : List (List Nat)), w.scenarios "s" = some 1 ∧ w.tables t = some f ∧ f.Proper ∧
    rows = (List.range f.index.length).map (fun i => (List.range f.columns.length).map (f.cell i)) ∧
    (load w .scenarioMonthly { values := some (.rows rows), scenario := some "s" }).toOption.isSome = true ∧
    (load w .scenarioMonthly { table := some t, choice := whole, scenario := some "s" }).toOption = none := by
  let f : Frame Nat := ⟨["a".toList], (List.range 12).map fun i => [Char.ofNat (97 + i)], fun i j => 100 * i + j⟩
  refine ⟨⟨fun _ => some f, fun _ _ => none, fun _ => some 1⟩, f, [], _, rfl, rfl, ⟨by simp [f], ?_⟩, rfl, ?_, ?_⟩
  · decide +kernel
  · decide +kernel
  · decide +kernel

/-- **C110 fails** for the options of a parameter whose values are in a file: whatever pandas makes of the file, the constructor gets none of the options of the document (they are handed to
pandas), so that for instance `interp_day` has no effect or is refused. From a table, the same options have their effect. -/
theorem C110_options_fails :
    (∀ (w : World α) (k : Kind) (d : Doc α) (p : Param α) (u : String), d.values = none → d.table = none → d.url = some u → load w k d = .ok p → p.options = []) ∧
    (∀ (w : World α) (k : Kind) (d : Doc α) (p : Param α) (t : Label), d.values = none → d.table = some t → load w k d = .ok p → p.options = d.options) := by
  constructor
  · intro w k d p u hv ht hu h
    cases hr : w.read u d.options with
    | none => simp [load, loadValues, hv, ht, hu, hr] at h
    | some f =>
      cases hs : select d.choice f with
      | error e => simp [load, loadValues, hv, ht, hu, hr, hs] at h
      | ok x =>
        simp only [load, loadValues, hv, ht, hu, hr, hs] at h
        revert h
        cases sizeOf w d.scenario with
        | error e => intro h; cases h
        | ok sc =>
          simp only
          split
          · intro h; cases h
          · simp only [List.all_nil, if_true]
            cases construct k (sc.getD 0) (squeeze (ofData x)) with
            | error e => intro h; cases h
            | ok a => intro h; cases h; rfl
  · intro w k d p t hv ht h
    cases hr : w.tables t with
    | none => simp [load, loadValues, hv, ht, hr] at h
    | some f =>
      cases hs : select d.choice f with
      | error e => simp [load, loadValues, hv, ht, hr, hs] at h
      | ok x =>
        simp only [load, loadValues, hv, ht, hr, hs] at h
        revert h
        cases sizeOf w d.scenario with
        | error e => intro h; cases h
        | ok sc =>
          simp only
          split
          · intro h; cases h
          · split
            · cases construct k (sc.getD 0) (squeeze (ofData x)) with
              | error e => intro h; cases h
              | ok a => intro h; cases h; rfl
            · intro h; cases h

example : ((load sampleWorld .monthly { url := some "f", choice := ⟨some "y".toList, none, none, none⟩, options := [("interp_day", "first")] }).toOption.map (·.options)) = some [] ∧
    ((load sampleWorld .monthly { table := some "t".toList, choice := ⟨some "y".toList, none, none, none⟩, options := [("interp_day", "first")] }).toOption.map (·.options)) =
      some [("interp_day", "first")] := by constructor <;> decide +kernel

end Verif.Values

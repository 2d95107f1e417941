import Verif.Proof.DataFrame

/-! # Table parameters: every scenario combination gets the column of its own ensemble member (C51) -/

namespace Verif.DataFrame

open Verif.Scenarios

/-- A `DataFrameParameter` on a scenario with one column per member, where the members to run are given by a table of
combinations, by a plain slice or not restricted: setting up succeeds, and the value for every combination that is run
is the cell of that combination's member in the row of the timestep shifted by the offset and limited to the data.

Partial: slices with an open or negative end, an end beyond the ensemble, a negative step (see `C51_open_slice_fails`
and the theorems after it), or a negative start with a step other than one, and frames with one column
(`C51_one_column_fails`) are excluded. -/
theorem C51_partial {α : Type} (c : Collection) (hv : ValidUser c) (combos : List Index)
    (hc : c.getCombinations = .ok combos) (k : Nat) (s : Scenario) (hk : c.scenarios[k]? = some s)
    (hsl : c.user = none → ∀ sl, s.slice = some sl → Plain s.size sl)
    (f : Frame α) (steps : Nat) (hsteps : 0 < steps) (hrows : f.rows = steps) (hcols : f.cols = s.size) :
    ∃ st, setup c steps (some k) f = .ok st ∧
      ∀ g combo, (g, combo) ∈ combos → ∀ (index : Nat) (offset : Int), ∃ r m : Nat,
        combo[k]? = some (m : Int) ∧ IsRow steps (index + offset) r ∧ m < f.cols ∧
        st.value index offset combo = .ok (f.cell r m) := by
  have hg : ¬ (f.cols > 1 ∧ s.size ≠ f.cols) := by omega
  rcases scenarioIndices_ok hv hc hk hsl with h | ⟨idx, h, hb, hin⟩
  · refine ⟨⟨f, some k, none⟩, by simp [setup, hrows, hk, h, hcols], ?_⟩
    intro g combo hm index offset
    obtain ⟨m, hmk, hms, _⟩ := combo_member hv hc hk hm
    obtain ⟨r, hr, hspec⟩ := rowIndex_spec (rows := f.rows) (index := index) (offset := offset) (by omega)
    refine ⟨r, m, hmk, by rw [← hrows]; exact hspec, by omega, ?_⟩
    simp only [State.value, State.column, hmk, Frame.get, hr, resolve_nat hspec.1,
      resolve_nat (show m < f.cols by omega)]
  · obtain ⟨ids, loaded, h1, h2, h3, _, h4⟩ := loaded_value (f := f) (k := k) hb (by omega)
    refine ⟨⟨loaded, some k, some ids⟩, by simp [setup, hrows, hk, h, hcols, h1, h2], ?_⟩
    intro g combo hm index offset
    obtain ⟨m, hmk, hms, _⟩ := combo_member hv hc hk hm
    obtain ⟨r, hr, hspec⟩ := rowIndex_spec (rows := f.rows) (index := index) (offset := offset) (by omega)
    exact ⟨r, m, hmk, by rw [← hrows]; exact hspec, by omega,
      h4 combo m hmk (hin g combo hm m hmk) r hspec.1 index offset hr⟩

/-- The cell `10 * row + column`. -/
private def grid (rows cols : Nat) : Frame Nat := ⟨rows, cols, fun r c => 10 * r + c⟩

/-- Observe the values of a set up parameter for the combinations of the model. -/
private def observe (c : Collection) (st : Except Err (State Nat)) (index : Nat) (offset : Int) :
    Except Err (List (Except Err Nat)) :=
  match st, c.getCombinations with
  | .ok st, .ok combos => .ok (combos.map (fun p => st.value index offset p.2))
  | .error e, _ => .error e
  | _, .error _ => .error .value

private def sliced (sl : PySlice) : Collection := ⟨[⟨2, none⟩, ⟨4, some sl⟩], none⟩

/-- Two scenarios, the second cut to members 1 and 3 by a slice. -/
example : Plain 4 ⟨some 1, some 4, some 2⟩ :=
  ⟨⟨4, rfl, by decide, by decide, Or.inl (by intro a h; cases h; decide)⟩, by decide⟩
example : observe (sliced ⟨some 1, some 4, some 2⟩)
    (setup (sliced ⟨some 1, some 4, some 2⟩) 3 (some 1) (grid 3 4)) 1 5 =
    .ok [.ok 21, .ok 23, .ok 21, .ok 23] := by decide +kernel

private def table : Collection := ⟨[⟨2, none⟩, ⟨4, none⟩], some [[0, 3], [1, 1], [0, 1]]⟩

/-- The same with a table of combinations. -/
example : ValidUser table := by
  intro rows h; cases h
  intro r hr
  simp only [List.mem_cons, List.not_mem_nil, or_false] at hr
  rcases hr with rfl | rfl | rfl <;> simp [ValidRow, table]
example : observe table (setup table 3 (some 1) (grid 3 4)) 1 (-1) = .ok [.ok 3, .ok 1, .ok 1] := by decide +kernel

/-- Without a scenario a single column is used for every combination, and a frame with more columns is refused. -/
theorem C51_no_scenario {α : Type} (c : Collection) (f : Frame α) (steps : Nat) (hsteps : 0 < steps)
    (hrows : f.rows = steps) :
    (f.cols = 1 → ∃ st, setup c steps none f = .ok st ∧ ∀ combo (index : Nat) (offset : Int), ∃ r : Nat,
      IsRow steps (index + offset) r ∧ st.value index offset combo = .ok (f.cell r 0)) ∧
    (1 < f.cols → setup c steps none f = .error .value) := by
  constructor
  · intro h1
    refine ⟨⟨f, none, none⟩, by simp [setup, hrows, h1], ?_⟩
    intro combo index offset
    obtain ⟨r, hr, hspec⟩ := rowIndex_spec (rows := f.rows) (index := index) (offset := offset) (by omega)
    refine ⟨r, by rw [← hrows]; exact hspec, ?_⟩
    have := resolve_nat (show 0 < f.cols by omega)
    simp only [Nat.cast_zero] at this
    simp only [State.value, State.column, Frame.get, hr, resolve_nat hspec.1, this]
  · intro h1
    simp [setup, hrows, h1]

example : setup table 3 none (grid 3 2) = .error .value := by simp [setup, grid]

/-- A frame with several columns whose number is not the size of the scenario is refused. -/
theorem C51_wrong_size {α : Type} (c : Collection) (f : Frame α) (steps k : Nat) (s : Scenario)
    (hk : c.scenarios[k]? = some s) (h1 : 1 < f.cols) (h2 : f.cols ≠ s.size) :
    setup c steps (some k) f = .error .value := by
  unfold setup
  by_cases h : f.rows ≠ steps
  · rw [if_pos h]
  · rw [if_neg h]
    simp only [hk]
    rw [if_pos ⟨h1, fun h => h2 h.symm⟩]

example : setup table 3 (some 1) (grid 3 3) = .error .value :=
  C51_wrong_size table _ 3 1 ⟨4, none⟩ rfl (by decide) (by decide)

/-- `ArrayIndexedScenarioParameter`: the value for every combination is the cell of its member at the timestep. -/
theorem C51_array {α : Type} (c : Collection) (hv : ValidUser c) (combos : List Index)
    (hc : c.getCombinations = .ok combos) (k : Nat) (s : Scenario) (hk : c.scenarios[k]? = some s)
    (f f' : Frame α) (hf : arrayInit s f = .ok f') :
    ∀ g combo, (g, combo) ∈ combos → ∀ index, index < f.rows → ∃ m : Nat,
      combo[k]? = some (m : Int) ∧ m < f.cols ∧ arrayValue f' k index combo = .ok (f.cell index m) := by
  intro g combo hm index hi
  unfold arrayInit at hf
  by_cases h : s.size ≠ f.cols
  · rw [if_pos h] at hf; cases hf
  · rw [if_neg h] at hf
    cases hf
    obtain ⟨m, hmk, hms, _⟩ := combo_member hv hc hk hm
    have hmc : m < f.cols := by have := not_not.1 h; omega
    exact ⟨m, hmk, hmc, by simp only [arrayValue, hmk, Frame.get, resolve_nat hi, resolve_nat hmc]⟩

example : arrayInit ⟨4, none⟩ (grid 3 4) = .ok (grid 3 4) ∧ arrayValue (grid 3 4) 1 2 [0, 3] = .ok 23 :=
  ⟨rfl, rfl⟩

/-- `TablesArrayParameter` on data with exactly as many rows as the run has timesteps and finite cells: the value for
every combination is the cell of its member (columns after the last member are not used).

Partial: data with more rows than the run is excluded (`C51_tables_offset_fails`), as are the slices and tables
excluded in `C51_partial`. -/
theorem C51_tables_partial {α : Type} (finite : α → Bool) (c : Collection) (hv : ValidUser c) (combos : List Index)
    (hc : c.getCombinations = .ok combos) (k : Nat) (s : Scenario) (hk : c.scenarios[k]? = some s)
    (hsl : c.user = none → ∀ sl, s.slice = some sl → Plain s.size sl)
    (f : Frame α) (steps : Nat) (hsteps : 0 < steps) (hrows : f.rows = steps) (hcols : s.size ≤ f.cols)
    (hfin : ∀ r m, r < f.rows → m < f.cols → finite (f.cell r m) = true) :
    ∃ st, tablesSetup finite c steps (some k) f = .ok st ∧
      ∀ g combo, (g, combo) ∈ combos → ∀ (index : Nat) (offset : Int), ∃ r m : Nat,
        combo[k]? = some (m : Int) ∧ IsRow steps (index + offset) r ∧ m < f.cols ∧
        st.value index offset combo = .ok (f.cell r m) := by
  have hg1 : ¬ f.cols < s.size := by omega
  have hg2 : ¬ f.rows < steps := by omega
  rcases scenarioIndices_ok hv hc hk hsl with h | ⟨idx, h, hb, hin⟩
  · have hall : f.all finite = true := by
      simp only [Frame.all, List.all_eq_true, List.mem_range]
      exact fun r hr m hm => hfin r m hr hm
    refine ⟨⟨f, some k, none⟩, by simp [tablesSetup, hg1, hg2, hk, h, checkFinite, hall], ?_⟩
    intro g combo hm index offset
    obtain ⟨m, hmk, hms, _⟩ := combo_member hv hc hk hm
    obtain ⟨r, hr, hspec⟩ := rowIndex_spec (rows := f.rows) (index := index) (offset := offset) (by omega)
    refine ⟨r, m, hmk, by rw [← hrows]; exact hspec, by omega, ?_⟩
    simp only [State.value, State.column, hmk, Frame.get, hr, resolve_nat hspec.1,
      resolve_nat (show m < f.cols by omega)]
  · have hfr : f.firstRows steps = f := by cases f; simp_all [Frame.firstRows]
    obtain ⟨ids, loaded, h1, h2, h3, h5, h4⟩ := loaded_value (f := f) (k := k) hb hcols
    have hall : loaded.all finite = true := by
      simp only [Frame.all, List.all_eq_true, List.mem_range]
      intro r hr n hn
      obtain ⟨m, hm, he⟩ := h5 r n hn
      rw [he]
      exact hfin r m (by omega) (by omega)
    refine ⟨⟨loaded, some k, some ids⟩,
      by simp [tablesSetup, hg1, hg2, hk, h, h1, hfr, h2, checkFinite, hall], ?_⟩
    intro g combo hm index offset
    obtain ⟨m, hmk, hms, _⟩ := combo_member hv hc hk hm
    obtain ⟨r, hr, hspec⟩ := rowIndex_spec (rows := f.rows) (index := index) (offset := offset) (by omega)
    exact ⟨r, m, hmk, by rw [← hrows]; exact hspec, by omega,
      h4 combo m hmk (hin g combo hm m hmk) r hspec.1 index offset hr⟩

example : observe table (tablesSetup (fun _ => true) table 3 (some 1) (grid 3 6)) 1 1 =
    .ok [.ok 23, .ok 21, .ok 21] := by decide +kernel

/-- Tables without a scenario: the first column is used for every combination, and extra columns are ignored; a table with
fewer rows than the run has timesteps, or with a number that is not finite, is refused. -/
theorem C51_tables_no_scenario {α : Type} (finite : α → Bool) (c : Collection) (steps : Nat) (hsteps : 0 < steps)
    (f : Frame α) (hcols : 0 < f.cols) :
    (steps ≤ f.rows → (∀ r m, r < f.rows → m < f.cols → finite (f.cell r m) = true) →
      ∃ st, tablesSetup finite c steps none f = .ok st ∧ ∀ combo (index : Nat) (offset : Int), ∃ r : Nat,
        IsRow f.rows (index + offset) r ∧ st.value index offset combo = .ok (f.cell r 0)) ∧
    (f.rows < steps → tablesSetup finite c steps none f = .error .index) ∧
    (∀ r m, r < f.rows → m < f.cols → finite (f.cell r m) = false → ∃ e, tablesSetup finite c steps none f = .error e) := by
  refine ⟨fun h hfin => ?_, fun h => by simp [tablesSetup, h], fun r m hr hm hn => ?_⟩
  · have hall : f.all finite = true := by
      simp only [Frame.all, List.all_eq_true, List.mem_range]
      exact fun r hr m hm => hfin r m hr hm
    refine ⟨⟨f, none, none⟩, by simp [tablesSetup, Nat.not_lt.2 h, checkFinite, hall], ?_⟩
    intro combo index offset
    obtain ⟨r, hr, hspec⟩ := rowIndex_spec (rows := f.rows) (index := index) (offset := offset) (by omega)
    refine ⟨r, hspec, ?_⟩
    have := resolve_nat hcols
    simp only [Nat.cast_zero] at this
    simp only [State.value, State.column, Frame.get, hr, resolve_nat hspec.1, this]
  · by_cases h : f.rows < steps
    · exact ⟨.index, by simp [tablesSetup, h]⟩
    · refine ⟨.value, ?_⟩
      have hall : f.all finite = false := by
        rw [Bool.eq_false_iff]
        intro ht
        simp only [Frame.all, List.all_eq_true, List.mem_range] at ht
        rw [ht r hr m hm] at hn
        cases hn
      simp [tablesSetup, h, checkFinite, hall]

example : observe table (tablesSetup (fun _ => true) table 3 none (grid 4 6)) 2 1 = .ok [.ok 30, .ok 30, .ok 30] := by
  decide +kernel

/-! ## Where the code departs from the property -/

/-- The claim for one parameter: set up succeeds and every combination gets its member's cell. -/
def Gives {α : Type} (c : Collection) (steps k : Nat) (f : Frame α) (st : Except Err (State α)) : Prop :=
  ∃ st', st = .ok st' ∧ ∀ combos, c.getCombinations = .ok combos → ∀ g combo, (g, combo) ∈ combos →
    ∀ (index : Nat) (offset : Int), index < steps → ∃ r m : Nat,
      combo[k]? = some (m : Int) ∧ IsRow f.rows (index + offset) r ∧ m < f.cols ∧
      st'.value index offset combo = .ok (f.cell r m)

/-- With a slice that has no end (`slice(1, None)`, accepted by the model and run) the parameter cannot be set up:
`slice.indices(None)` raises `TypeError`. -/
theorem C51_open_slice_fails :
    (∃ combos, (sliced ⟨some 1, none, none⟩).getCombinations = .ok combos) ∧
    setup (sliced ⟨some 1, none, none⟩) 3 (some 1) (grid 3 4) = .error .type ∧
    ¬ Gives (sliced ⟨some 1, none, none⟩) 3 1 (grid 3 4)
      (setup (sliced ⟨some 1, none, none⟩) 3 (some 1) (grid 3 4)) := by
  have h : setup (sliced ⟨some 1, none, none⟩) 3 (some 1) (grid 3 4) = .error .type := rfl
  refine ⟨⟨_, rfl⟩, h, ?_⟩
  rintro ⟨st, hst, -⟩
  rw [h] at hst
  cases hst

/-- With an end counted from the end of the ensemble (`slice(0, -1)`) it raises `ValueError`. -/
theorem C51_negative_end_fails :
    (∃ combos, (sliced ⟨some 0, some (-1), none⟩).getCombinations = .ok combos) ∧
    setup (sliced ⟨some 0, some (-1), none⟩) 3 (some 1) (grid 3 4) = .error .value ∧
    ¬ Gives (sliced ⟨some 0, some (-1), none⟩) 3 1 (grid 3 4)
      (setup (sliced ⟨some 0, some (-1), none⟩) 3 (some 1) (grid 3 4)) := by
  have h : setup (sliced ⟨some 0, some (-1), none⟩) 3 (some 1) (grid 3 4) = .error .value := rfl
  refine ⟨⟨_, rfl⟩, h, ?_⟩
  rintro ⟨st, hst, -⟩
  rw [h] at hst
  cases hst

/-- With an end beyond the ensemble (`slice(0, 9)`, which Python and the model limit to the ensemble) it raises
`IndexError`. -/
theorem C51_long_slice_fails :
    (∃ combos, (sliced ⟨some 0, some 9, none⟩).getCombinations = .ok combos) ∧
    setup (sliced ⟨some 0, some 9, none⟩) 3 (some 1) (grid 3 4) = .error .index ∧
    ¬ Gives (sliced ⟨some 0, some 9, none⟩) 3 1 (grid 3 4)
      (setup (sliced ⟨some 0, some 9, none⟩) 3 (some 1) (grid 3 4)) := by
  have h : setup (sliced ⟨some 0, some 9, none⟩) 3 (some 1) (grid 3 4) = .error .index := rfl
  refine ⟨⟨_, rfl⟩, h, ?_⟩
  rintro ⟨st, hst, -⟩
  rw [h] at hst
  cases hst

/-- With a negative step (`slice(3, 1, -1)`: members 3 and 2 are run) set up succeeds without loading the members, and
every value raises `IndexError`. -/
theorem C51_reversed_slice_fails :
    observe (sliced ⟨some 3, some 1, some (-1)⟩)
      (setup (sliced ⟨some 3, some 1, some (-1)⟩) 3 (some 1) (grid 3 4)) 0 0 =
      .ok [.error .index, .error .index, .error .index, .error .index] := by decide +kernel

/-- A frame with a single column passes the checks whatever the size of the scenario; the members after the first then
raise `IndexError` during the run. -/
theorem C51_one_column_fails :
    observe ⟨[⟨2, none⟩], none⟩ (setup ⟨[⟨2, none⟩], none⟩ 3 (some 0) (grid 3 1)) 1 0 =
      .ok [.ok 10, .error .index] := by decide +kernel

/-- When members are selected as well (`slice(0, 3)` of four, or combinations given by the user), such a frame is refused, with an `IndexError`, as soon as a member after the first is selected; with the first alone it is taken. -/
theorem C51_one_column_selected_fails :
    setup (sliced ⟨some 0, some 3, none⟩) 3 (some 1) (grid 3 1) = .error .index ∧
    setup ⟨[⟨3, none⟩], some [[0], [2]]⟩ 3 (some 0) (grid 3 1) = .error .index ∧
    observe (sliced ⟨some 0, some 1, none⟩) (setup (sliced ⟨some 0, some 1, none⟩) 3 (some 1) (grid 3 1)) 1 0 = .ok [.ok 10, .ok 10] := ⟨rfl, rfl, by decide +kernel⟩

/-- Tables with more rows than the run has timesteps: looking one step ahead at the last timestep reads the row after
the run when all members are run, but repeats the last timestep's row when the members are given by a slice, although
the slice selects all members. -/
theorem C51_tables_offset_fails :
    observe ⟨[⟨2, none⟩], none⟩ (tablesSetup (fun _ => true) ⟨[⟨2, none⟩], none⟩ 3 (some 0) (grid 5 2)) 2 1 =
      .ok [.ok 30, .ok 31] ∧
    observe ⟨[⟨2, some ⟨some 0, some 2, none⟩⟩], none⟩
      (tablesSetup (fun _ => true) ⟨[⟨2, some ⟨some 0, some 2, none⟩⟩], none⟩ 3 (some 0) (grid 5 2)) 2 1 =
      .ok [.ok 20, .ok 21] := by decide +kernel

end Verif.DataFrame

import Verif.Proof.Scenarios

/-! # C03, C04, C05: scenario combinations -/

namespace Verif.Scenarios

/-- **C03 (no scenarios).** A model without scenarios runs exactly one column. -/
theorem C03_no_scenarios (user : Option (List (List Int))) :
    Collection.getCombinations ⟨[], user⟩ = .ok [(0, [0])] := by
  simp [Collection.getCombinations]

/-- **C03 (complete, once each, numbered consecutively).** Without user combinations the columns are exactly the
choices of one selected member per scenario, each choice in exactly one column, and column `g` is the `g`-th. -/
theorem C03_complete (ss : List Scenario) (hs : ss ≠ []) (combos : List Index)
    (h : Collection.getCombinations ⟨ss, none⟩ = .ok combos) :
    (∀ choice, (∃ g, (g, choice) ∈ combos) ↔ IsChoice ss choice) ∧
    (combos.map Prod.snd).Nodup ∧
    combos.map Prod.fst = List.range combos.length := by
  obtain ⟨ls, hsel, rfl⟩ := getCombinations_product hs h
  have hf := selections_forall2 hsel
  refine ⟨fun choice => ?_, ?_, ?_⟩
  · rw [← mem_product_iff_choice hf choice, List.mem_iff_getElem?]
    simp only [mem_enumerate]
  · rw [enumerate_snd]
    exact nodup_product (forall_nodup_selections hf)
  · rw [enumerate_fst, length_enumerate]

/-- **C03 (lexicographic order).** With no slices, or slices with positive step, the columns are in increasing
lexicographic order of the ensemble indices (last scenario fastest).  For negative steps the order is given by
`C04_position`. -/
theorem C03_lexicographic (ss : List Scenario) (hs : ss ≠ []) (combos : List Index)
    (hstep : ∀ s ∈ ss, ∀ sl, s.slice = some sl → 0 < sl.step.getD 1)
    (h : Collection.getCombinations ⟨ss, none⟩ = .ok combos) :
    (combos.map Prod.snd).Pairwise (· < ·) := by
  obtain ⟨ls, hsel, rfl⟩ := getCombinations_product hs h
  have hf := selections_forall2 hsel
  rw [enumerate_snd]
  apply pairwise_product
  clear h hs hsel
  induction hf with
  | nil => simp
  | @cons s l ss ls hsl _ ih =>
    intro l' hl'
    rcases List.mem_cons.1 hl' with rfl | hl'
    · exact selection_increasing hsl (hstep s (by simp))
    · exact ih (fun s' hs' => hstep s' (by simp [hs'])) l' hl'

/-- **C03 (refusal).** The combinations are refused exactly when a slice has step zero or no choice exists. -/
theorem C03_error_iff (ss : List Scenario) (hs : ss ≠ []) :
    (∃ e, Collection.getCombinations ⟨ss, none⟩ = .error e) ↔
      (∃ s ∈ ss, ∃ sl, s.slice = some sl ∧ sl.step = some 0) ∨ ¬ ∃ choice, IsChoice ss choice := by
  unfold Collection.getCombinations
  have hlen : ss.length ≠ 0 := by simpa using hs
  simp only [hlen, if_false]
  rw [← selections_error_iff]
  cases hsel : selections ss with
  | error e => exact ⟨fun _ => Or.inl ⟨e, rfl⟩, fun _ => ⟨e, rfl⟩⟩
  | ok ls =>
    have hf := selections_forall2 hsel
    simp only [isEmpty_enumerate, reduceCtorEq, exists_false, false_or]
    have : (∃ choice, IsChoice ss choice) ↔ product ls ≠ [] := by
      constructor
      · rintro ⟨c, hc⟩ hnil
        have := (mem_product_iff_choice hf c).2 hc
        simp [hnil] at this
      · intro hne
        obtain ⟨c, hc⟩ := List.exists_mem_of_ne_nil _ hne
        exact ⟨c, (mem_product_iff_choice hf c).1 hc⟩
    rw [this]
    cases hp : product ls with
    | nil => simp only [List.isEmpty_nil, if_true, ne_eq, not_true_eq_false, not_false_eq_true, iff_true]
             exact ⟨Err.valueError, trivial⟩
    | cons => simp

/-- **C03 (all members run without slices).** -/
theorem C03_count (sizes : List Nat) (hs : sizes ≠ []) (hpos : ∀ n ∈ sizes, 0 < n) :
    ∃ combos, Collection.getCombinations ⟨sizes.map (fun n => ⟨n, none⟩), none⟩ = .ok combos ∧
      combos.length = sizes.prod := by
  have hsel : selections (sizes.map (fun n => (⟨n, none⟩ : Scenario))) =
      .ok (sizes.map (fun n => (List.range n).map Int.ofNat)) := by
    clear hs hpos
    induction sizes with
    | nil => rfl
    | cons n ns ih => simp only [List.map_cons, selections, Scenario.selection, ih]
  have hl : (enumerate (product (sizes.map (fun n => (List.range n).map Int.ofNat)))).length = sizes.prod := by
    rw [length_enumerate, length_product]
    congr 1
    simp [List.map_map, Function.comp_def]
  refine ⟨_, ?_, hl⟩
  unfold Collection.getCombinations
  have : (sizes.map (fun n => (⟨n, none⟩ : Scenario))).length ≠ 0 := by simpa using hs
  simp only [this, if_false, hsel]
  rw [if_neg]
  rw [List.isEmpty_iff]
  intro h0
  rw [h0] at hl
  have : 0 < sizes.prod := by
    clear this hl h0 hsel hs
    induction sizes with
    | nil => simp
    | cons n ns ih =>
      rw [List.prod_cons]
      exact Nat.mul_pos (hpos n (by simp)) (ih (fun m hm => hpos m (by simp [hm])))
  simp at hl; omega

example : Collection.getCombinations ⟨[⟨2, none⟩, ⟨3, some ⟨some 1, none, none⟩⟩], none⟩ =
    .ok [(0, [0, 1]), (1, [0, 2]), (2, [1, 1]), (3, [1, 2])] := by decide +kernel

/-! ## C04 -/

/-- **C04 (flat index is the column number).** With neither slices nor user combinations, converting the indices of a
column to a flat index gives the column number. -/
theorem C04_global_id (ss : List Scenario) (hs : ss ≠ []) (hno : ∀ s ∈ ss, s.slice = none)
    (combos : List Index) (h : Collection.getCombinations ⟨ss, none⟩ = .ok combos) :
    ∀ g idx, (g, idx) ∈ combos → Collection.ravelIndices ⟨ss, none⟩ idx = .ok g := by
  obtain ⟨ls, hsel, rfl⟩ := getCombinations_product hs h
  have hf := selections_forall2 hsel
  intro g idx hg
  rw [mem_enumerate] at hg
  have hmem : idx ∈ product ls := List.mem_of_getElem? hg
  have hch := (mem_product_iff_choice hf idx).1 hmem
  -- positions equal indices
  have hpos : List.Forall₂ (fun k (l : List Int) => k < l.length) (idx.map Int.toNat) ls ∧
      List.zipWith (fun (l : List Int) k => l.getD k 0) ls (idx.map Int.toNat) = idx ∧
      (idx.map Int.toNat).map Int.ofNat = idx := by
    clear hg hmem h hs hsel
    unfold IsChoice at hch
    induction hf generalizing idx with
    | nil => cases hch; simp
    | @cons s l ss ls hsl _ ih =>
      cases hch with
      | @cons i _ is _ hi his =>
        obtain ⟨k1, k2, k3⟩ := ih (fun s' hs' => hno s' (by simp [hs'])) is his
        have hsn := hno s (by simp)
        have hl : l = (List.range s.size).map Int.ofNat := by
          unfold Scenario.selection at hsl; rw [hsn] at hsl; cases hsl; rfl
        have hr := selects_range hi
        subst hl
        refine ⟨?_, ?_, ?_⟩
        · refine .cons ?_ k1; simp; omega
        · simp only [List.map_cons, List.zipWith_cons_cons, k2, List.cons.injEq, and_true]
          rw [List.getD_eq_getElem?_getD, List.getElem?_map, List.getElem?_range (by omega)]
          simp; omega
        · simp only [List.map_cons, k3, List.cons.injEq, and_true]
          simp; omega
  obtain ⟨k1, k2, k3⟩ := hpos
  obtain ⟨g', h1, h2, h3⟩ := product_ravel k1
  rw [k2] at h2
  rw [k3] at h1
  have hnd := nodup_product (forall_nodup_selections hf)
  have hgg : g = g' := by
    have b1 : g < (product ls).length := by
      rw [List.getElem?_eq_some_iff] at hg; exact hg.1
    have b2 : g' < (product ls).length := by
      rw [List.getElem?_eq_some_iff] at h2; exact h2.1
    have e1 : (product ls)[g]'b1 = idx := by
      rw [List.getElem?_eq_some_iff] at hg; exact hg.2
    have e2 : (product ls)[g']'b2 = idx := by
      rw [List.getElem?_eq_some_iff] at h2; exact h2.2
    exact (hnd.getElem_inj_iff).1 (e1.trans e2.symm)
  subst hgg
  unfold Collection.ravelIndices Collection.shape
  have hl0 : idx.length ≠ 0 := by
    rw [hch.length_eq]; simpa using hs
  have hss : ss.length ≠ 0 := by simpa using hs
  simp only [hl0, if_false, hss, hsel, h1]

/-- **C04 (no scenarios).** The only column of a model without scenarios has number 0, with the index that `get_combinations` gives it or with none. -/
theorem C04_no_scenarios : Collection.getCombinations ⟨[], none⟩ = .ok [(0, [0])] ∧
    ∀ i : List Int, Collection.ravelIndices ⟨[], none⟩ i = .ok 0 ↔ i = [0] ∨ i = [] := by
  refine ⟨rfl, fun i => ⟨fun h => ?_, ?_⟩⟩
  · cases i with
    | nil => exact Or.inr rfl
    | cons a l =>
      left
      simp only [Collection.ravelIndices, Collection.shape, List.length_cons, Nat.add_one_ne_zero, if_false, List.length_nil, if_true] at h
      cases l with
      | cons b m =>
        simp only [ravelMultiIndex] at h
        split at h <;> simp_all
      | nil =>
        simp only [ravelMultiIndex] at h
        split at h
        · rename_i r e
          split at e
          · rename_i hc
            have : a = 0 := by omega
            rw [this]
          · cases e
        · cases h
  · rintro (rfl | rfl) <;> rfl

/-- **C04 (injective).** Distinct valid index tuples have distinct flat indices. -/
theorem C04_injective (ss : List Scenario) (i j : List Int) (hi : i ≠ []) (hj : j ≠ []) (r : Nat)
    (h1 : Collection.ravelIndices ⟨ss, none⟩ i = .ok r) (h2 : Collection.ravelIndices ⟨ss, none⟩ j = .ok r) :
    i = j := by
  unfold Collection.ravelIndices at h1 h2
  have hi' : i.length ≠ 0 := by simpa using hi
  have hj' : j.length ≠ 0 := by simpa using hj
  simp only [hi', hj', if_false] at h1 h2
  cases hsh : Collection.shape ⟨ss, none⟩ with
  | error e => simp [hsh] at h1
  | ok dims =>
    simp only [hsh] at h1 h2
    cases a1 : ravelMultiIndex i dims with
    | none => simp [a1] at h1
    | some r1 =>
      cases a2 : ravelMultiIndex j dims with
      | none => simp [a2] at h2
      | some r2 =>
        simp only [a1, a2, Except.ok.injEq] at h1 h2
        subst h1; subst h2
        exact ravel_injective a1 a2

/-- **C04 (positions, with slices).** A per-column result reshaped to the scenario shape has at position
`[p1, ..., pk]` the column of the combination made of the `p1`-th, ..., `pk`-th *selected* members. -/
theorem C04_position (ss : List Scenario) (hs : ss ≠ []) (ls : List (List Int))
    (hsel : List.Forall₂ (fun s l => Scenario.selection s = .ok l) ss ls) (combos : List Index)
    (h : Collection.getCombinations ⟨ss, none⟩ = .ok combos)
    (p : List Nat) (hp : List.Forall₂ (fun k (l : List Int) => k < l.length) p ls) :
    Collection.shape ⟨ss, none⟩ = .ok (ls.map List.length) ∧
    ∃ g, ravelMultiIndex (p.map Int.ofNat) (ls.map List.length) = some g ∧
      combos[g]? = some (g, List.zipWith (fun (l : List Int) k => l.getD k 0) ls p) := by
  obtain ⟨ls', hsel', rfl⟩ := getCombinations_product hs h
  have hf' := selections_forall2 hsel'
  have : ls' = ls := by
    clear h hp p hs hsel'
    induction hsel generalizing ls' with
    | nil => cases hf'; rfl
    | cons h1 _ ih =>
      cases hf' with
      | cons h1' h2' =>
        rw [h1] at h1'; cases h1'
        rw [ih _ h2']
  subst this
  refine ⟨?_, ?_⟩
  · unfold Collection.shape
    have hss : ss.length ≠ 0 := by simpa using hs
    simp only [hss, if_false, hsel']
  · obtain ⟨g, h1, h2, -⟩ := product_ravel hp
    exact ⟨g, h1, by rw [getElem?_enumerate, h2]; rfl⟩

/-- **C04 (shape).** The shape has as many places as there are columns, with slices, with combinations chosen by the user, and without any scenario. -/
theorem C04_shape (c : Collection) (hu : c.user ≠ none → c.scenarios ≠ []) (combos : List Index) (h : c.getCombinations = .ok combos) :
    ∃ dims, c.shape = .ok dims ∧ dims.prod = combos.length := by
  obtain ⟨ss, user⟩ := c
  cases user with
  | some rows =>
    have hs : ss.length ≠ 0 := by simpa using hu (by simp)
    refine ⟨[rows.length], rfl, ?_⟩
    simp only [Collection.getCombinations, hs, if_false] at h
    split at h
    · cases h
    · cases h; simp [enumerate]
  | none =>
    by_cases hs : ss = []
    · subst hs
      cases h
      exact ⟨[1], rfl, rfl⟩
    · obtain ⟨ls, hsel, rfl⟩ := getCombinations_product hs h
      have hss : ss.length ≠ 0 := by simpa using hs
      refine ⟨ls.map List.length, by simp only [Collection.shape, hss, if_false, hsel], ?_⟩
      have : (product ls).length = (ls.map List.length).prod := by
        clear h hsel
        induction ls with
        | nil => rfl
        | cons l ls ih => simp [product, List.length_flatMap, ih]
      simp [enumerate, this]

/-- C04: three combinations of two scenarios chosen by the user, and a slice. -/
example : (Collection.mk [⟨2, none⟩, ⟨3, none⟩] (some [[0, 0], [1, 2], [0, 1]])).shape = .ok [3] ∧
    (Collection.mk [⟨2, none⟩, ⟨3, some ⟨some 1, some 3, none⟩⟩] none).shape = .ok [2, 2] := by
  constructor <;> rfl

/-- **C04 fails with slices.** The flat-index conversion of a column's own indices is refused (index out of bounds) as
soon as a slice does not start at member zero; so the first sentence of C04 needs its "no slices" hypothesis. -/
theorem C04_fails_with_slices :
    ∃ ss combos, Collection.getCombinations ⟨ss, none⟩ = .ok combos ∧
      ∃ g idx, (g, idx) ∈ combos ∧ Collection.ravelIndices ⟨ss, none⟩ idx = .error .valueError :=
  ⟨[⟨10, some ⟨some 5, some 7, none⟩⟩], [(0, [5]), (1, [6])], by decide +kernel, 0, [5], by decide +kernel,
    by decide +kernel⟩

example : Collection.ravelIndices ⟨[⟨2, none⟩, ⟨3, none⟩], none⟩ [1, 2] = .ok 5 := by decide +kernel

/-! ## C05 -/

/-- **C05 (acceptance).** A two-dimensional table is accepted iff it has one column per scenario, has a row (when there
are columns) and every row addresses existing members. -/
theorem C05_accept_iff (c : Collection) (cols : Nat) (rows : List (List Int)) (hrect : ∀ r ∈ rows, r.length = cols) :
    (∃ c', c.setUser (.twoD cols rows) = .ok c') ↔
      cols = c.scenarios.length ∧ (rows ≠ [] ∨ cols = 0) ∧ ∀ row ∈ rows, ValidRow c.scenarios row := by
  unfold Collection.setUser
  by_cases h1 : cols = c.scenarios.length
  · subst h1
    simp only [ne_eq, not_true_eq_false, if_false, true_and]
    by_cases h2 : rows = [] ∧ ¬ c.scenarios.length = 0
    · simp [h2.1, h2.2]
    · simp only [h2, if_false]
      have h2' : rows ≠ [] ∨ c.scenarios.length = 0 := by tauto
      simp only [h2', true_and]
      have key : (∀ row ∈ rows, ValidRow c.scenarios row) ↔
          (rows.any (fun r => (r.zip c.scenarios).any (fun p => p.1 ≥ p.2.size)) = false ∧
           rows.any (fun r => r.any (fun v => v < 0)) = false) := by
        simp only [List.any_eq_false]
        constructor
        · intro h
          exact ⟨fun r hr => by rw [((forall₂_zip_any (hrect r hr)).2 (h r hr)).1]; simp,
            fun r hr => by rw [((forall₂_zip_any (hrect r hr)).2 (h r hr)).2]; simp⟩
        · rintro ⟨ha, hb⟩ r hr
          refine (forall₂_zip_any (hrect r hr)).1 ⟨?_, ?_⟩
          · simpa using ha r hr
          · simpa using hb r hr
      rw [key]
      split_ifs with h3 h4
      · simp only [h3, reduceCtorEq, exists_false, false_iff, not_and]; simp
      · simp only [h4, reduceCtorEq, exists_false, false_iff, not_and]; simp
      · simp only [Except.ok.injEq, exists_eq', true_iff]
        exact ⟨by simpa using h3, by simpa using h4⟩
  · simp [h1]

/-- **C05 (other shapes are refused).** -/
theorem C05_other_refused (c : Collection) : c.setUser .otherDim = .error .valueError := rfl

/-- **C05 (used verbatim).** After a table has been accepted the columns are exactly its rows, in order. -/
theorem C05_verbatim (c c' : Collection) (cols : Nat) (rows : List (List Int)) (hn : c.scenarios ≠ [])
    (h : c.setUser (.twoD cols rows) = .ok c') :
    ∃ combos, c'.getCombinations = .ok combos ∧ combos.map Prod.snd = rows ∧
      combos.map Prod.fst = List.range rows.length := by
  unfold Collection.setUser at h
  simp only at h
  split_ifs at h with h1 h2 h3 h4
  cases h
  have h1' : cols = c.scenarios.length := by simpa using h1
  have hc : cols ≠ 0 := by rw [h1']; simpa using hn
  have hr : rows ≠ [] := fun hr => h2 ⟨hr, hc⟩
  refine ⟨enumerate rows, ?_, enumerate_snd _, enumerate_fst _⟩
  unfold Collection.getCombinations
  have hl : c.scenarios.length ≠ 0 := by simpa using hn
  simp only [hl, if_false, isEmpty_enumerate]
  rw [if_neg]; simpa using hr

/-- The last sentence of C05: in every reachable state the stored table is valid for the scenarios. -/
def C05_stays_valid : Prop :=
  ∀ (ops : List Op), (∀ op ∈ ops, ∀ cols rows, op = .setUser (.twoD cols rows) → ∀ r ∈ rows, r.length = cols) →
    ∀ rows, (run ops).user = some rows → ∀ row ∈ rows, ValidRow (run ops).scenarios row

/-- **C05 fails (last sentence).** Adding a scenario after setting the table leaves rows with too few entries. -/
theorem C05_fails : ¬ C05_stays_valid := by
  intro h
  have := h [.add 2 none, .setUser (.twoD 1 [[0]]), .add 3 none] (by
    intro op hop cols rows he r hr
    simp only [List.mem_cons, List.not_mem_nil, or_false] at hop
    rcases hop with rfl | rfl | rfl
    · cases he
    · cases he; simp at hr; subst hr; rfl
    · cases he) [[0]] (by decide) [0] (by simp)
  have := this.length_eq
  revert this; decide

/-- **C05, partial (last sentence).** In every reachable state every row of the stored table is valid for an initial
segment of the scenarios, of the length of the row; so it stays valid as long as no scenario is added afterwards.
Missing: scenarios added later are not covered by the rows. -/
theorem C05_partial (ops : List Op)
    (hrect : ∀ op ∈ ops, ∀ cols rows, op = .setUser (.twoD cols rows) → ∀ r ∈ rows, r.length = cols)
    (rows : List (List Int)) (h : (run ops).user = some rows) :
    ∃ k, ∀ row ∈ rows, ValidRow ((run ops).scenarios.take k) row := by
  induction ops using List.reverseRecOn generalizing rows with
  | nil => simp [run] at h
  | append_singleton ops op ih =>
    have hrun : run (ops ++ [op]) = (run ops).step op := by simp [run, List.foldl_append]
    rw [hrun] at h ⊢
    have ih' := fun rows => ih (fun op' hop' => hrect op' (by simp [hop'])) rows
    have keep : ∀ rows, (run ops).user = some rows →
        ∃ k, k ≤ (run ops).scenarios.length ∧ ∀ row ∈ rows, ValidRow ((run ops).scenarios.take k) row := by
      intro rows hu
      obtain ⟨k, hk⟩ := ih' rows hu
      by_cases hle : k ≤ (run ops).scenarios.length
      · exact ⟨k, hle, hk⟩
      · refine ⟨(run ops).scenarios.length, le_refl _, ?_⟩
        rw [List.take_of_length_le (by omega)] at hk
        simpa using hk
    cases op with
    | add n s =>
      simp only [Collection.step, Collection.addScenario] at h ⊢
      by_cases hn : n < 1
      · simp only [hn, if_true] at h ⊢; exact ih' rows h
      · simp only [hn, if_false] at h ⊢
        obtain ⟨k, hle, hk⟩ := keep rows h
        refine ⟨k, ?_⟩
        rw [List.take_append_of_le_length hle]
        exact hk
    | setUser t =>
      simp only [Collection.step] at h ⊢
      cases ht : (run ops).setUser t with
      | error e => simp only [ht] at h ⊢; exact ih' rows h
      | ok c' =>
        simp only [ht] at h ⊢
        cases t with
        | none => simp only [Collection.setUser, Except.ok.injEq] at ht; subst ht; simp at h
        | otherDim => simp [Collection.setUser] at ht
        | twoD cols rows' =>
          have hr := hrect _ (by simp) cols rows' rfl
          have hv := ((C05_accept_iff (run ops) cols rows' hr).1 ⟨c', ht⟩)
          have hc' : c' = { (run ops) with user := some rows' } := by
            unfold Collection.setUser at ht
            simp only at ht
            split_ifs at ht with h1 h2 h3 h4
            cases ht; rfl
          subst hc'
          simp only [Option.some.injEq] at h
          subst h
          refine ⟨(run ops).scenarios.length, ?_⟩
          simp only [List.take_length]
          exact hv.2.2

example : ∃ c', Collection.setUser ⟨[⟨2, none⟩, ⟨3, none⟩], none⟩ (.twoD 2 [[0, 2], [1, 1]]) = .ok c' :=
  ⟨⟨[⟨2, none⟩, ⟨3, none⟩], some [[0, 2], [1, 1]]⟩, by decide +kernel⟩

end Verif.Scenarios

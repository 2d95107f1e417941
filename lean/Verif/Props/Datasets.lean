import Verif.Spec.Datasets
import Mathlib.Data.List.GetD
import Mathlib.Data.List.Infix
import Mathlib.Data.List.Perm.Basic
import Mathlib.Tactic.Tauto
/-! # C90: data from tables and files; names of types -/

namespace Verif.Datasets

variable {α : Type}

private theorem mem_positions (l : List Label) (c : Label) (i : Nat) : i ∈ positions l c ↔ l[i]? = some c := by
  unfold positions
  rw [List.mem_filter, List.mem_range, beq_iff_eq]
  constructor
  · exact fun h => h.2
  · exact fun h => ⟨(List.getElem?_eq_some_iff.1 h).1, h⟩

private theorem positions_nil (l : List Label) (c : Label) : positions l c = [] ↔ c ∉ l := by
  rw [List.eq_nil_iff_forall_not_mem]
  constructor
  · intro h hc
    obtain ⟨i, hi⟩ := List.mem_iff_getElem?.1 hc
    exact h i ((mem_positions l c i).2 hi)
  · intro h i hi
    exact h (List.mem_of_getElem? ((mem_positions l c i).1 hi))

private theorem positions_unique (l : List Label) (hl : l.Nodup) (c : Label) (i : Nat) (hi : l[i]? = some c) : positions l c = [i] := by
  have hn : (positions l c).Nodup := List.Nodup.filter _ List.nodup_range
  have hm : ∀ k ∈ positions l c, k = i := by
    intro k hk
    have hk := (mem_positions l c k).1 hk
    obtain ⟨h1, e1⟩ := List.getElem?_eq_some_iff.1 hk
    obtain ⟨h2, e2⟩ := List.getElem?_eq_some_iff.1 hi
    exact (List.Nodup.getElem_inj_iff hl).1 (e1.trans e2.symm)
  have hi' := (mem_positions l c i).2 hi
  match hp : positions l c with
  | [] => rw [hp] at hi'; simp at hi'
  | [k] => rw [hp] at hm; rw [hm k (by simp)]
  | a :: b :: r =>
    rw [hp] at hm hn
    have e1 := hm a (by simp)
    have e2 := hm b (by simp)
    simp [e1, e2] at hn

/-- **C90 (one value).** With a column and an index the value is the one in that row and column of the table; it is given exactly when both labels are there, otherwise there is a
`KeyError` naming the missing label. -/
theorem C90_cell (f : Frame α) (hf : f.Proper) (c r : Label) (d : Data α) :
    select ⟨some c, none, some r, none⟩ f = .ok d ↔ ∃ x, d = .scalar x ∧ f.Has r c x := by
  simp only [select, given, selectColumn]
  by_cases hc : c ∈ f.columns
  · obtain ⟨j, hj⟩ := List.mem_iff_getElem?.1 hc
    rw [positions_unique _ hf.2 c j hj]
    simp only [selectIndex]
    by_cases hr : r ∈ f.index
    · obtain ⟨i, hi⟩ := List.mem_iff_getElem?.1 hr
      rw [positions_unique _ hf.1 r i hi]
      simp only [Except.ok.injEq]
      constructor
      · rintro rfl
        exact ⟨_, rfl, i, j, hi, hj, rfl⟩
      · rintro ⟨x, rfl, i', j', hi', hj', rfl⟩
        have e1 := (mem_positions _ _ _).2 hi'
        have e2 := (mem_positions _ _ _).2 hj'
        rw [positions_unique _ hf.1 r i hi] at e1
        rw [positions_unique _ hf.2 c j hj] at e2
        simp only [List.mem_singleton] at e1 e2
        rw [e1, e2]
    · rw [(positions_nil _ _).2 hr]
      simp only [reduceCtorEq, false_iff]
      rintro ⟨x, -, i, j, hi, -⟩
      exact hr (List.mem_of_getElem? hi)
  · rw [(positions_nil _ _).2 hc]
    simp only [reduceCtorEq, false_iff]
    rintro ⟨x, -, i, j, -, hj, -⟩
    exact hc (List.mem_of_getElem? hj)

/-- **C90 (order).** The order of the rows and columns in the file does not matter for it. -/
theorem C90_order (f g : Frame α) (hf : f.Proper) (hg : g.Proper) (h : f.Same g) (c r : Label) (d : Data α) :
    select ⟨some c, none, some r, none⟩ f = .ok d ↔ select ⟨some c, none, some r, none⟩ g = .ok d := by
  rw [C90_cell f hf, C90_cell g hg]
  exact exists_congr fun x => and_congr_right fun _ => h r c x

/-- **C90 (column).** With a column alone the result is its values in the order of the rows, labelled with the rows. -/
theorem C90_column (f : Frame α) (hf : f.Proper) (c : Label) (hc : c ∈ f.columns) :
    ∃ v, select ⟨some c, none, none, none⟩ f = .ok (.series f.index v) ∧ ∀ i r, f.index[i]? = some r → f.Has r c (v i) := by
  obtain ⟨j, hj⟩ := List.mem_iff_getElem?.1 hc
  refine ⟨fun i => f.cell i j, ?_, fun i r hi => ⟨i, j, hi, hj, rfl⟩⟩
  simp only [select, given, selectColumn, positions_unique _ hf.2 c j hj]

private theorem allPositions_spec (l : List Label) (hl : l.Nodup) (cs : List Label) (hc : ∀ c ∈ cs, c ∈ l) :
    ∃ js, allPositions l cs = some js ∧ pick l js = cs ∧ js.length = cs.length ∧ ∀ (k : Nat) (c : Label), cs[k]? = some c → l[at' js k]? = some c := by
  induction cs with
  | nil => exact ⟨[], rfl, rfl, rfl, by simp⟩
  | cons c cs ih =>
    obtain ⟨js, h1, h2, h3, h4⟩ := ih fun c hc' => hc c (List.mem_cons_of_mem _ hc')
    obtain ⟨j, hj⟩ := List.mem_iff_getElem?.1 (hc c (by simp))
    refine ⟨j :: js, ?_, ?_, by simp [h3], ?_⟩
    · rw [allPositions, positions_unique _ hl c j hj, h1]
      rfl
    · simp only [pick, List.filterMap_cons, hj]
      rw [show List.filterMap (fun i => l[i]?) js = cs from h2]
    · intro k c' hk
      cases k with
      | zero => simp only [List.getElem?_cons_zero, Option.some.injEq] at hk; subst hk; exact hj
      | succ k => exact h4 k c' (by simpa using hk)

private theorem allPositions_none (l : List Label) (cs : List Label) (hc : ∃ c ∈ cs, c ∉ l) : allPositions l cs = none := by
  induction cs with
  | nil => obtain ⟨c, h, -⟩ := hc; simp at h
  | cons c cs ih =>
    rw [allPositions]
    by_cases h : c ∈ l
    · have : ∃ c ∈ cs, c ∉ l := by
        obtain ⟨c', hm, hn⟩ := hc
        rcases List.mem_cons.1 hm with rfl | hm
        · exact absurd h hn
        · exact ⟨c', hm, hn⟩
      rw [ih this]
      split <;> rfl
    · rw [if_pos ((positions_nil l c).2 h)]

/-- **C90 (columns and rows).** With lists of columns and of rows the result is the table of these columns and rows, in the order asked for. -/
theorem C90_table (f : Frame α) (hf : f.Proper) (cs rs : List Label) (hc : ∀ c ∈ cs, c ∈ f.columns) (hr : ∀ r ∈ rs, r ∈ f.index) :
    ∃ g, select ⟨none, some cs, none, some rs⟩ f = .ok (.frame g) ∧ g.index = rs ∧ g.columns = cs ∧
      ∀ i j r c, rs[i]? = some r → cs[j]? = some c → f.Has r c (g.cell i j) := by
  obtain ⟨js, j1, j2, -, j4⟩ := allPositions_spec f.columns hf.2 cs hc
  obtain ⟨is, i1, i2, -, i4⟩ := allPositions_spec f.index hf.1 rs hr
  refine ⟨⟨rs, cs, fun i j => f.cell (at' is i) (at' js j)⟩, ?_, rfl, rfl, ?_⟩
  · simp only [select, given, selectColumns, selectIndexes, j1, i1, i2, j2]
  · exact fun i j r c hi hj => ⟨at' is i, at' js j, i4 i r hi, j4 j c hj, rfl⟩

/-- **C90 (row).** With an index alone the result is the values of that row in the order of the columns, labelled with the columns; with a list of columns as well, the values in these columns. -/
theorem C90_row (f : Frame α) (hf : f.Proper) (r : Label) (hr : r ∈ f.index) :
    (∃ v, select ⟨none, none, some r, none⟩ f = .ok (.series f.columns v) ∧ ∀ j c, f.columns[j]? = some c → f.Has r c (v j)) ∧
    ∀ cs, (∀ c ∈ cs, c ∈ f.columns) → ∃ v, select ⟨none, some cs, some r, none⟩ f = .ok (.series cs v) ∧ ∀ j c, cs[j]? = some c → f.Has r c (v j) := by
  obtain ⟨i, hi⟩ := List.mem_iff_getElem?.1 hr
  refine ⟨⟨fun j => f.cell i j, ?_, fun j c hj => ⟨i, j, hi, hj, rfl⟩⟩, fun cs hc => ?_⟩
  · simp only [select, given, selectIndex, positions_unique _ hf.1 r i hi]
  · obtain ⟨js, j1, j2, -, j4⟩ := allPositions_spec f.columns hf.2 cs hc
    refine ⟨fun j => f.cell i (at' js j), ?_, fun j c hj => ⟨i, at' js j, hi, j4 j c hj, rfl⟩⟩
    simp only [select, given, selectColumns, selectIndex, j1, j2, positions_unique _ hf.1 r i hi]

private theorem pick_positions (l : List Label) (c : Label) (is : List Nat) (h : ∀ i ∈ is, l[i]? = some c) : pick l is = List.replicate is.length c := by
  induction is with
  | nil => rfl
  | cons i is ih =>
    have := ih fun i hi => h i (List.mem_cons_of_mem _ hi)
    simp only [pick, List.filterMap_cons, h i List.mem_cons_self, List.length_cons, List.replicate_succ]
    rw [show List.filterMap (fun i => l[i]?) is = _ from this]

/-- **C90 (repeated labels).** A label that two or more columns have selects all of these columns, as a table; the same for rows. -/
theorem C90_repeated (f : Frame α) (c : Label) :
    ((∃ i j : Nat, i < j ∧ f.columns[i]? = some c ∧ f.columns[j]? = some c) →
      ∃ g, select ⟨some c, none, none, none⟩ f = .ok (.frame g) ∧ g.index = f.index ∧ g.columns = List.replicate (f.columns.count c) c ∧
        ∀ k, k < f.columns.count c → ∃ j, f.columns[j]? = some c ∧ ∀ i, g.cell i k = f.cell i j) ∧
    ((∃ i j : Nat, i < j ∧ f.index[i]? = some c ∧ f.index[j]? = some c) →
      ∃ g, select ⟨none, none, some c, none⟩ f = .ok (.frame g) ∧ g.columns = f.columns ∧ g.index = List.replicate (f.index.count c) c ∧
        ∀ k, k < f.index.count c → ∃ i, f.index[i]? = some c ∧ ∀ j, g.cell k j = f.cell i j) := by
  have count : ∀ l : List Label, (positions l c).length = l.count c := by
    intro l
    unfold positions
    rw [← List.countP_eq_length_filter]
    induction l using List.reverseRecOn with
    | nil => rfl
    | append_singleton l a ih =>
      rw [List.length_append, List.length_singleton, List.range_succ, List.countP_append, List.count_append, ← ih]
      congr 1
      · apply List.countP_congr
        intro i hi
        have hi := List.mem_range.1 hi
        rw [List.getElem?_append_left hi]
      · by_cases h : a = c
        · simp [h]
        · simp [h]
  have two : ∀ l : List Label, (∃ i j : Nat, i < j ∧ l[i]? = some c ∧ l[j]? = some c) → ∃ a b is, positions l c = a :: b :: is := by
    rintro l ⟨i, j, hij, hi, hj⟩
    have hi := (mem_positions l c i).2 hi
    have hj := (mem_positions l c j).2 hj
    match hp : positions l c with
    | [] => rw [hp] at hi; simp at hi
    | [k] => rw [hp] at hi hj; simp only [List.mem_singleton] at hi hj; omega
    | a :: b :: is => exact ⟨a, b, is, rfl⟩
  have hat : ∀ (l : List Label) (k : Nat), k < l.count c → l[at' (positions l c) k]? = some c := by
    intro l k hk
    rw [← count] at hk
    unfold at'
    rw [List.getD_eq_getElem _ _ hk]
    exact (mem_positions l c _).1 (List.getElem_mem hk)
  have hpick : ∀ l : List Label, pick l (positions l c) = List.replicate (l.count c) c := by
    intro l
    rw [pick_positions l c _ fun i hi => (mem_positions l c i).1 hi, count]
  constructor
  · intro h
    obtain ⟨a, b, is, hp⟩ := two _ h
    refine ⟨⟨f.index, pick f.columns (positions f.columns c), fun i k => f.cell i (at' (positions f.columns c) k)⟩, ?_, rfl, hpick _, fun k hk => ⟨_, hat _ k hk, fun _ => rfl⟩⟩
    simp only [select, given, selectColumn, hp]
  · intro h
    obtain ⟨a, b, is, hp⟩ := two _ h
    refine ⟨⟨pick f.index (positions f.index c), f.columns, fun k j => f.cell (at' (positions f.index c) k) j⟩, ?_, rfl, hpick _, fun k hk => ⟨_, hat _ k hk, fun _ => rfl⟩⟩
    simp only [select, given, selectIndex, hp]

example : ∃ i j : Nat, i < j ∧ ["x".toList, "y".toList, "x".toList][i]? = some "x".toList ∧ ["x".toList, "y".toList, "x".toList][j]? = some "x".toList := ⟨0, 2, by decide, rfl, rfl⟩

/-- **C90 (missing labels).** A missing column, column list, index or index list is a `KeyError`; for the first three it names what was missing. -/
theorem C90_missing (f : Frame α) :
    (∀ c, c ∉ f.columns → select ⟨some c, none, none, none⟩ f = .error (.key "column" [c])) ∧
    (∀ cs, (∃ c ∈ cs, c ∉ f.columns) → select ⟨none, some cs, none, none⟩ f = .error (.key "columns" cs)) ∧
    (∀ r, r ∉ f.index → select ⟨none, none, some r, none⟩ f = .error (.key "index" [r])) ∧
    (∀ rs, (∃ r ∈ rs, r ∉ f.index) → ∃ named, select ⟨none, none, none, some rs⟩ f = .error (.key "indexes" named)) ∧
    ∀ c r, c ∈ f.columns → f.columns.Nodup → r ∉ f.index → select ⟨some c, none, some r, none⟩ f = .error (.key "index" [r]) := by
  refine ⟨fun c h => ?_, fun cs h => ?_, fun r h => ?_, fun rs h => ?_, fun c r hc hn h => ?_⟩
  · simp only [select, given, selectColumn, (positions_nil _ _).2 h]
  · simp only [select, given, selectColumns, allPositions_none _ _ h]
  · simp only [select, given, selectIndex, (positions_nil _ _).2 h]
  · exact ⟨_, by simp only [select, given, selectIndexes, allPositions_none _ _ h]; rfl⟩
  · obtain ⟨j, hj⟩ := List.mem_iff_getElem?.1 hc
    simp only [select, given, selectColumn, positions_unique _ hn c j hj, selectIndex, (positions_nil _ _).2 h]

private def sampleFrame : Frame Nat := ⟨["a".toList, "b".toList], ["x".toList, "y".toList], fun i j => 10 * i + j⟩

private theorem sample_proper : sampleFrame.Proper := by unfold Frame.Proper sampleFrame; decide

example : sampleFrame.Proper ∧ sampleFrame.Has "b".toList "y".toList 11 := ⟨sample_proper, 1, 1, rfl, rfl, rfl⟩

/-- **C90 fails** for a column together with a list of rows: although all labels are there, there is an `IndexingError`; and the message about missing rows does not name them. -/
theorem C90_rows_fails :
    (∃ (f : Frame Nat) (c : Label) (rs : List Label), f.Proper ∧ c ∈ f.columns ∧ (∀ r ∈ rs, r ∈ f.index) ∧ select ⟨some c, none, none, some rs⟩ f = .error .indexing) ∧
    (∃ (f : Frame Nat) (r : Label), f.Proper ∧ r ∉ f.index ∧ select ⟨none, none, none, some [r]⟩ f = .error (.key "indexes" [])) := by
  refine ⟨⟨sampleFrame, "x".toList, ["b".toList], sample_proper, by decide, by decide, rfl⟩, ⟨sampleFrame, "z".toList, sample_proper, by decide, rfl⟩⟩

/-! ## Files -/

private theorem checkAll_spec (ok : List Char → List Char → List Char → Bool) (path : List Char) (cs : List (List Char × List Char)) :
    ((checkAll ok path cs).1 = true ↔ ∀ p ∈ cs, ok path p.1 p.2 = true) ∧ (∀ e ∈ (checkAll ok path cs).2, ∃ a h, e = .check path a h) ∧
    ((checkAll ok path cs).1 = true → (checkAll ok path cs).2 = cs.map fun p => .check path p.1 p.2) := by
  induction cs with
  | nil => simp [checkAll]
  | cons p rest ih =>
    obtain ⟨a, h⟩ := p
    rw [checkAll]
    by_cases hk : ok path a h = true
    · simp only [hk, if_true]
      refine ⟨by rw [ih.1]; simp [hk], ?_, ?_⟩
      · intro e he
        rcases List.mem_cons.1 he with rfl | he
        · exact ⟨a, h, rfl⟩
        · exact ih.2.1 e he
      · intro ht; simp [ih.2.2 ht]
    · simp only [hk, Bool.false_eq_true, if_false]
      refine ⟨?_, ?_, by simp⟩
      · simp [hk]
      · intro e he
        simp only [List.mem_singleton] at he
        exact ⟨a, h, he⟩

/-- **C90 (checksums).** A file is handed to a reading function only when all checksums of the entry have been compared with this very file and agree; the reading comes after the
comparisons; and at most one file is read. -/
theorem C90_checked (modelPath : Option (List Char)) (ok : List Char → List Char → List Char → Bool) (r : Request) (path t : List Char)
    (h : Effect.read path t ∈ (readDataframe modelPath ok r).2) :
    (∃ u, r.url = some u ∧ path = resolve modelPath u) ∧ (∀ p ∈ r.checksums.getD [], ok path p.1 p.2 = true) ∧
    (readDataframe modelPath ok r).2 = ((r.checksums.getD []).map fun p => .check path p.1 p.2) ++ [.read path t] ∧ (readDataframe modelPath ok r).1 = .ok () := by
  unfold readDataframe at h ⊢
  cases hu : r.url with
  | none =>
    rw [hu] at h
    simp only at h
    split at h
    · simp at h
    · split at h
      · simp at h
      · split at h <;> simp at h
  | some u =>
    rw [hu] at h
    simp only at h ⊢
    obtain ⟨c1, c2, c3⟩ := checkAll_spec ok (resolve modelPath u) (r.checksums.getD [])
    have hno : ∀ q s, Effect.read q s ∉ (checkAll ok (resolve modelPath u) (r.checksums.getD [])).2 := by
      intro q s hm
      obtain ⟨a, b, e⟩ := c2 _ hm
      exact absurd e (by simp)
    by_cases hc : (checkAll ok (resolve modelPath u) (r.checksums.getD [])).1 = false
    · rw [if_pos hc] at h
      exact absurd h (hno _ _)
    · rw [if_neg hc] at h ⊢
      have hc' : (checkAll ok (resolve modelPath u) (r.checksums.getD [])).1 = true := by simpa using hc
      split at h
      · exact absurd h (hno _ _)
      · next t' ht =>
        split at h
        · exact absurd h (hno _ _)
        · next hd =>
          split at h
          · next hs =>
            rcases List.mem_append.1 h with h | h
            · exact absurd h (hno _ _)
            · simp only [List.mem_singleton, Effect.read.injEq] at h
              obtain ⟨rfl, rfl⟩ := h
              rw [if_neg hd, if_pos hs]
              exact ⟨⟨u, rfl, rfl⟩, c1.1 hc', by rw [c3 hc'], rfl⟩
          · exact absurd h (hno _ _)

/-- **C90 (data in the document).** Without a file the data is taken from the document, exactly if there is some and neither a type nor checksums are given; no file is touched. -/
theorem C90_embedded (modelPath : Option (List Char)) (ok : List Char → List Char → List Char → Bool) (r : Request) (h : r.url = none) :
    ((readDataframe modelPath ok r).1 = .ok () ↔ r.data = true ∧ r.filetype = none ∧ r.checksums = none) ∧
      ((readDataframe modelPath ok r).1 = .ok () → (readDataframe modelPath ok r).2 = [.embedded]) ∧
      ((readDataframe modelPath ok r).1 ≠ .ok () → (readDataframe modelPath ok r).1 = .error .value ∧ (readDataframe modelPath ok r).2 = []) := by
  rcases r with ⟨url, data, checksums, filetype⟩
  simp only at h
  subst h
  cases data <;> cases checksums <;> cases filetype <;> simp [readDataframe]

/-- **C90 (mismatch).** If a checksum does not agree there is an error and nothing is read. -/
theorem C90_mismatch (modelPath : Option (List Char)) (ok : List Char → List Char → List Char → Bool) (r : Request) (u : List Char) (hu : r.url = some u)
    (p : List Char × List Char) (hp : p ∈ r.checksums.getD []) (hk : ok (resolve modelPath u) p.1 p.2 = false) :
    (readDataframe modelPath ok r).1 = .error .hash ∧ ∀ q t, Effect.read q t ∉ (readDataframe modelPath ok r).2 := by
  obtain ⟨c1, c2, -⟩ := checkAll_spec ok (resolve modelPath u) (r.checksums.getD [])
  have hc : (checkAll ok (resolve modelPath u) (r.checksums.getD [])).1 = false := by
    rw [Bool.eq_false_iff]
    intro hh
    rw [c1.1 hh p hp] at hk
    exact absurd hk (by decide)
  unfold readDataframe
  rw [hu]
  simp only [hc, if_true]
  refine ⟨trivial, fun q t hm => ?_⟩
  obtain ⟨a, b, e⟩ := c2 _ hm
  exact absurd e (by simp)

private theorem endsWith_iff (url e : List Char) (he : '.' ∉ e) : endsWith url ('.' :: e) = true ↔ extension url = some e := by
  unfold endsWith extension
  rw [List.isSuffixOf_iff_suffix]
  constructor
  · rintro ⟨p, rfl⟩
    rw [if_pos (by simp)]
    congr 1
    rw [List.reverse_append, List.reverse_cons, List.append_assoc, List.takeWhile_append_of_pos (by
      intro c hc
      have : c ∈ e := List.mem_reverse.1 hc
      simp only [decide_eq_true_eq]
      rintro rfl
      exact he this)]
    simp
  · intro h
    split at h
    · next hd =>
      simp only [Option.some.injEq] at h
      obtain ⟨p, hp⟩ : ∃ p, url.reverse = e.reverse ++ '.' :: p := by
        rw [← h, List.reverse_reverse]
        have hd' : '.' ∈ url.reverse := List.mem_reverse.2 hd
        generalize url.reverse = l at hd' ⊢
        induction l with
        | nil => simp at hd'
        | cons c l ih =>
          by_cases hc : c = '.'
          · exact ⟨l, by simp [hc]⟩
          · obtain ⟨p, hp⟩ := ih (by
              rcases List.mem_cons.1 hd' with h | h
              · exact absurd h.symm hc
              · exact h)
            refine ⟨p, ?_⟩
            rw [List.takeWhile_cons_of_pos (by simpa using hc), List.cons_append, ← hp]
      refine ⟨p.reverse, ?_⟩
      have := congrArg List.reverse hp
      rw [List.reverse_reverse] at this
      rw [this]
      simp
    · exact absurd h (by simp)

/-- **C90 (file type).** The type guessed for a file depends on what follows the last dot of its path only. -/
theorem C90_type (url : List Char) : guess url = (extension url).bind typeOf := by
  unfold guess
  rw [show ".xls".toList = '.' :: "xls".toList from rfl, show ".xlsx".toList = '.' :: "xlsx".toList from rfl, show ".csv".toList = '.' :: "csv".toList from rfl,
    show ".gz".toList = '.' :: "gz".toList from rfl, show ".hdf".toList = '.' :: "hdf".toList from rfl, show ".hdf5".toList = '.' :: "hdf5".toList from rfl,
    show ".h5".toList = '.' :: "h5".toList from rfl, show ".rds".toList = '.' :: "rds".toList from rfl, show ".Rds".toList = '.' :: "Rds".toList from rfl,
    show ".rdata".toList = '.' :: "rdata".toList from rfl, show ".RData".toList = '.' :: "RData".toList from rfl]
  simp only [Bool.or_eq_true, endsWith_iff _ _ (show '.' ∉ "xls".toList by decide), endsWith_iff _ _ (show '.' ∉ "xlsx".toList by decide),
    endsWith_iff _ _ (show '.' ∉ "csv".toList by decide), endsWith_iff _ _ (show '.' ∉ "gz".toList by decide), endsWith_iff _ _ (show '.' ∉ "hdf".toList by decide),
    endsWith_iff _ _ (show '.' ∉ "hdf5".toList by decide), endsWith_iff _ _ (show '.' ∉ "h5".toList by decide), endsWith_iff _ _ (show '.' ∉ "rds".toList by decide),
    endsWith_iff _ _ (show '.' ∉ "Rds".toList by decide), endsWith_iff _ _ (show '.' ∉ "rdata".toList by decide), endsWith_iff _ _ (show '.' ∉ "RData".toList by decide)]
  cases extension url with
  | none => simp
  | some e =>
    simp only [Option.some.injEq, Option.bind_some, typeOf, List.map_cons, List.map_nil, List.lookup_cons, List.lookup_nil]
    by_cases h1 : e = "xls".toList
    · subst h1; decide
    by_cases h2 : e = "xlsx".toList
    · subst h2; decide
    by_cases h3 : e = "csv".toList
    · subst h3; decide
    by_cases h4 : e = "gz".toList
    · subst h4; decide
    by_cases h5 : e = "hdf".toList
    · subst h5; decide
    by_cases h6 : e = "hdf5".toList
    · subst h6; decide
    by_cases h7 : e = "h5".toList
    · subst h7; decide
    by_cases h8 : e = "rds".toList
    · subst h8; decide
    by_cases h9 : e = "Rds".toList
    · subst h9; decide
    by_cases h10 : e = "rdata".toList
    · subst h10; decide
    by_cases h11 : e = "RData".toList
    · subst h11; decide
    have b : ∀ w : List Char, e ≠ w → (e == w) = false := fun w h => by simpa using h
    simp only [h1, h2, h3, h4, h5, h6, h7, h8, h9, h10, h11, b _ h1, b _ h2, b _ h3, b _ h4, b _ h5, b _ h6, b _ h7, b _ h8, b _ h9, b _ h10, b _ h11, or_self, if_false]

example : guess "flows/2020.csv.gz".toList = some "csv".toList ∧ guess "flows.CSV".toList = none := by decide

example : (readDataframe (some "/m".toList) (fun _ _ _ => true) ⟨some "a.csv".toList, false, some [("md5".toList, "0".toList)], none⟩).2 =
    [.check "/m/a.csv".toList "md5".toList "0".toList, .read "/m/a.csv".toList "csv".toList] := by decide

/-! ## Types -/

private theorem lookup_iff (classes : List (List Char)) (key : List Char) (i : Nat) :
    lookup classes key = some i ↔ (classes[i]?).map lower = some key ∧ ∀ k, i < k → (classes[k]?).map lower ≠ some key := by
  unfold lookup
  rw [List.find?_eq_some_iff_getElem]
  constructor
  · rintro ⟨h, k, hk, e, hmin⟩
    rw [beq_iff_eq] at h
    refine ⟨h, fun m hm hcon => ?_⟩
    rw [List.length_reverse, List.length_range] at hk
    rw [List.getElem_reverse, List.getElem_range, List.length_range] at e
    have hml : m < classes.length := by
      cases hg : classes[m]? with
      | none => rw [hg] at hcon; simp at hcon
      | some _ => exact (List.getElem?_eq_some_iff.1 hg).1
    have hlt : classes.length - 1 - m < k := by omega
    have := hmin (classes.length - 1 - m) hlt
    rw [List.getElem_reverse, List.getElem_range, List.length_range, show classes.length - 1 - (classes.length - 1 - m) = m by omega, hcon] at this
    simp at this
  · rintro ⟨h, hl⟩
    have hi : i < classes.length := by
      cases hg : classes[i]? with
      | none => rw [hg] at h; simp at h
      | some _ => exact (List.getElem?_eq_some_iff.1 hg).1
    refine ⟨by rw [h]; simp, classes.length - 1 - i, by simp; omega, by simp; omega, fun m hm => ?_⟩
    rw [List.getElem_reverse, List.getElem_range, List.length_range]
    have := hl (classes.length - 1 - m) (by omega)
    simpa using this

private theorem lookup_none (classes : List (List Char)) (key : List Char) : lookup classes key = none ↔ ∀ c ∈ classes, lower c ≠ key := by
  unfold lookup
  rw [List.find?_eq_none]
  constructor
  · intro h c hc e
    obtain ⟨i, hi⟩ := List.mem_iff_getElem?.1 hc
    exact h i (by simp [(List.getElem?_eq_some_iff.1 hi).1]) (by simp [hi, e])
  · intro h i hi hcon
    rw [beq_iff_eq] at hcon
    cases hg : classes[i]? with
    | none => rw [hg] at hcon; simp at hcon
    | some c =>
      rw [hg, Option.map_some, Option.some.injEq] at hcon
      exact h c (List.mem_of_getElem? hg) hcon

/-- Only one class with this name, upper and lower case being the same. -/
private def Only (classes : List (List Char)) (i : Nat) (name : List Char) : Prop :=
  classes[i]? = some name ∧ ∀ k c, classes[k]? = some c → lower c = lower name → k = i

private theorem lookup_only {classes : List (List Char)} {i : Nat} {name : List Char} (h : Only classes i name) : lookup classes (lower name) = some i := by
  rw [lookup_iff]
  refine ⟨by rw [h.1]; rfl, fun k hk hcon => ?_⟩
  cases hg : classes[k]? with
  | none => rw [hg] at hcon; simp at hcon
  | some c =>
    rw [hg, Option.map_some, Option.some.injEq] at hcon
    have := h.2 k c hg hcon
    omega

/-- **C90 (full names).** A registered class is found by its name, in upper or lower case. -/
theorem C90_full_name (classes : List (List Char)) (i : Nat) (name type : List Char) (hn : classes[i]? = some name)
    (hu : ∀ k c, classes[k]? = some c → lower c = lower name → k = i) (ht : lower type = lower name) :
    parameterClass classes type = some i ∧ recorderClass classes type = some i := by
  have := lookup_only (classes := classes) ⟨hn, hu⟩
  unfold parameterClass recorderClass
  simp only [ht, this, and_self]

private theorem lower_append (a b : List Char) : lower (a ++ b) = lower a ++ lower b := List.map_append

private theorem endsWith_self (a w : List Char) : endsWith (a ++ w) w = true := by
  rw [endsWith, List.isSuffixOf_iff_suffix]
  exact List.suffix_append a w

/-- **C90 (short names).** A class whose name ends in "Parameter" ("Recorder") is found without this ending as well, unless there is a class of the short name or the short name has that
ending too. -/
theorem C90_short_name (classes : List (List Char)) (i : Nat) (name type suffix : List Char) (hn : classes[i]? = some name)
    (hu : ∀ k c, classes[k]? = some c → lower c = lower name → k = i) (ht : lower name = lower type ++ suffix) (hs : ∀ c ∈ classes, lower c ≠ lower type) :
    (suffix = "parameter".toList → endsWith (lower type) suffix = false → parameterClass classes type = some i) ∧
    (suffix = "recorder".toList → endsWith (lower type) suffix = false → recorderClass classes type = some i) := by
  have h1 := lookup_only (classes := classes) ⟨hn, hu⟩
  have h2 := (lookup_none classes (lower type)).2 hs
  rw [ht] at h1
  constructor
  · intro e he
    have e : suffix = parameterSuffix := e
    unfold parameterClass
    rw [e] at he h1
    simp only [h2, he, Bool.false_eq_true, if_false, h1]
  · intro e he
    have e : suffix = recorderSuffix := e
    unfold recorderClass
    rw [e] at he h1
    simp only [h2, he, Bool.false_eq_true, if_false, h1]

/-- **C90 (unknown types).** A type for which no class is registered under its own name, with or without the ending, is refused. -/
theorem C90_unknown (classes : List (List Char)) (type : List Char) (h : ∀ c ∈ classes, lower c ≠ lower type ∧ lower c ≠ lower type ++ "parameter".toList) :
    parameterClass classes type = none := by
  unfold parameterClass parameterSuffix
  simp only [(lookup_none classes (lower type)).2 fun c hc => (h c hc).1, (lookup_none classes _).2 fun c hc => (h c hc).2, ite_self]

/-- **C90 (which files are read).** With all checksums right, a file is read exactly if its type, given or guessed, is one of "csv", "excel", "hdf" and "rds", and it is read as that type. -/
theorem C90_read (modelPath : Option (List Char)) (ok : List Char → List Char → List Char → Bool) (r : Request) (u : List Char) (hu : r.url = some u)
    (hc : ∀ p ∈ r.checksums.getD [], ok (resolve modelPath u) p.1 p.2 = true) (t : List Char) :
    Effect.read (resolve modelPath u) t ∈ (readDataframe modelPath ok r).2 ↔
      (r.filetype = some t ∨ (r.filetype = none ∧ guess (resolve modelPath u) = some t)) ∧ t ∈ ["csv".toList, "excel".toList, "hdf".toList, "rds".toList] := by
  obtain ⟨c1, c2, -⟩ := checkAll_spec ok (resolve modelPath u) (r.checksums.getD [])
  have hno : ∀ q s, Effect.read q s ∉ (checkAll ok (resolve modelPath u) (r.checksums.getD [])).2 := by
    intro q s hm
    obtain ⟨a, b, e⟩ := c2 _ hm
    exact absurd e (by simp)
  have hok : (checkAll ok (resolve modelPath u) (r.checksums.getD [])).1 = true := c1.2 hc
  have key : ∀ o : Option (List Char), Effect.read (resolve modelPath u) t ∈ (match o with
      | none => ((.error .unknown : Except ReadErr Unit), (checkAll ok (resolve modelPath u) (r.checksums.getD [])).2)
      | some t => if t = "dict".toList then (.error .value, (checkAll ok (resolve modelPath u) (r.checksums.getD [])).2)
        else if t ∈ supported then (.ok (), (checkAll ok (resolve modelPath u) (r.checksums.getD [])).2 ++ [Effect.read (resolve modelPath u) t])
        else (.error .unknown, (checkAll ok (resolve modelPath u) (r.checksums.getD [])).2)).2 ↔ o = some t ∧ t ∈ ["csv".toList, "excel".toList, "hdf".toList, "rds".toList] := by
    intro o
    cases o with
    | none => simpa using hno _ _
    | some x =>
      dsimp only
      by_cases h1 : x = "dict".toList
      · rw [if_pos h1]
        refine ⟨fun h => absurd h (hno _ _), fun ⟨h2, h3⟩ => ?_⟩
        rw [Option.some.injEq] at h2
        rw [← h2, h1] at h3
        exact absurd h3 (by decide)
      · rw [if_neg h1]
        have hm : x ∈ supported ↔ x ∈ ["csv".toList, "excel".toList, "hdf".toList, "rds".toList] := by
          unfold supported
          simp only [List.mem_cons, List.not_mem_nil, or_false, h1, false_or]
        by_cases h2 : x ∈ supported
        · rw [if_pos h2, List.mem_append]
          simp only [hno, false_or, List.mem_singleton, Effect.read.injEq, true_and, Option.some.injEq]
          refine ⟨fun e => ⟨e.symm, by rw [e]; exact hm.1 h2⟩, fun e => e.1.symm⟩
        · rw [if_neg h2]
          refine ⟨fun h => absurd h (hno _ _), fun ⟨e, h3⟩ => ?_⟩
          rw [Option.some.injEq] at e
          rw [← e] at h3
          exact absurd (hm.2 h3) h2
  unfold readDataframe
  rw [hu]
  dsimp only
  rw [if_neg (by rw [hok]; simp)]
  refine (key (match r.filetype with | some t => some t | none => guess (resolve modelPath u))).trans ?_
  cases r.filetype <;> simp

example : Effect.read "a.gz".toList "csv".toList ∈ (readDataframe none (fun _ _ _ => true) ⟨some "a.gz".toList, false, none, none⟩).2 := by decide +kernel

/-- **C90 (where the file is).** An absolute address is left alone, and so is any address in a model without a path; a relative one is looked for in the directory of the model, whether that is
written with a slash at its end or not. -/
theorem C90_path (dir url : List Char) :
    resolve none url = url ∧ resolve (some dir) ('/' :: url) = '/' :: url ∧
    (url.head? ≠ some '/' → resolve (some []) url = url ∧ resolve (some (dir ++ ['/'])) url = dir ++ '/' :: url ∧
      (dir ≠ [] → dir.getLast? ≠ some '/' → resolve (some dir) url = dir ++ '/' :: url)) := by
  refine ⟨rfl, by simp [resolve], fun h => ⟨by simp [resolve], by simp [resolve, h], fun h1 h2 => by simp [resolve, h, h1, h2]⟩⟩

example : resolve (some "/data".toList) "a.csv".toList = "/data/a.csv".toList ∧ resolve (some "/data/".toList) "a.csv".toList = "/data/a.csv".toList := by decide +kernel

/-- **C90 fails for web addresses**: in a document read from a file (so that the directory of the model is known) data given by an address such as `https://…` are looked for in a file under that directory; for
every address, type and list of checksums, nothing is ever checked or read at the address itself.  Without a directory it is passed on as it is. -/
theorem C90_web_fails (dir rest : List Char) (ok : List Char → List Char → List Char → Bool) (r : Request) (hu : r.url = some ("https://".toList ++ rest)) :
    (∀ e ∈ (readDataframe (some ('/' :: dir)) ok r).2, ∃ path : List Char, path.head? = some '/' ∧ path ≠ "https://".toList ++ rest ∧ ((∃ a h, e = .check path a h) ∨ ∃ t, e = .read path t)) ∧
    ∀ path t, Effect.read path t ∈ (readDataframe none ok r).2 → path = "https://".toList ++ rest := by
  have checks : ∀ (path : List Char) (cs : List (List Char × List Char)), ∀ e ∈ (checkAll ok path cs).2, ∃ a h, e = .check path a h := by
    intro path cs
    induction cs with
    | nil => simp [checkAll]
    | cons c cs ih =>
      obtain ⟨a, h⟩ := c
      unfold checkAll
      split
      · intro e he
        rcases List.mem_cons.1 he with rfl | he
        · exact ⟨a, h, rfl⟩
        · exact ih e he
      · intro e he
        exact ⟨a, h, by simpa using he⟩
  have all : ∀ mp, ∀ e ∈ (readDataframe mp ok r).2, (∃ a h, e = .check (resolve mp ("https://".toList ++ rest)) a h) ∨ ∃ t, e = .read (resolve mp ("https://".toList ++ rest)) t := by
    intro mp e he
    unfold readDataframe at he
    simp only [hu] at he
    repeat' split at he
    all_goals first
      | exact .inl (checks _ _ e he)
      | (rcases List.mem_append.1 he with he | he
         · exact .inl (checks _ _ e he)
         · exact .inr ⟨_, by simpa using he⟩)
  constructor
  · intro e he
    refine ⟨resolve (some ('/' :: dir)) ("https://".toList ++ rest), ?_, ?_, all _ e he⟩
    · unfold resolve
      simp only
      repeat' split
      all_goals simp_all
    · intro h
      have h2 := congrArg List.head? h
      unfold resolve at h2
      simp only at h2
      repeat' split at h2
      all_goals simp_all
  · intro path t h
    rcases all _ _ h with ⟨_, _, h⟩ | ⟨_, h⟩
    · cases h
    · simp only [Effect.read.injEq] at h
      exact h.1

/-- A file on the web, in a model under `/m`. -/
example : readDataframe (some "/m".toList) (fun _ _ _ => true) ⟨some "https://a.org/b.csv".toList, false, none, none⟩ = (.ok (), [.read "/m/https://a.org/b.csv".toList "csv".toList]) ∧
    readDataframe none (fun _ _ _ => true) ⟨some "https://a.org/b.csv".toList, false, none, none⟩ = (.ok (), [.read "https://a.org/b.csv".toList "csv".toList]) := by
  constructor <;> rfl

/-- **C90 fails** for a parameter class whose name does not end in "Parameter": it is not found under its name with this ending, although the code means to take the ending off (as it
does for recorders). -/
theorem C90_suffix_fails : ∃ (classes : List (List Char)) (name : List Char), name ∈ classes ∧
    parameterClass classes (name ++ "Parameter".toList) = none ∧ recorderClass classes (name ++ "Recorder".toList) = some 0 := by
  refine ⟨["AnnualLicense".toList], "AnnualLicense".toList, by decide +kernel, by decide +kernel, by decide +kernel⟩

example : parameterClass ["ConstantParameter".toList, "AnnualLicense".toList] "Constant".toList = some 0 := by decide

end Verif.Datasets

import Verif.Spec.CsvRecorder
import Mathlib.Data.List.Infix
/-! # C87: the CSV recorder -/

namespace Verif.Csv

variable {csv : List String → List Char} {fmt : Rat → String} {scenario : Int}

private theorem pyIndex_spec (l : List Rat) (h1 : -(l.length : Int) ≤ scenario) (h2 : scenario < l.length) :
    ∃ (i : Nat) (v : Rat), ((i : Int) = scenario ∨ (i : Int) = scenario + (l.length : Int)) ∧ l[i]? = some v ∧ pyIndex l scenario = some v := by
  unfold pyIndex
  by_cases h0 : 0 ≤ scenario
  · have hi : scenario.toNat < l.length := by omega
    exact ⟨scenario.toNat, l[scenario.toNat], Or.inl (by omega), by simp [hi], by simp [h0, hi]⟩
  · have hi : ((l.length : Int) + scenario).toNat < l.length := by omega
    refine ⟨((l.length : Int) + scenario).toNat, l[((l.length : Int) + scenario).toNat], Or.inr (by omega), by simp [hi], ?_⟩
    rw [if_neg h0, if_pos (by omega)]
    simp [hi]

private theorem fields_shows (names : List String) (d : String) (ns : String → Option Node)
    (h : ∀ n ∈ names, ∃ l : List Rat, (ns n = some (.storage l) ∨ ns n = some (.node l)) ∧ -(l.length : Int) ≤ scenario ∧ scenario < l.length) :
    ∃ r, fields fmt scenario names d ns = some r ∧ Shows fmt scenario names d ns r := by
  have key : ∃ vs, (names.mapM fun n => ((ns n).bind fun x => x.value scenario).map fmt) = some vs ∧ vs.length = names.length ∧
      ∀ (j : Nat) (n : String), names[j]? = some n → ∃ l : List Rat, (ns n = some (.storage l) ∨ ns n = some (.node l)) ∧
        ∃ (i : Nat) (v : Rat), ((i : Int) = scenario ∨ (i : Int) = scenario + (l.length : Int)) ∧ l[i]? = some v ∧ vs[j]? = some (fmt v) := by
    induction names with
    | nil => exact ⟨[], rfl, rfl, fun j n hj => absurd hj (by simp)⟩
    | cons n names ih =>
      obtain ⟨vs, e1, e2, e3⟩ := ih fun m hm => h m (List.mem_cons_of_mem _ hm)
      obtain ⟨l, hl, h1, h2⟩ := h n List.mem_cons_self
      obtain ⟨i, v, g1, g2, g3⟩ := pyIndex_spec l h1 h2
      have hv : (((ns n).bind fun x => x.value scenario).map fmt) = some (fmt v) := by
        rcases hl with hl | hl <;> simp [hl, Node.value, g3]
      refine ⟨fmt v :: vs, ?_, by simp [e2], ?_⟩
      · rw [List.mapM_cons, hv, e1]; rfl
      · intro j m hj
        cases j with
        | zero =>
          simp only [List.getElem?_cons_zero, Option.some.injEq] at hj
          subst hj
          exact ⟨l, hl, i, v, g1, g2, rfl⟩
        | succ j =>
          rw [List.getElem?_cons_succ] at hj
          obtain ⟨l', hl', i', v', k1, k2, k3⟩ := e3 j m hj
          exact ⟨l', hl', i', v', k1, k2, by simpa using k3⟩
  obtain ⟨vs, e1, e2, e3⟩ := key
  refine ⟨d :: vs, by unfold fields; rw [e1]; rfl, by simp [e2], rfl, fun j n hj => ?_⟩
  obtain ⟨l, hl, i, v, k1, k2, k3⟩ := e3 j n hj
  exact ⟨l, hl, i, v, k1, k2, by simpa using k3⟩

/-- During a run: what was written so far is `H`; it lies in the file up to the position, the rest in the buffer; beyond the position is what an
older file object left there. -/
private structure Inv (names : List String) (old H : List Char) (st : St) : Prop where
  names : st.names = names
  handle : ∃ h, st.handle = some h ∧ h.pos ≤ H.length ∧ H.drop h.pos = h.buf ∧ st.file = H.take h.pos ++ old.drop h.pos

private theorem writeAt_inv (H old data : List Char) (pos : Nat) (hp : pos + data.length ≤ H.length) (hd : data = (H.drop pos).take data.length) :
    writeAt (H.take pos ++ old.drop pos) pos data = H.take (pos + data.length) ++ old.drop (pos + data.length) := by
  unfold writeAt
  by_cases hnil : data = []
  · subst hnil; simp
  rw [if_neg hnil]
  have h1 : (H.take pos).length = pos := by rw [List.length_take]; omega
  have e1 : (H.take pos ++ old.drop pos).take pos = H.take pos := by
    conv_lhs => rw [← h1]
    simp [h1]
  have e2 : pos - (H.take pos ++ old.drop pos).length = 0 := by rw [List.length_append, h1]; omega
  have e3 : (H.take pos ++ old.drop pos).drop (pos + data.length) = old.drop (pos + data.length) := by
    rw [List.drop_append, h1, List.drop_eq_nil_of_le (by rw [h1]; omega), List.drop_drop]
    simp
  rw [e1, e2, e3, List.take_add]
  simp only [List.replicate_zero, List.append_nil]
  rw [← hd]

private theorem flush_inv {names : List String} {old H : List Char} {st : St} (h : Inv names old H st) (k : Nat) : Inv names old H (flush k st) := by
  obtain ⟨hn, hd, h1, h2, h3, h4⟩ := h
  unfold flush
  rw [h1]
  have hlen : (hd.buf.take k).length ≤ H.length - hd.pos := by
    rw [← h3, List.length_take, List.length_drop]; omega
  refine ⟨hn, _, rfl, ?_, ?_, ?_⟩
  · simp only; omega
  · simp only
    rw [← List.drop_drop, h3, List.length_take]
    rcases Nat.le_total k hd.buf.length with hk | hk
    · rw [Nat.min_eq_left hk]
    · rw [Nat.min_eq_right hk, List.drop_eq_nil_of_le (Nat.le_refl _), List.drop_eq_nil_of_le hk]
  · simp only
    rw [h4]
    apply writeAt_inv _ _ _ _ (by omega)
    rw [h3, List.length_take]
    rcases Nat.le_total k hd.buf.length with hk | hk
    · rw [Nat.min_eq_left hk]
    · rw [Nat.min_eq_right hk, List.take_of_length_le hk, List.take_of_length_le (Nat.le_refl _)]

private theorem writerow_inv {names : List String} {old H : List Char} {st : St} (h : Inv names old H st) (f : List String) :
    ∃ st', writerow csv f st = some st' ∧ Inv names old (H ++ csv f) st' := by
  obtain ⟨hn, hd, h1, h2, h3, h4⟩ := h
  unfold writerow
  rw [h1]
  refine ⟨_, rfl, hn, _, rfl, ?_, ?_, ?_⟩
  · simp only [List.length_append]; omega
  · simp only
    rw [List.drop_append_of_le_length h2, h3]
  · simp only
    rw [List.take_append_of_le_length h2, h4]

private theorem rows_inv (names : List String) (old : List Char) (es : List Ev) (hc : ∀ e ∈ es, Complete scenario names e) (H : List Char) (st : St)
    (h : Inv names old H st) :
    ∃ rs, Rows fmt scenario names es rs ∧ Inv names old (H ++ (rs.map csv).flatten) (run csv fmt scenario es st) := by
  induction es generalizing H st with
  | nil => exact ⟨[], .nil, by simpa [run] using h⟩
  | cons e es ih =>
    have hc' := fun e he => hc e (List.mem_cons_of_mem _ he)
    have he := hc e List.mem_cons_self
    cases e with
    | setup g m => exact absurd he (by simp [Complete])
    | reset => exact absurd he (by simp [Complete])
    | finish => exact absurd he (by simp [Complete])
    | flush k =>
      obtain ⟨rs, r1, r2⟩ := ih hc' H (flush k st) (flush_inv h k)
      exact ⟨rs, .flush k r1, r2⟩
    | after d ns =>
      obtain ⟨r, hr, hs⟩ := fields_shows (fmt := fmt) names d ns he
      obtain ⟨st', w1, w2⟩ := writerow_inv (csv := csv) h r
      obtain ⟨rs, r1, r2⟩ := ih hc' _ st' w2
      refine ⟨r :: rs, .after hs r1, ?_⟩
      have e1 : (step csv fmt scenario st (.after d ns)).getD st = st' := by
        show ((fields fmt scenario st.names d ns).bind fun f => writerow csv f st).getD st = st'
        rw [h.names, hr]
        show (writerow csv r st).getD st = st'
        rw [w1]; rfl
      show Inv names old _ (run csv fmt scenario es ((step csv fmt scenario st (.after d ns)).getD st))
      rw [e1]
      simpa using r2

/-- What is in the file after it has been opened again: what the old file object still had, at its place. -/
private def left (st : St) : List Char := match st.handle with
  | none => []
  | some h => writeAt [] h.pos h.buf

private theorem reset_inv (st : St) : ∃ st', reset csv st = some st' ∧ Inv st.names (left st) (csv ("Datetime" :: st.names)) st' := by
  unfold reset left
  cases hh : st.handle with
  | none =>
    simp only [close]
    exact ⟨_, rfl, rfl, _, rfl, Nat.zero_le _, by simp, by simp⟩
  | some h =>
    simp only [close]
    exact ⟨_, rfl, rfl, _, rfl, Nat.zero_le _, by simp, by simp⟩

private theorem run_append (es fs : List Ev) (st : St) : run csv fmt scenario (es ++ fs) st = run csv fmt scenario fs (run csv fmt scenario es st) := by
  induction es generalizing st with
  | nil => rfl
  | cons e es ih => simp only [List.cons_append, run, ih]

private theorem run_reset (st : St) : Inv st.names (left st) (csv ("Datetime" :: st.names)) (run csv fmt scenario [.reset] st) := by
  obtain ⟨st', h1, h2⟩ := reset_inv (csv := csv) st
  show Inv _ _ _ ((reset csv st).getD st)
  rw [h1]; exact h2

private theorem close_inv {names : List String} {old H : List Char} {st : St} (h : Inv names old H st) :
    (close st).file = H ++ old.drop H.length ∧ (close st).handle = none ∧ (close st).names = names := by
  obtain ⟨hn, hd, h1, h2, h3, h4⟩ := h
  unfold close
  rw [h1]
  refine ⟨?_, rfl, hn⟩
  simp only
  have hl : hd.pos + hd.buf.length = H.length := by rw [← h3, List.length_drop]; omega
  rw [h4, writeAt_inv _ _ _ _ (by omega) (by rw [h3, List.take_length]), hl, List.take_length]

private theorem left_length (st : St) : (left st).length ≤ st.reach := by
  unfold left St.reach
  cases st.handle with
  | none => simp
  | some h =>
    by_cases hb : h.buf = []
    · simp [hb, writeAt]
    · simp [hb, writeAt]

private theorem whole (pre es : List Ev) (st0 : St) (hc : ∀ e ∈ es, Complete scenario (run csv fmt scenario pre st0).names e) :
    ∃ rs, Rows fmt scenario (run csv fmt scenario pre st0).names es rs ∧
      Inv (run csv fmt scenario pre st0).names (left (run csv fmt scenario pre st0)) (content csv (run csv fmt scenario pre st0).names rs)
        (run csv fmt scenario (pre ++ [.reset] ++ es) st0) := by
  obtain ⟨rs, r1, r2⟩ := rows_inv (csv := csv) (fmt := fmt) _ _ es hc _ _ (run_reset (fmt := fmt) (scenario := scenario) (run csv fmt scenario pre st0))
  refine ⟨rs, r1, ?_⟩
  rw [run_append, run_append]
  exact r2

/-- **C87 (file), partial.** Whatever happened before: after a reset, any number of rows with the file object passing on characters at any moments, and `finish`,
the file consists of the header and the rows in order, each row showing the date and the values of the columns' nodes in that timestep.  This needs that a
file object left open by earlier use (timesteps taken with `step` and not finished) had nothing left to write beyond the end of the new text.
Without this it is false (`C87_stale_fails`). -/
theorem C87_file_partial (pre es : List Ev) (st0 : St) (hc : ∀ e ∈ es, Complete scenario (run csv fmt scenario pre st0).names e)
    (hreach : ∀ rs, Rows fmt scenario (run csv fmt scenario pre st0).names es rs →
      (run csv fmt scenario pre st0).reach ≤ (content csv (run csv fmt scenario pre st0).names rs).length) :
    ∃ rs, Rows fmt scenario (run csv fmt scenario pre st0).names es rs ∧
      (run csv fmt scenario (pre ++ [.reset] ++ es ++ [.finish]) st0).file = content csv (run csv fmt scenario pre st0).names rs := by
  obtain ⟨rs, r1, r2⟩ := whole pre es st0 hc
  refine ⟨rs, r1, ?_⟩
  rw [run_append]
  show (close _).file = _
  rw [(close_inv r2).1, List.drop_eq_nil_of_le (Nat.le_trans (left_length _) (hreach rs r1)), List.append_nil]

/-- **C87 (finished).** If all earlier use was finished (or there was none), nothing more is needed, for any contents of the file before. -/
theorem C87_finished (pre es : List Ev) (st0 : St) (hc : ∀ e ∈ es, Complete scenario (run csv fmt scenario pre st0).names e)
    (hp : (run csv fmt scenario pre st0).handle = none) :
    ∃ rs, Rows fmt scenario (run csv fmt scenario pre st0).names es rs ∧
      (run csv fmt scenario (pre ++ [.reset] ++ es ++ [.finish]) st0).file = content csv (run csv fmt scenario pre st0).names rs ∧
      (run csv fmt scenario (pre ++ [.reset] ++ es ++ [.finish]) st0).handle = none := by
  obtain ⟨rs, r1, r2⟩ := whole pre es st0 hc
  refine ⟨rs, r1, ?_⟩
  rw [run_append]
  show (close _).file = _ ∧ (close _).handle = _
  refine ⟨?_, (close_inv r2).2.1⟩
  rw [(close_inv r2).1]
  simp [left, hp]

/-- **C87 (crash).** If the process dies at any moment of a run (earlier use having been finished), the file is a beginning of what it was to be; no row is in
it before the rows of earlier timesteps, and no row is in it twice. -/
theorem C87_crash (pre es : List Ev) (st0 : St) (hc : ∀ e ∈ es, Complete scenario (run csv fmt scenario pre st0).names e)
    (hp : (run csv fmt scenario pre st0).handle = none) :
    ∃ rs, Rows fmt scenario (run csv fmt scenario pre st0).names es rs ∧
      (run csv fmt scenario (pre ++ [.reset] ++ es) st0).file <+: content csv (run csv fmt scenario pre st0).names rs := by
  obtain ⟨rs, r1, r2⟩ := whole pre es st0 hc
  refine ⟨rs, r1, ?_⟩
  obtain ⟨-, hd, h1, h2, h3, h4⟩ := r2
  rw [h4]
  simp [left, hp, List.take_prefix]

private theorem pyIndex_none {l : List Rat} (h : ¬(-(l.length : Int) ≤ scenario ∧ scenario < l.length)) : pyIndex l scenario = none := by
  unfold pyIndex
  by_cases h0 : 0 ≤ scenario
  · rw [if_pos h0, List.getElem?_eq_none]
    omega
  · rw [if_neg h0, if_neg]
    omega

/-- **C87 (refused).** A timestep is refused exactly when a node is missing or does not have the scenario, or the file is not open. -/
theorem C87_refused (st : St) (d : String) (ns : String → Option Node) :
    step csv fmt scenario st (.after d ns) = none ↔ ¬Complete scenario st.names (.after d ns) ∨ st.handle = none := by
  constructor
  · intro h
    by_contra hc
    push Not at hc
    obtain ⟨r, hr, -⟩ := fields_shows (fmt := fmt) st.names d ns hc.1
    have h : ((fields fmt scenario st.names d ns).bind fun f => writerow csv f st) = none := h
    unfold writerow at h
    rw [hr] at h
    simp only [Option.bind_some, Option.map_eq_none_iff] at h
    exact hc.2 h
  · rintro (h | h)
    · unfold Complete at h
      push Not at h
      obtain ⟨n, hn, hl⟩ := h
      have hv : (((ns n).bind fun x => x.value scenario).map fmt) = none := by
        cases hx : ns n with
        | none => rfl
        | some x => cases x with
          | storage l =>
            have := hl l (.inl hx)
            simp [Node.value, pyIndex_none (scenario := scenario) (l := l) (by rintro ⟨h1, h2⟩; exact this h1 h2)]
          | node l =>
            have := hl l (.inr hx)
            simp [Node.value, pyIndex_none (scenario := scenario) (l := l) (by rintro ⟨h1, h2⟩; exact this h1 h2)]
      have : ∀ names : List String, n ∈ names → (names.mapM fun n => ((ns n).bind fun x => x.value scenario).map fmt) = none := by
        intro names
        induction names with
        | nil => intro h; cases h
        | cons m names ih =>
          intro h
          rw [List.mapM_cons]
          rcases List.mem_cons.1 h with rfl | h
          · rw [hv]; rfl
          · rw [ih h]
            cases (((ns m).bind fun x => x.value scenario).map fmt) <;> rfl
      show ((fields fmt scenario st.names d ns).bind fun f => writerow csv f st) = none
      unfold fields
      rw [this _ hn]
      rfl
    · show ((fields fmt scenario st.names d ns).bind fun f => writerow csv f st) = none
      unfold writerow
      rw [h]
      cases fields fmt scenario st.names d ns <;> rfl

example : ¬Complete (-3) ["a"] (.after "d" fun _ => some (.node [1, 2])) ∧ Complete (-2) ["a"] (.after "d" fun _ => some (.node [1, 2])) := by
  constructor
  · intro h
    obtain ⟨l, hl, h1, -⟩ := h "a" (by simp)
    rcases hl with hl | hl
    · cases hl
    · cases hl
      simp at h1
  · intro n _
    exact ⟨[1, 2], .inr rfl, by simp, by simp⟩

/-- **C87 (rows).** The rows are determined: as many as timesteps, in their order. -/
theorem C87_rows (names : List String) (es : List Ev) (rs rs' : List (List String)) (h : Rows fmt scenario names es rs) (h' : Rows fmt scenario names es rs') :
    rs = rs' := by
  induction h generalizing rs' with
  | nil => cases h'; rfl
  | flush k h ih =>
    cases h' with
    | flush _ h' => exact ih _ h'
  | @after d ns es rs r h1 h ih =>
    cases h' with
    | @after _ _ _ rs' r' h1' h' =>
      rw [ih _ h']
      congr 1
      obtain ⟨a1, a2, a3⟩ := h1
      obtain ⟨b1, b2, b3⟩ := h1'
      apply List.ext_getElem?
      intro j
      cases j with
      | zero => rw [a2, b2]
      | succ j =>
        rcases Nat.lt_or_ge j names.length with hj | hj
        · have hn : names[j]? = some names[j] := by simp [hj]
          obtain ⟨l, hl, i, v, e1, e2, e3⟩ := a3 j _ hn
          obtain ⟨l', hl', i', v', e1', e2', e3'⟩ := b3 j _ hn
          have hll : l = l' := by
            rcases hl with hl | hl <;> rcases hl' with hl' | hl' <;> rw [hl] at hl' <;> simp at hl' <;> exact hl'
          subst hll
          have hi : i < l.length := by
            rcases Nat.lt_or_ge i l.length with hi | hi
            · exact hi
            · rw [List.getElem?_eq_none hi] at e2; exact absurd e2 (by simp)
          have hi' : i' < l.length := by
            rcases Nat.lt_or_ge i' l.length with hi | hi
            · exact hi
            · rw [List.getElem?_eq_none hi] at e2'; exact absurd e2' (by simp)
          have : i = i' := by omega
          subst this
          rw [e2] at e2'
          rw [e3, e3', Option.some.inj e2']
        · rw [List.getElem?_eq_none (by omega), List.getElem?_eq_none (by omega)]

/-- **C87 (names).** Without a list of nodes the columns are all nodes of the model, each as often as it is there, in alphabetical order; a given list is used as
it is. -/
theorem C87_names (model : List String) :
    (setupNames none model).Perm model ∧ (setupNames none model).Pairwise (· ≤ ·) ∧ ∀ l, setupNames (some l) model = l := by
  refine ⟨List.mergeSort_perm _ _, ?_, fun _ => rfl⟩
  have := List.pairwise_mergeSort (le := fun a b : String => decide (a ≤ b)) (fun a b c h1 h2 => ?_) (fun a b => ?_) model
  · simpa [setupNames] using this
  · simp only [decide_eq_true_eq] at *
    exact String.le_trans h1 h2
  · simp only [Bool.or_eq_true, decide_eq_true_eq]
    exact String.le_total a b

/-- Two timesteps are taken with `Model.step`; the file object has passed on nothing yet.  Then the model is run from the start with one timestep. -/
private def stale : List Ev :=
  [.setup (some ["a"]) [], .reset, .after "d1" fun _ => some (.node [1]), .after "d2" fun _ => some (.node [2]),
   .reset, .after "e1" fun _ => some (.node [3]), .finish]

private def csvEx (l : List String) : List Char := (l.map (fun s => s.toList ++ [','])).flatten ++ ['\n']

/-- **C87 fails** after timesteps that were not finished: the rows of the new run are followed by the end of the old text. -/
theorem C87_stale_fails : ∃ (csv : List String → List Char) (fmt : Rat → String) (pre es : List Ev) (st0 : St),
    (∀ e ∈ es, Complete 0 (run csv fmt 0 pre st0).names e) ∧
    ∀ rs, Rows fmt 0 (run csv fmt 0 pre st0).names es rs →
      ∃ c rest, (run csv fmt 0 (pre ++ [.reset] ++ es ++ [.finish]) st0).file = content csv (run csv fmt 0 pre st0).names rs ++ c :: rest := by
  refine ⟨csvEx, fun _ => "v", stale.take 4, [.after "e1" fun _ => some (.node [3])], ⟨[], none, []⟩, ?_, ?_⟩
  · intro e he
    rw [List.mem_singleton] at he
    subst he
    intro n hn
    exact ⟨[3], Or.inr rfl, by decide, by decide⟩
  · intro rs hrs
    have hrs' : rs = [["e1", "v"]] := by
      refine C87_rows _ _ _ _ hrs (.after (r := ["e1", "v"]) ⟨rfl, rfl, ?_⟩ .nil)
      intro j n hj
      have : j = 0 := by
        by_contra h0
        have : (run csvEx (fun _ => "v") 0 (stale.take 4) ⟨[], none, []⟩).names = ["a"] := rfl
        rw [this, List.getElem?_eq_none (by simp; omega)] at hj
        exact absurd hj (by simp)
      subst this
      exact ⟨[3], Or.inr rfl, 0, 3, Or.inl rfl, rfl, rfl⟩
    subst hrs'
    refine ⟨'d', ['2', ',', 'v', ',', '\n'], ?_⟩
    decide +kernel

/-- **C87 fails** for the options of the writer, which the documentation describes: a recorder given any of them cannot be made. -/
theorem C87_options_fails (kwargs : List String) :
    ((∃ k ∈ ["csv_kwargs", "delimiter", "dialect", "lineterminator", "quotechar"], k ∈ kwargs) → init kwargs = false) ∧
    ((∀ k ∈ kwargs, k ∈ ["agg_func", "ignore_nan", "is_objective", "epsilon", "name", "constraint_lower_bounds", "constraint_upper_bounds", "comment", "tags"]) → init kwargs = true) := by
  constructor
  · rintro ⟨k, hk, hm⟩
    have hn : recorderKeywords.contains k = false := by
      simp only [List.mem_cons, List.not_mem_nil, or_false] at hk
      rcases hk with rfl | rfl | rfl | rfl | rfl <;> decide
    unfold init
    rw [List.all_eq_false]
    exact ⟨k, hm, by rw [hn]; decide⟩
  · intro h
    unfold init
    rw [List.all_eq_true]
    exact fun k hk => List.contains_iff_mem.2 (h k hk)

example : init ["name", "csv_kwargs"] = false := (C87_options_fails _).1 ⟨"csv_kwargs", by decide, by decide⟩

example : ∃ rs, Rows (fun _ => "v") 0 ["a"] [.flush 3, .after "d" fun _ => some (.storage [1, 2])] rs ∧
    (run csvEx (fun _ => "v") 0 ([.setup (some ["a"]) []] ++ [.reset] ++ [.flush 3, .after "d" fun _ => some (.storage [1, 2])] ++ [.finish]) ⟨['x'], none, []⟩).file =
      content csvEx ["a"] rs := by
  have := C87_finished (csv := csvEx) (fmt := fun _ => "v") (scenario := 0) [.setup (some ["a"]) []] [.flush 3, .after "d" fun _ => some (.storage [1, 2])] ⟨['x'], none, []⟩
    (by
      intro e he
      simp only [List.mem_cons, List.not_mem_nil, or_false] at he
      rcases he with rfl | rfl
      · trivial
      · intro n _; exact ⟨[1, 2], Or.inl rfl, by decide, by decide⟩) rfl
  obtain ⟨rs, h1, h2, -⟩ := this
  exact ⟨rs, h1, h2⟩

end Verif.Csv

import Verif.Model.Includes
import Mathlib.Data.List.GetD
import Mathlib.Tactic.SplitIfs
/-!
# Included documents (C46)
-/

namespace Verif.Includes

variable {X Y : Type}

/-- The included JSON documents, in order. -/
def docs (read : X → File X Y) (names : List X) : List (Doc X Y) :=
  names.filterMap fun n => match read n with
    | .json d => some d
    | _ => none

/-- What the documents say under a key, in order. -/
def pieces (ds : List (Doc X Y)) (key : String) : List (Section X Y) := ds.filterMap (·.lookup key)

/-- The section that merging `ps` should give: lists are concatenated; in mappings the last document with an entry wins; a section of another
type stands alone. -/
inductive Merged : List (Section X Y) → Section X Y → Prop
  | list (ls : List (List X)) (h : ls ≠ []) : Merged (ls.map .list) (.list ls.flatten)
  | dict (maps : List (String → Option Y)) (h : maps ≠ []) (d : String → Option Y)
      (hd : ∀ k, d k = (maps.filterMap (· k)).getLast?) : Merged (maps.map .dict) (.dict d)
  | other : Merged [.other] .other

private theorem lookup_put (doc : Doc X Y) (key k : String) (s : Section X Y) :
    (put doc key s).lookup k = if k = key then some s else doc.lookup k := by
  induction doc with
  | nil =>
    simp only [put, List.lookup_cons, List.lookup_nil]
    by_cases h : k = key
    · simp [h]
    · rw [beq_false_of_ne h, if_neg h]
  | cons e rest ih =>
    obtain ⟨a, v⟩ := e
    simp only [put]
    by_cases ha : a = key
    · subst ha
      simp only [if_true, List.lookup_cons]
      by_cases h : k = a
      · simp [h]
      · rw [beq_false_of_ne h, if_neg h]
    · rw [if_neg ha]
      simp only [List.lookup_cons]
      by_cases h : k = a
      · subst h; simp [ha]
      · rw [beq_false_of_ne h]; exact ih

private theorem mergeDoc_lookup : ∀ (inc data r : Doc X Y), (inc.map Prod.fst).Nodup → mergeDoc data inc = .ok r → ∀ k,
    match inc.lookup k with
    | none => r.lookup k = data.lookup k
    | some v => ∃ s, mergeSection (data.lookup k) v = .ok s ∧ r.lookup k = some s := by
  intro inc
  induction inc with
  | nil => intro data r _ h k; simp only [mergeDoc, Except.ok.injEq] at h; subst h; rfl
  | cons e rest ih =>
    obtain ⟨key, value⟩ := e
    intro data r hn h k
    simp only [List.map_cons, List.nodup_cons] at hn
    simp only [mergeDoc] at h
    cases hs : mergeSection (data.lookup key) value with
    | error e => rw [hs] at h; cases h
    | ok s =>
      rw [hs] at h
      simp only at h
      have := ih _ _ hn.2 h k
      rw [lookup_put] at this
      simp only [List.lookup_cons]
      by_cases hk : k = key
      · subst hk
        have hnone : rest.lookup k = none := by
          rw [List.lookup_eq_none_iff]
          intro p hp
          simp only [bne_iff_ne, ne_eq]
          rintro rfl
          exact hn.1 (List.mem_map_of_mem hp)
        rw [hnone] at this
        simp only [if_true] at this
        simp only [beq_self_eq_true]
        exact ⟨s, hs, this⟩
      · rw [if_neg hk] at this
        have hkf : (k == key) = false := by simpa using hk
        rw [hkf]
        exact this

private theorem merged_snoc (ps : List (Section X Y)) (old : Option (Section X Y)) (v s : Section X Y)
    (hold : match old with | none => ps = [] | some o => Merged ps o) (h : mergeSection old v = .ok s) : Merged (ps ++ [v]) s := by
  cases v with
  | other => cases old <;> simp [mergeSection] at h
  | list v =>
    cases old with
    | none =>
      simp only at hold; subst hold
      simp only [mergeSection, Except.ok.injEq] at h; subst h
      have := Merged.list (Y := Y) [v] (by simp)
      simpa using this
    | some o =>
      simp only at hold
      cases hold with
      | list ls hne =>
        simp only [mergeSection, Except.ok.injEq] at h; subst h
        have := Merged.list (Y := Y) (ls ++ [v]) (by simp)
        simpa using this
      | dict maps hne d hd => simp [mergeSection] at h
      | other => simp [mergeSection] at h
  | dict v =>
    cases old with
    | none =>
      simp only at hold; subst hold
      simp only [mergeSection, Except.ok.injEq] at h; subst h
      refine Merged.dict (X := X) [v] (by simp) v ?_
      intro k
      cases hv : v k <;> simp [hv]
    | some o =>
      simp only at hold
      cases hold with
      | list ls hne => simp [mergeSection] at h
      | other => simp [mergeSection] at h
      | dict maps hne d hd =>
        simp only [mergeSection, Except.ok.injEq] at h; subst h
        have := Merged.dict (X := X) (maps ++ [v]) (by simp) (fun k => (v k).or (d k)) (by
          intro k
          rw [List.filterMap_append, hd]
          cases hv : v k <;> simp [hv])
        simpa using this

private theorem merge_pieces (ds : List (Doc X Y)) (data inc r : Doc X Y) (hn : (inc.map Prod.fst).Nodup)
    (hdata : ∀ k, match data.lookup k with | none => pieces ds k = [] | some o => Merged (pieces ds k) o)
    (h : mergeDoc data inc = .ok r) :
    ∀ k, match r.lookup k with | none => pieces (ds ++ [inc]) k = [] | some o => Merged (pieces (ds ++ [inc]) k) o := by
  intro k
  have h1 := mergeDoc_lookup inc data r hn h k
  have h2 := hdata k
  have hp : pieces (ds ++ [inc]) k = pieces ds k ++ (inc.lookup k).toList := by
    unfold pieces
    rw [List.filterMap_append]
    cases hl : inc.lookup k <;> simp [hl]
  rw [hp]
  cases hl : inc.lookup k with
  | none =>
    rw [hl] at h1
    simp only at h1
    rw [h1]
    simpa using h2
  | some v =>
    rw [hl] at h1
    simp only at h1
    obtain ⟨s, hs, hr⟩ := h1
    rw [hr]
    exact merged_snoc _ _ _ _ h2 hs

/-- Documents have distinct keys. -/
def WellFormed (read : X → File X Y) : Prop := ∀ n d, read n = .json d → (d.map Prod.fst).Nodup

/-- The files named in a document. -/
def named (doc : Doc X Y) : List X := match doc.lookup "includes" with
  | some (.list l) => l
  | _ => []

private theorem loop_spec (read : X → File X Y) (hw : WellFormed read) (base : Doc X Y) : ∀ (fuel i : Nat) (data r : Doc X Y),
    i ≤ (named data).length →
    (∀ k, match data.lookup k with
      | none => pieces (base :: docs read ((named data).take i)) k = []
      | some o => Merged (pieces (base :: docs read ((named data).take i)) k) o) →
    loop read fuel i data = .done r →
    ∀ k, match r.lookup k with
      | none => pieces (base :: docs read (named r)) k = []
      | some o => Merged (pieces (base :: docs read (named r)) k) o := by
  intro fuel
  induction fuel with
  | zero => intro i data r _ _ h; cases h
  | succ fuel ih =>
    intro i data r hi hinv h
    rw [loop] at h
    cases hl : data.lookup "includes" with
    | none =>
      rw [hl] at h
      simp only [Result.done.injEq] at h; subst h
      have : named data = [] := by unfold named; rw [hl]
      rw [this] at hinv ⊢
      simpa using hinv
    | some sec =>
      rw [hl] at h
      cases sec with
      | dict d => cases h
      | other => cases h
      | list names =>
        have hnamed : named data = names := by unfold named; rw [hl]
        rw [hnamed] at hi hinv
        simp only at h
        cases hname : names[i]? with
        | none =>
          rw [hname] at h
          simp only [Result.done.injEq] at h; subst h
          rw [hnamed]
          rw [List.take_of_length_le (List.getElem?_eq_none_iff.1 hname)] at hinv
          exact hinv
        | some name =>
          rw [hname] at h
          simp only at h
          obtain ⟨hlt, hget⟩ := List.getElem?_eq_some_iff.1 hname
          have htake : names.take (i + 1) = names.take i ++ [name] := by
            rw [List.take_add_one, hname]; rfl
          cases hread : read name with
          | unreadable => rw [hread] at h; cases h
          | extension => rw [hread] at h; cases h
          | notText => rw [hread] at h; cases h
          | py =>
            rw [hread] at h
            refine ih (i + 1) data r (by rw [hnamed]; omega) ?_ h
            rw [hnamed, htake]
            have : docs read (names.take i ++ [name]) = docs read (names.take i) := by
              unfold docs; rw [List.filterMap_append]; simp [hread]
            rw [this]; exact hinv
          | json doc =>
            rw [hread] at h
            simp only at h
            cases hm : mergeDoc data doc with
            | error e => rw [hm] at h; cases h
            | ok data' =>
              rw [hm] at h
              simp only at h
              have hstep := merge_pieces _ data doc data' (hw name doc hread) hinv hm
              have hext : ∃ more, named data' = names ++ more := by
                have := mergeDoc_lookup doc data data' (hw name doc hread) hm "includes"
                rw [hl] at this
                cases hinc : doc.lookup "includes" with
                | none =>
                  rw [hinc] at this
                  simp only at this
                  exact ⟨[], by unfold named; rw [this]; simp⟩
                | some v =>
                  rw [hinc] at this
                  simp only at this
                  obtain ⟨s, hs, hr⟩ := this
                  cases v with
                  | list v =>
                    simp only [mergeSection, Except.ok.injEq] at hs; subst hs
                    exact ⟨v, by unfold named; rw [hr]⟩
                  | dict v => simp [mergeSection] at hs
                  | other => simp [mergeSection] at hs
              obtain ⟨more, hmore⟩ := hext
              refine ih (i + 1) data' r (by rw [hmore, List.length_append]; omega) ?_ h
              have ht : (named data').take (i + 1) = names.take i ++ [name] := by
                rw [hmore, List.take_append_of_le_length (by omega), htake]
              rw [ht]
              have hd : docs read (names.take i ++ [name]) = docs read (names.take i) ++ [doc] := by
                unfold docs; rw [List.filterMap_append]; simp [hread]
              rw [hd]
              simpa using hstep

private theorem mergeSection_ne_other (old : Option (Section X Y)) (v : Section X Y) : mergeSection old v ≠ .ok .other := by
  cases v <;> rcases old with _ | (_ | _ | _) <;> simp [mergeSection]

private theorem loop_other (read : X → File X Y) (hw : WellFormed read) (base : Doc X Y) (k : String) : ∀ (fuel i : Nat) (data r : Doc X Y),
    (data.lookup k = some .other → base.lookup k = some .other) → loop read fuel i data = .done r →
    (r.lookup k = some .other → base.lookup k = some .other) := by
  intro fuel
  induction fuel with
  | zero => intro i data r _ h; cases h
  | succ fuel ih =>
    intro i data r hinv h
    rw [loop] at h
    cases hl : data.lookup "includes" with
    | none => rw [hl] at h; simp only [Result.done.injEq] at h; subst h; exact hinv
    | some sec =>
      rw [hl] at h
      cases sec with
      | dict d => cases h
      | other => cases h
      | list names =>
        simp only at h
        cases hname : names[i]? with
        | none => rw [hname] at h; simp only [Result.done.injEq] at h; subst h; exact hinv
        | some name =>
          rw [hname] at h
          simp only at h
          cases hread : read name with
          | unreadable => rw [hread] at h; cases h
          | extension => rw [hread] at h; cases h
          | notText => rw [hread] at h; cases h
          | py => rw [hread] at h; exact ih (i + 1) data r hinv h
          | json doc =>
            rw [hread] at h
            simp only at h
            cases hm : mergeDoc data doc with
            | error e => rw [hm] at h; cases h
            | ok data' =>
              rw [hm] at h
              refine ih (i + 1) data' r ?_ h
              intro ho
              have := mergeDoc_lookup doc data data' (hw name doc hread) hm k
              cases hd : doc.lookup k with
              | none => rw [hd] at this; simp only at this; rw [this] at ho; exact hinv ho
              | some v =>
                rw [hd] at this
                simp only at this
                obtain ⟨s, hs, hr⟩ := this
                rw [hr, Option.some.injEq] at ho
                exact absurd (ho ▸ hs) (mergeSection_ne_other _ _)

/-- **C46 (merging).** Whenever loading the includes of a document succeeds, every section of the result is exactly the merge of what the
document and all the files named in the resulting `includes` (those of the document and those named by included files, in the order they are
read) say under its key: lists are concatenated in order; in mappings the last entry for a key wins and no entry is lost; a key that none of
them has stays absent. A section of another type can only be the document's own, and then no included file has that key — so a file with such a
section, or with a section of a different kind, is rejected. -/
theorem C46_merged (read : X → File X Y) (hw : WellFormed read) (base r : Doc X Y) (fuel : Nat)
    (h : loop read fuel 0 base = .done r) (k : String) :
    (r.lookup k = none → pieces (base :: docs read (named r)) k = []) ∧
    (∀ s, r.lookup k = some s → Merged (pieces (base :: docs read (named r)) k) s) ∧
    (r.lookup k = some .other → base.lookup k = some .other ∧ pieces (docs read (named r)) k = []) := by
  have h0 := loop_spec read hw base fuel 0 base r (Nat.zero_le _) (by
    intro k
    simp only [List.take_zero]
    have hp : pieces (base :: docs read []) k = (base.lookup k).toList := by
      unfold pieces docs
      cases hl : base.lookup k <;> simp [hl]
    rw [hp]
    cases hl : base.lookup k with
    | none => rfl
    | some s =>
      simp only [Option.toList_some]
      cases s with
      | list l => simpa using Merged.list (Y := Y) [l] (by simp)
      | dict d => exact Merged.dict [d] (by simp) d (by intro k; cases hv : d k <;> simp [hv])
      | other => exact .other) h k
  refine ⟨fun hn => by rw [hn] at h0; exact h0, fun s hs => by rw [hs] at h0; exact h0, fun ho => ?_⟩
  have hb := loop_other read hw base k fuel 0 base r id h ho
  refine ⟨hb, ?_⟩
  rw [ho] at h0
  simp only at h0
  have hp : pieces (base :: docs read (named r)) k = .other :: pieces (docs read (named r)) k := by
    unfold pieces
    rw [List.filterMap_cons, hb]
  rw [hp] at h0
  generalize hq : pieces (docs read (named r)) k = q at h0 ⊢
  generalize hl : Section.other :: q = l at h0
  cases h0
  simpa using hl

/-- All documents that can be reached agree on the kind of each section, and all names can be read. -/
structure Agreeing (read : X → File X Y) (base : Doc X Y) : Prop where
  readable : ∀ n, (∃ d, read n = .json d) ∨ read n = .py
  kinds : ∀ k, ((∀ s, base.lookup k = some s → ∃ l, s = .list l) ∧ ∀ n d s, read n = .json d → d.lookup k = some s → ∃ l, s = .list l) ∨
    ((∀ s, base.lookup k = some s → ∃ l, s = .dict l) ∧ ∀ n d s, read n = .json d → d.lookup k = some s → ∃ l, s = .dict l) ∨
    ∀ n d, read n = .json d → d.lookup k = none
  includes : ∀ s, base.lookup "includes" = some s → ∃ l, s = .list l

private theorem mergeDoc_ok : ∀ (inc data : Doc X Y), (inc.map Prod.fst).Nodup →
    (∀ k v, inc.lookup k = some v → ∃ s, mergeSection (data.lookup k) v = .ok s) → ∃ r, mergeDoc data inc = .ok r := by
  intro inc
  induction inc with
  | nil => intro data _ _; exact ⟨data, rfl⟩
  | cons e rest ih =>
    obtain ⟨key, value⟩ := e
    intro data hn h
    simp only [List.map_cons, List.nodup_cons] at hn
    obtain ⟨s, hs⟩ := h key value (by simp)
    simp only [mergeDoc, hs]
    refine ih _ hn.2 ?_
    intro k v hk
    have hne : k ≠ key := by
      rintro rfl
      have : rest.lookup k = none := by
        rw [List.lookup_eq_none_iff]
        intro p hp
        simp only [bne_iff_ne, ne_eq]
        rintro rfl
        exact hn.1 (List.mem_map_of_mem hp)
      rw [this] at hk; cases hk
    rw [lookup_put, if_neg hne]
    refine h k v ?_
    rw [List.lookup_cons, beq_false_of_ne hne]; exact hk

private theorem loop_ok (read : X → File X Y) (hw : WellFormed read) (base : Doc X Y) (ha : Agreeing read base) :
    ∀ (fuel i : Nat) (data : Doc X Y),
    (∀ k, ((∀ n d s, read n = .json d → d.lookup k = some s → ∃ l, s = .list l) ∧ (∀ s, data.lookup k = some s → ∃ l, s = .list l)) ∨
      ((∀ n d s, read n = .json d → d.lookup k = some s → ∃ l, s = .dict l) ∧ (∀ s, data.lookup k = some s → ∃ l, s = .dict l)) ∨
      ((∀ n d, read n = .json d → d.lookup k = none) ∧ data.lookup k = base.lookup k)) →
    (∀ s, data.lookup "includes" = some s → ∃ l, s = .list l) →
    ∀ e, loop read fuel i data ≠ .error e := by
  intro fuel
  induction fuel with
  | zero => intro i data _ _ e h; cases h
  | succ fuel ih =>
    intro i data hinv hincl e h
    rw [loop] at h
    cases hl : data.lookup "includes" with
    | none => rw [hl] at h; cases h
    | some sec =>
      obtain ⟨names, rfl⟩ := hincl sec hl
      rw [hl] at h
      simp only at h
      cases hname : names[i]? with
      | none => rw [hname] at h; cases h
      | some name =>
        rw [hname] at h
        simp only at h
        rcases ha.readable name with ⟨doc, hread⟩ | hread
        · rw [hread] at h
          simp only at h
          obtain ⟨r, hr⟩ := mergeDoc_ok doc data (hw name doc hread) (by
            intro k v hv
            rcases hinv k with ⟨h1, h2⟩ | ⟨h1, h2⟩ | ⟨h1, h2⟩
            · obtain ⟨l, rfl⟩ := h1 name doc v hread hv
              cases hd : data.lookup k with
              | none => exact ⟨_, rfl⟩
              | some o => obtain ⟨l', rfl⟩ := h2 o hd; exact ⟨_, rfl⟩
            · obtain ⟨l, rfl⟩ := h1 name doc v hread hv
              cases hd : data.lookup k with
              | none => exact ⟨_, rfl⟩
              | some o => obtain ⟨l', rfl⟩ := h2 o hd; exact ⟨_, rfl⟩
            · rw [h1 name doc hread] at hv; cases hv)
          rw [hr] at h
          have hmd := mergeDoc_lookup doc data r (hw name doc hread) hr
          refine ih (i + 1) r ?_ ?_ e h
          · intro k
            have hk := hmd k
            cases hd : doc.lookup k with
            | none =>
              rw [hd] at hk; simp only at hk
              rw [hk]; exact hinv k
            | some v =>
              rw [hd] at hk
              simp only at hk
              obtain ⟨s, hs, hrk⟩ := hk
              rcases hinv k with ⟨h1, h2⟩ | ⟨h1, h2⟩ | ⟨h1, h2⟩
              · refine Or.inl ⟨h1, ?_⟩
                obtain ⟨l, rfl⟩ := h1 name doc v hread hd
                intro s' hs'
                rw [hrk, Option.some.injEq] at hs'; subst hs'
                cases hd : data.lookup k with
                | none => rw [hd] at hs; simp only [mergeSection, Except.ok.injEq] at hs; exact ⟨_, hs.symm⟩
                | some o =>
                  obtain ⟨l', rfl⟩ := h2 o hd
                  rw [hd] at hs; simp only [mergeSection, Except.ok.injEq] at hs; exact ⟨_, hs.symm⟩
              · refine Or.inr (Or.inl ⟨h1, ?_⟩)
                obtain ⟨l, rfl⟩ := h1 name doc v hread hd
                intro s' hs'
                rw [hrk, Option.some.injEq] at hs'; subst hs'
                cases hd : data.lookup k with
                | none => rw [hd] at hs; simp only [mergeSection, Except.ok.injEq] at hs; exact ⟨_, hs.symm⟩
                | some o =>
                  obtain ⟨l', rfl⟩ := h2 o hd
                  rw [hd] at hs; simp only [mergeSection, Except.ok.injEq] at hs; exact ⟨_, hs.symm⟩
              · rw [h1 name doc hread] at hd; cases hd
          · intro s hs
            have hk := hmd "includes"
            rw [hl] at hk
            cases hd : doc.lookup "includes" with
            | none => rw [hd] at hk; simp only at hk; rw [hk, Option.some.injEq] at hs; exact ⟨_, hs.symm⟩
            | some v =>
              rw [hd] at hk
              simp only at hk
              obtain ⟨s', hs', hrk⟩ := hk
              rw [hrk, Option.some.injEq] at hs; subst hs
              cases v with
              | list v => simp only [mergeSection, Except.ok.injEq] at hs'; exact ⟨_, hs'.symm⟩
              | dict v => simp [mergeSection] at hs'
              | other => simp [mergeSection] at hs'
        · rw [hread] at h
          exact ih (i + 1) data hinv hincl e h

/-- **C46 (acceptance).** Documents that agree on the kind of each section are never rejected. -/
theorem C46_accepted (read : X → File X Y) (hw : WellFormed read) (base : Doc X Y) (ha : Agreeing read base) (fuel : Nat) (e : Error) :
    loop read fuel 0 base ≠ .error e :=
  loop_ok read hw base ha fuel 0 base (fun k => by
    rcases ha.kinds k with ⟨h1, h2⟩ | ⟨h1, h2⟩ | h1
    · exact Or.inl ⟨h2, h1⟩
    · exact Or.inr (Or.inl ⟨h2, h1⟩)
    · exact Or.inr (Or.inr ⟨h1, rfl⟩)) ha.includes e

/-- List, mapping or neither. -/
def kindOf : Section X Y → Nat
  | .list _ => 0
  | .dict _ => 1
  | .other => 2

/-- Some document, the one loaded or an included one, has a section of kind `n` under the key. -/
def SaysKind (read : X → File X Y) (base : Doc X Y) (key : String) (n : Nat) : Prop :=
  ∃ s : Section X Y, kindOf s = n ∧ (base.lookup key = some s ∨ ∃ name doc, read name = .json doc ∧ (key, s) ∈ doc)

private theorem merge_refused (read : X → File X Y) (base : Doc X Y) {name : X} {whole : Doc X Y} (hr : read name = .json whole) (doc : Doc X Y)
    (hsub : ∀ e ∈ doc, e ∈ whole) : ∀ data : Doc X Y, (∀ k s, data.lookup k = some s → SaysKind read base k (kindOf s)) →
      (∀ e, mergeDoc data doc = .error e →
        (e = .invalidType ∧ ∃ key, (key, .other) ∈ whole) ∨
        (e = .wrongKind ∧ ∃ key s n, (key, s) ∈ whole ∧ kindOf s ≠ 2 ∧ n ≠ kindOf s ∧ SaysKind read base key n)) ∧
      ∀ r, mergeDoc data doc = .ok r → ∀ k s, r.lookup k = some s → SaysKind read base k (kindOf s) := by
  induction doc with
  | nil =>
    intro data hd
    exact ⟨fun e he => (by simp [mergeDoc] at he), fun r hr' => (by simp only [mergeDoc, Except.ok.injEq] at hr'; subst hr'; exact hd)⟩
  | cons x doc ih =>
    intro data hd
    obtain ⟨key, v⟩ := x
    have hx : (key, v) ∈ whole := hsub _ List.mem_cons_self
    unfold mergeDoc
    have hput : ∀ s, kindOf s = kindOf v → ∀ k s', (put data key s).lookup k = some s' → SaysKind read base k (kindOf s') := by
      intro s hs k s' h'
      rw [lookup_put] at h'
      split at h'
      · rename_i hk
        cases h'
        obtain rfl : k = key := by simpa using hk
        exact ⟨v, hs.symm, Or.inr ⟨name, whole, hr, hx⟩⟩
      · exact hd k s' h'
    cases hm : mergeSection (data.lookup key) v with
    | error e =>
      refine ⟨fun e' he' => ?_, fun r hr' => (by simp at hr')⟩
      cases he'
      cases v with
      | other =>
        simp only [mergeSection, Except.error.injEq] at hm
        exact Or.inl ⟨hm.symm, key, hx⟩
      | list l =>
        cases ho : data.lookup key with
        | none => rw [ho] at hm; simp [mergeSection] at hm
        | some o =>
          rw [ho] at hm
          right
          cases o with
          | list _ => simp [mergeSection] at hm
          | dict d =>
            simp only [mergeSection, Except.error.injEq] at hm
            exact ⟨hm.symm, key, _, 1, hx, by simp [kindOf], by simp [kindOf], hd key _ ho⟩
          | other =>
            simp only [mergeSection, Except.error.injEq] at hm
            exact ⟨hm.symm, key, _, 2, hx, by simp [kindOf], by simp [kindOf], hd key _ ho⟩
      | dict d =>
        cases ho : data.lookup key with
        | none => rw [ho] at hm; simp [mergeSection] at hm
        | some o =>
          rw [ho] at hm
          right
          cases o with
          | dict _ => simp [mergeSection] at hm
          | list l =>
            simp only [mergeSection, Except.error.injEq] at hm
            exact ⟨hm.symm, key, _, 0, hx, by simp [kindOf], by simp [kindOf], hd key _ ho⟩
          | other =>
            simp only [mergeSection, Except.error.injEq] at hm
            exact ⟨hm.symm, key, _, 2, hx, by simp [kindOf], by simp [kindOf], hd key _ ho⟩
    | ok s =>
      have hk : kindOf s = kindOf v := by
        cases v with
        | other => simp [mergeSection] at hm
        | list l =>
          cases ho : data.lookup key with
          | none => rw [ho] at hm; simp only [mergeSection, Except.ok.injEq] at hm; rw [← hm]
          | some o => rw [ho] at hm; cases o <;> simp only [mergeSection, Except.ok.injEq, reduceCtorEq] at hm; rw [← hm]; rfl
        | dict d =>
          cases ho : data.lookup key with
          | none => rw [ho] at hm; simp only [mergeSection, Except.ok.injEq] at hm; rw [← hm]
          | some o => rw [ho] at hm; cases o <;> simp only [mergeSection, Except.ok.injEq, reduceCtorEq] at hm; rw [← hm]; rfl
      exact ih (fun e he => hsub e (List.mem_cons_of_mem _ he)) _ (hput s hk)

/-- What has to be wrong with the documents for each exception. -/
def Reason (read : X → File X Y) (base : Doc X Y) : Error → Prop
  | .invalidType => ∃ name doc key, read name = .json doc ∧ (key, .other) ∈ doc
  | .wrongKind => ∃ name doc key s n, read name = .json doc ∧ (key, s) ∈ doc ∧ kindOf s ≠ 2 ∧ n ≠ kindOf s ∧ SaysKind read base key n
  | .unreadable => ∃ name, read name = .unreadable
  | .extension => ∃ name, read name = .extension
  | .notText => ∃ name, read name = .notText
  | .notList => ∃ n, n ≠ 0 ∧ SaysKind read base "includes" n

/-- **C46 (refusals).** When loading the includes of a document raises, the exception says why: a `TypeError` if an included document has a section that is neither a list nor a mapping, an
`AttributeError` if it has a list or mapping where another document has something of another kind; otherwise a file that cannot be read, has an unknown extension or is not named by a text, or `includes` is
not a list. -/
theorem C46_refused (read : X → File X Y) (base : Doc X Y) (fuel : Nat) (e : Error) (he : loop read fuel 0 base = .error e) :
    Reason read base e := by
  suffices h : ∀ (fuel i : Nat) (data : Doc X Y), (∀ k s, data.lookup k = some s → SaysKind read base k (kindOf s)) → loop read fuel i data = .error e → Reason read base e from
    h fuel 0 base (fun k s hs => ⟨s, rfl, Or.inl hs⟩) he
  clear he fuel
  intro fuel
  induction fuel with
  | zero => intro i data _ he; simp [loop] at he
  | succ fuel ih =>
    intro i data hd he
    unfold loop at he
    split at he
    · simp at he
    · split at he
      · simp at he
      · rename_i name _
        split at he
        · rename_i doc hr
          obtain ⟨h1, h2⟩ := merge_refused read base hr doc (fun _ h => h) data hd
          split at he
          · rename_i e' hm
            cases he
            rcases h1 _ hm with ⟨rfl, key, hk⟩ | ⟨rfl, key, s, n, hk⟩
            · exact ⟨name, doc, key, hr, hk⟩
            · exact ⟨name, doc, key, s, n, hr, hk⟩
          · rename_i data' hm
            exact ih _ _ (h2 _ hm) he
        · exact ih _ _ hd he
        · rename_i hr; cases he; exact ⟨name, hr⟩
        · rename_i hr; cases he; exact ⟨name, hr⟩
        · rename_i hr; cases he; exact ⟨name, hr⟩
    · rename_i s hs hne
      cases he
      refine ⟨kindOf s, ?_, hd _ _ hne⟩
      cases s with
      | list l => exact absurd rfl (hs l)
      | dict _ => simp [kindOf]
      | other => simp [kindOf]

/-- **C46 (termination), partial.** When no included file names further files, loading ends, after at most one turn per file and one more, and
the files read are those the document names. Missing: files that include each other, for which loading need not end
(`C46_cycle_fails`). -/
theorem C46_ends_partial (read : X → File X Y) (hw : WellFormed read) (base : Doc X Y)
    (hflat : ∀ n d, read n = .json d → d.lookup "includes" = none) (fuel : Nat) (hfuel : (named base).length < fuel) :
    loop read fuel 0 base ≠ .running ∧ ∀ r, loop read fuel 0 base = .done r → named r = named base := by
  have key : ∀ (fuel i : Nat) (data : Doc X Y), data.lookup "includes" = base.lookup "includes" → (named base).length < fuel + i →
      i ≤ (named base).length → 
      loop read fuel i data ≠ .running ∧ ∀ r, loop read fuel i data = .done r → named r = named base := by
    intro fuel
    induction fuel with
    | zero => intro i data _ h1 h2; omega
    | succ fuel ih =>
      intro i data hd h1 h2
      have hnd : named data = named base := by unfold named; rw [hd]
      rw [loop]
      cases hl : data.lookup "includes" with
      | none => exact ⟨by simp, by intro r hr; simp only [Result.done.injEq] at hr; subst hr; exact hnd⟩
      | some sec =>
        cases sec with
        | dict d => exact ⟨by simp, by intro r hr; cases hr⟩
        | other => exact ⟨by simp, by intro r hr; cases hr⟩
        | list names =>
          have hnames : named base = names := by rw [← hnd]; unfold named; rw [hl]
          simp only
          cases hname : names[i]? with
          | none => exact ⟨by simp, by intro r hr; simp only [Result.done.injEq] at hr; subst hr; exact hnd⟩
          | some name =>
            obtain ⟨hlt, -⟩ := List.getElem?_eq_some_iff.1 hname
            rw [← hnames] at hlt
            simp only
            cases hread : read name with
            | unreadable => exact ⟨by simp, by intro r hr; cases hr⟩
            | extension => exact ⟨by simp, by intro r hr; cases hr⟩
            | notText => exact ⟨by simp, by intro r hr; cases hr⟩
            | py => exact ih (i + 1) data hd (by omega) (by omega)
            | json doc =>
              simp only
              cases hm : mergeDoc data doc with
              | error e => exact ⟨by simp, by intro r hr; cases hr⟩
              | ok data' =>
                refine ih (i + 1) data' ?_ (by omega) (by omega)
                have := mergeDoc_lookup doc data data' (hw name doc hread) hm "includes"
                rw [hflat name doc hread] at this
                simp only at this
                rw [this, hd]
  exact key fuel 0 base rfl (by omega) (by omega)

/-- **C46 (files), partial.** Loaded from a file or text, with included files that include nothing themselves, mapping sections are merged as they should
be, but what included files have in a list section is in the result twice. -/
theorem C46_file_partial (read : X → File X Y) (hw : WellFormed read) (base r : Doc X Y) (fuel : Nat)
    (hflat : ∀ n d, read n = .json d → d.lookup "includes" = none) (hfuel : (named base).length < fuel)
    (h : loadFile read fuel base = .done r) (k : String) :
    (∀ d, r.lookup k = some (.dict d) → Merged (pieces (base :: docs read (named base)) k) (.dict d)) ∧
    (∀ l, r.lookup k = some (.list l) → ∃ ls ds, pieces [base] k = List.map .list ls ∧ pieces (docs read (named base)) k = List.map .list ds ∧
      l = ls.flatten ++ ds.flatten ++ ds.flatten) := by
  unfold loadFile loadDict at h
  cases h1 : loop read fuel 0 base with
  | error e => rw [h1] at h; cases h
  | running => rw [h1] at h; cases h
  | done r1 =>
    rw [h1] at h
    simp only at h
    have hn1 := (C46_ends_partial read hw base hflat fuel hfuel).2 r1 h1
    have hn2 := (C46_ends_partial read hw r1 hflat fuel (by rw [hn1]; exact hfuel)).2 r h
    obtain ⟨m1, m2, -⟩ := C46_merged read hw base r1 fuel h1 k
    obtain ⟨-, m3, -⟩ := C46_merged read hw r1 r fuel h k
    rw [hn1] at m1 m2
    rw [hn2, hn1] at m3
    have hcons : ∀ (d : Doc X Y) (ds : List (Doc X Y)), pieces (d :: ds) k = (d.lookup k).toList ++ pieces ds k := by
      intro d ds
      unfold pieces
      cases hd : d.lookup k <;> simp [hd]
    rw [hcons] at m1 m2 m3
    rw [hcons, hcons]
    have hnil : pieces ([] : List (Doc X Y)) k = [] := rfl
    rw [hnil, List.append_nil]
    constructor
    · intro d hd
      have hm := m3 _ hd
      cases hr1 : r1.lookup k with
      | none =>
        have := m1 hr1
        rw [List.append_eq_nil_iff] at this
        rw [hr1, this.2] at hm
        simp only [Option.toList_none, List.nil_append] at hm
        generalize hq : ([] : List (Section X Y)) = q at hm
        cases hm with
        | dict maps hne d hd => exact absurd (List.map_eq_nil_iff.1 hq.symm) hne
      | some s =>
        have hm1 := m2 s hr1
        rw [hr1] at hm
        simp only [Option.toList_some, List.singleton_append] at hm
        generalize hq : s :: pieces (docs read (named base)) k = q at hm
        cases hm with
        | dict maps hne d hd =>
          cases maps with
          | nil => exact absurd rfl hne
          | cons m0 ms =>
            simp only [List.map_cons, List.cons.injEq] at hq
            obtain ⟨rfl, hq⟩ := hq
            generalize hp : (base.lookup k).toList ++ pieces (docs read (named base)) k = p at hm1 ⊢
            cases hm1 with
            | dict maps' hne' m0 hm0 =>
              refine Merged.dict maps' hne' d ?_
              intro key
              rw [hd key, List.filterMap_cons]
              -- what the included files say wins over the first pass, which already contains it
              obtain ⟨pre, hpre⟩ : ∃ pre, maps' = pre ++ ms := by
                rw [hq] at hp
                have hinj : Function.Injective (Section.dict : (String → Option Y) → Section X Y) := by
                  intro a b hab; simpa using hab
                cases hb : base.lookup k with
                | none =>
                  rw [hb] at hp
                  simp only [Option.toList_none, List.nil_append] at hp
                  exact ⟨[], by simpa using ((List.map_inj_right (fun a b h => hinj h)).1 hp).symm⟩
                | some b =>
                  rw [hb] at hp
                  cases maps' with
                  | nil => exact absurd rfl hne'
                  | cons x xs =>
                    simp only [Option.toList_some, List.singleton_append, List.map_cons, List.cons.injEq] at hp
                    exact ⟨[x], by rw [(List.map_inj_right (fun a b h => hinj h)).1 hp.2]; rfl⟩
              have h0 := hm0 key
              rw [hpre, List.filterMap_append] at h0
              rw [hpre, List.filterMap_append]
              cases hlast : (ms.filterMap (· key)).getLast? with
              | none =>
                have hnil' := List.getLast?_eq_none_iff.1 hlast
                rw [hnil', List.append_nil] at h0 ⊢
                rw [← h0]
                cases m0 key <;> rfl
              | some y =>
                rw [List.getLast?_append, hlast, Option.some_or]
                cases m0 key with
                | none => simpa using hlast
                | some z =>
                  simp only
                  rw [List.getLast?_cons, hlast]; rfl
    · intro l hl
      have hm := m3 _ hl
      cases hr1 : r1.lookup k with
      | none =>
        have := m1 hr1
        rw [List.append_eq_nil_iff] at this
        rw [hr1, this.2] at hm
        simp only [Option.toList_none, List.nil_append] at hm
        generalize hq : ([] : List (Section X Y)) = q at hm
        cases hm with
        | list ls hne => exact absurd (List.map_eq_nil_iff.1 hq.symm) hne
      | some s =>
        have hm1 := m2 s hr1
        rw [hr1] at hm
        simp only [Option.toList_some, List.singleton_append] at hm
        generalize hq : s :: pieces (docs read (named base)) k = q at hm
        generalize ht : Section.list l = t at hm
        cases hm with
        | dict => cases ht
        | other => cases ht
        | list ls hne =>
          simp only [Section.list.injEq] at ht
          subst ht
          cases ls with
          | nil => exact absurd rfl hne
          | cons l0 ds =>
            simp only [List.map_cons, List.cons.injEq] at hq
            obtain ⟨rfl, hq⟩ := hq
            rw [hq] at hm1 ⊢
            generalize hp : (base.lookup k).toList ++ ds.map .list = p at hm1
            generalize ht : Section.list l0 = t at hm1
            cases hm1 with
            | dict => cases ht
            | other => cases ht
            | list ls' hne' =>
              simp only [Section.list.injEq] at ht
              subst ht
              have hinj : Function.Injective (Section.list : List X → Section X Y) := by
                intro a b hab; simpa using hab
              cases hb : base.lookup k with
              | none =>
                rw [hb] at hp
                simp only [Option.toList_none, List.nil_append] at hp
                have := (List.map_inj_right (fun a b h => hinj h)).1 hp
                subst this
                exact ⟨[], ds, rfl, rfl, by simp⟩
              | some b =>
                rw [hb] at hp
                cases ls' with
                | nil => exact absurd rfl hne'
                | cons x xs =>
                  simp only [Option.toList_some, List.singleton_append, List.map_cons, List.cons.injEq] at hp
                  have := (List.map_inj_right (fun a b h => hinj h)).1 hp.2
                  subst this
                  exact ⟨[x], ds, by rw [hp.1]; rfl, rfl, by simp [List.append_assoc]⟩

/-- The hypotheses of `C46_file_partial` are met. -/
example : let read : String → File String Nat := fun _ => .json [("scenarios", .list ["climate"]), ("tables", .dict fun k => if k = "t" then some 1 else none)]
    (∀ n d, read n = .json d → d.lookup "includes" = none) ∧ (named ([("includes", .list ["s.json"])] : Doc String Nat)).length < 2 ∧
    ∃ r, loadFile read 2 [("includes", .list ["s.json"]), ("scenarios", .list ["demand"])] = .done r ∧
      r.lookup "scenarios" = some (.list ["demand", "climate", "climate"]) :=
  ⟨fun n d h => by simp only [File.json.injEq] at h; subst h; decide, by decide, _, rfl, rfl⟩

/-- **C46 fails for documents read from a file.** A scenario in an included file becomes two scenarios. -/
theorem C46_file_fails : ∃ (read : String → File String Unit) (base r : Doc String Unit), WellFormed read ∧
    loadFile read 2 base = .done r ∧ base.lookup "scenarios" = none ∧ docs read (named base) = [[("scenarios", .list ["climate"])]] ∧
    r.lookup "scenarios" = some (.list ["climate", "climate"]) :=
  ⟨fun _ => .json [("scenarios", .list ["climate"])], [("includes", .list ["s.json"])], _,
    fun n d h => by simp only [File.json.injEq] at h; subst h; decide, rfl, rfl, rfl, rfl⟩

/-- **C46 fails for files that include each other.** A document that includes a file that includes itself is never loaded: the loop does not
end. -/
theorem C46_cycle_fails : ∃ (read : String → File String Unit) (base : Doc String Unit), WellFormed read ∧
    ∀ fuel, (match loop read fuel 0 base with | .running => true | _ => false) = true := by
  refine ⟨fun _ => .json [("includes", .list ["a.json"])], [("includes", .list ["a.json"])], ?_, ?_⟩
  · intro n d h
    simp only [File.json.injEq] at h; subst h
    decide
  · have key : ∀ fuel i, loop (Y := Unit) (fun _ => .json [("includes", .list ["a.json"])]) fuel i
        [("includes", .list (List.replicate (i + 1) "a.json"))] = .running := by
      intro fuel
      induction fuel with
      | zero => intro i; rfl
      | succ fuel ih =>
        intro i
        rw [loop]
        simp only [List.lookup_cons, beq_self_eq_true]
        have hi : (List.replicate (i + 1) "a.json")[i]? = some "a.json" := by
          rw [List.getElem?_replicate]; simp
        rw [hi]
        simp only [mergeDoc, List.lookup_cons, beq_self_eq_true, mergeSection, put, if_true]
        have : List.replicate (i + 1) "a.json" ++ ["a.json"] = List.replicate (i + 1 + 1) "a.json" := by
          rw [List.replicate_succ' (n := i + 1)]
        rw [this]
        exact ih (i + 1)
    intro fuel
    have := key fuel 0
    simp only [Nat.zero_add, List.replicate_one] at this
    rw [this]

/-- A document with nodes, parameters and a title including two files. -/
private def exRead (n : String) : File String Nat :=
  if n = "a.json" then .json [("nodes", .list ["n2"]), ("parameters", .dict fun k => if k = "p" then some 2 else none)]
  else .json [("parameters", .dict fun k => if k = "p" then some 3 else if k = "q" then some 4 else none), ("edges", .list ["e"])]

example : ∃ d, (match loop exRead 3 0 [("title", .other), ("includes", .list ["a.json", "b.json"]), ("nodes", .list ["n1"]),
      ("parameters", .dict fun k => if k = "p" then some 1 else if k = "r" then some 5 else none)] with
    | .done r => r.map Prod.fst = ["title", "includes", "nodes", "parameters", "edges"] ∧ r.lookup "nodes" = some (.list ["n1", "n2"]) ∧
        r.lookup "parameters" = some (.dict d) ∧ r.lookup "edges" = some (.list ["e"])
    | _ => False) ∧ d "p" = some 3 ∧ d "q" = some 4 ∧ d "r" = some 5 :=
  ⟨_, ⟨rfl, rfl, rfl, rfl⟩, rfl, rfl, rfl⟩

/-- Nodes in the form of a mapping do not go with nodes in the form of a list; a title cannot be included. -/
example : loop (fun _ : String => File.json [("nodes", .dict fun _ => some 1)]) 3 0 [("includes", .list ["a.json"]), ("nodes", .list ["n1"])] = .error .wrongKind ∧
    loop (fun _ : String => (File.json [("title", .other)] : File String Nat)) 3 0 [("includes", .list ["a.json"])] = .error .invalidType := ⟨rfl, rfl⟩

/-- These documents agree on the kinds of sections. -/
example : Agreeing (fun n => if n = "a.py" then .py else exRead n) [("title", .other), ("includes", .list ["a.json", "b.json"]),
    ("nodes", .list ["n1"])] where
  readable n := by
    by_cases h : n = "a.py"
    · right; simp [h]
    · left
      by_cases h' : n = "a.json" <;> simp [h, exRead, h']
  includes s h := by
    simp only [List.lookup_cons, show ("includes" == "title") = false by decide +kernel, beq_self_eq_true, Option.some.injEq] at h
    exact ⟨_, h.symm⟩
  kinds k := by
    have hdoc : ∀ n d, (if n = "a.py" then .py else exRead n) = File.json d →
        d = [("nodes", .list ["n2"]), ("parameters", .dict fun k => if k = "p" then some 2 else none)] ∨
        d = [("parameters", .dict fun k => if k = "p" then some 3 else if k = "q" then some 4 else none), ("edges", .list ["e"])] := by
      intro n d h
      unfold exRead at h
      split_ifs at h
      · left; simpa using h.symm
      · right; simpa using h.symm
    by_cases h1 : k = "parameters"
    · subst h1
      refine Or.inr (Or.inl ⟨?_, ?_⟩)
      · intro s h
        revert h
        simp [List.lookup_cons, show ("parameters" == "title") = false by decide +kernel,
          show ("parameters" == "includes") = false by decide +kernel, show ("parameters" == "nodes") = false by decide +kernel]
      · intro n d s hd hs
        rcases hdoc n d hd with rfl | rfl
        · simp only [List.lookup_cons, show ("parameters" == "nodes") = false by decide +kernel, beq_self_eq_true,
            Option.some.injEq] at hs
          exact ⟨_, hs.symm⟩
        · simp only [List.lookup_cons, beq_self_eq_true, Option.some.injEq] at hs
          exact ⟨_, hs.symm⟩
    · by_cases h2 : k = "title"
      · subst h2
        refine Or.inr (Or.inr ?_)
        intro n d hd
        rcases hdoc n d hd with rfl | rfl <;> decide +kernel
      · refine Or.inl ⟨?_, ?_⟩
        · intro s h
          simp only [List.lookup_cons, beq_false_of_ne h2, List.lookup_nil] at h
          split at h
          · exact ⟨_, (Option.some.inj h).symm⟩
          · split at h
            · exact ⟨_, (Option.some.inj h).symm⟩
            · cases h
        · intro n d s hd hs
          rcases hdoc n d hd with rfl | rfl
          · simp only [List.lookup_cons, beq_false_of_ne h1, List.lookup_nil] at hs
            split at hs
            · exact ⟨_, (Option.some.inj hs).symm⟩
            · cases hs
          · simp only [List.lookup_cons, beq_false_of_ne h1, List.lookup_nil] at hs
            split at hs
            · exact ⟨_, (Option.some.inj hs).symm⟩
            · cases hs

end Verif.Includes

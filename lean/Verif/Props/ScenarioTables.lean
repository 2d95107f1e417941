import Verif.Model.ScenarioTables
import Verif.Proof.DataFrame
import Verif.Props.Profiles
/-! Parameters with a value or profile for each ensemble member (C74). -/

namespace Verif.ScenarioTables

open Verif.Scenarios Verif.Profiles Verif.DataFrame Verif.Calendar

/-- The value of the parameter without scenario made from the part of the table that belongs to member `m`: a constant, a `MonthlyProfileParameter`, `WeeklyProfileParameter`,
`DailyProfileParameter`, or the baseline value times the factor of the month. -/
def plainValue (t : Table) (m index : Nat) (date : Date) : Option Rat :=
  match t with
  | .constant values => values[m]?
  | .monthly rows => (rows[m]?).bind fun r => (Profiles.monthly r).bind fun tab => monthlyValue tab date
  | .weekly rows => (rows[m]?).bind fun r => (Profiles.weekly r).bind fun tab => weeklyValue tab date
  | .daily rows => (rows[m]?).bind fun r => (Profiles.daily r).bind fun tab => dailyValue tab date
  | .factors values rows => (values[index]?).bind fun v => (rows[m]?).bind fun r => (r[date.month - 1]?).map fun f => v * f

/-- The scenarios of a model: the objects, and what `ScenarioCollection` knows of them, position by position. -/
structure Scens where
  objects : List Nat
  coll : Collection
  same : objects.length = coll.scenarios.length
  distinct : objects.Nodup

/-- In combination `combo` the scenario `sc` (described by `s`) is represented by its member `m`. -/
def HasMember (S : Scens) (sc : Nat) (s : Scenario) (combo : List Int) (m : Nat) : Prop :=
  ∃ k : Nat, S.objects[k]? = some sc ∧ S.coll.scenarios[k]? = some s ∧ combo[k]? = some (m : Int) ∧ m < s.size

private theorem index_of {S : Scens} {sc k : Nat} (hk : S.objects[k]? = some sc) : scenarioIndex S.objects sc = some k := by
  obtain ⟨hlt, hg⟩ := List.getElem?_eq_some_iff.1 hk
  refine List.idxOf?_eq_some_iff.2 ⟨hlt, hg, ?_⟩
  intro j hj he
  exact absurd ((List.Nodup.getElem_inj_iff S.distinct).1 (he.trans hg.symm)) (by omega)

private theorem rowAt_nat {α : Type} (rows : List α) (m : Nat) (h : m < rows.length) : rowAt rows (m : Int) = rows[m]? := by
  unfold rowAt
  rw [resolve_nat h]; rfl

private theorem foldl_not_mem (combos : List Index) (value : Nat → List Int → Option Rat) (s : Nat → Option Rat) (g : Nat) (h : g ∉ combos.map Prod.fst) :
    combos.foldl (fun stored c => fun g => if g = c.1 then value c.1 c.2 else stored g) s g = s g := by
  induction combos generalizing s with
  | nil => rfl
  | cons c cs ih =>
    simp only [List.map_cons, List.mem_cons, not_or] at h
    rw [List.foldl_cons, ih _ h.2, if_neg h.1]

private theorem calcAll_mem (combos : List Index) (value : Nat → List Int → Option Rat) (hn : (combos.map Prod.fst).Nodup) (g : Nat) (combo : List Int)
    (h : (g, combo) ∈ combos) : calcAll combos value g = value g combo := by
  obtain ⟨l, r, rfl⟩ := List.append_of_mem h
  unfold calcAll
  rw [List.map_append, List.map_cons] at hn
  have hr : g ∉ r.map Prod.fst := (List.nodup_cons.1 (List.nodup_append.1 hn).2.1).1
  rw [List.foldl_append, List.foldl_cons, foldl_not_mem _ _ _ _ hr, if_pos rfl]

private theorem combos_nodup {c : Collection} {combos : List Index} (hc : c.getCombinations = .ok combos) : (combos.map Prod.fst).Nodup := by
  obtain ⟨ss, user⟩ := c
  unfold Collection.getCombinations at hc
  split at hc
  · cases hc; decide
  · split at hc
    · simp only at hc
      split at hc
      · cases hc
      · cases hc; rw [enumerate_fst]; exact List.nodup_range
    · split at hc
      · cases hc
      · simp only at hc
        split at hc
        · cases hc
        · cases hc; rw [enumerate_fst]; exact List.nodup_range

private theorem table_rows {n size : Nat} {rows table : List (List Rat)} (h : scenarioTable n size rows = some table) :
    table = rows ∧ size = rows.length ∧ ∀ r ∈ rows, r.length = n := by
  unfold scenarioTable at h
  by_cases h1 : size ≠ rows.length
  · rw [if_pos h1] at h; cases h
  · rw [if_neg h1] at h
    by_cases h2 : (rows.any fun r => decide (r.length ≠ n)) = true
    · rw [if_pos h2] at h; cases h
    · rw [if_neg h2] at h
      refine ⟨(Option.some.inj h).symm, not_not.1 h1, fun r hr => ?_⟩
      by_contra hc
      exact h2 (List.any_eq_true.2 ⟨r, hr, by simpa using hc⟩)

private theorem init_ok {size : Nat} {t t' : Table} (h : t.init size = some t') : t' = t ∧
    match t with
    | .constant values => size = values.length
    | .monthly rows | .factors _ rows => size = rows.length ∧ ∀ r ∈ rows, r.length = 12
    | .weekly rows => size = rows.length ∧ ∀ r ∈ rows, r.length = 52
    | .daily rows => size = rows.length ∧ ∀ r ∈ rows, r.length = 366 := by
  cases t with
  | constant values =>
    simp only [Table.init] at h
    by_cases h1 : size ≠ values.length
    · rw [if_pos h1] at h; cases h
    · rw [if_neg h1] at h; cases h; exact ⟨rfl, not_not.1 h1⟩
  | _ =>
    simp only [Table.init, Option.map_eq_some_iff] at h
    obtain ⟨tab, ht, rfl⟩ := h
    obtain ⟨rfl, h2, h3⟩ := table_rows ht
    exact ⟨rfl, h2, h3⟩

private theorem value_plain {size : Nat} {t t' : Table} (h : t.init size = some t') {m : Nat} (hm : m < size) (k index : Nat) (date : Date) (combo : List Int)
    (hc : combo[k]? = some (m : Int)) : t'.value k index date combo = plainValue t m index date := by
  obtain ⟨rfl, hr⟩ := init_ok h
  unfold Table.value plainValue
  rw [hc, Option.bind_some]
  cases t' with
  | constant values => exact rowAt_nat values m (by simp only at hr; omega)
  | monthly rows =>
    simp only at hr ⊢
    rw [rowAt_nat rows m (by omega)]
    have hm' : m < rows.length := by omega
    rw [List.getElem?_eq_getElem hm', Option.bind_some, Option.bind_some]
    have hl := hr.2 _ (List.getElem_mem hm')
    unfold Profiles.monthly
    rw [if_neg (by simpa using hl)]; rfl
  | weekly rows =>
    simp only at hr ⊢
    rw [rowAt_nat rows m (by omega)]
    have hm' : m < rows.length := by omega
    rw [List.getElem?_eq_getElem hm', Option.bind_some, Option.bind_some]
    have hl := hr.2 _ (List.getElem_mem hm')
    unfold Profiles.weekly
    simp only
    rw [if_neg (show ¬ rows[m].length = 53 by omega), if_neg (by simpa using hl)]; rfl
  | daily rows =>
    simp only at hr ⊢
    rw [rowAt_nat rows m (by omega)]
    have hm' : m < rows.length := by omega
    rw [List.getElem?_eq_getElem hm', Option.bind_some, Option.bind_some]
    have hl := hr.2 _ (List.getElem_mem hm')
    unfold Profiles.daily
    rw [if_neg (by simpa using hl)]; rfl
  | factors values rows =>
    simp only at hr ⊢
    rw [rowAt_nat rows m (by omega)]

/-- **C74.** Whatever other scenarios the model has and however the combinations to run are selected (all, slices, a table): a constructed scenario parameter has in every
combination the value of the parameter without scenario made from the row of that combination's member of *its* scenario. -/
theorem C74_value (S : Scens) (hv : ValidUser S.coll) (combos : List Index) (hc : S.coll.getCombinations = .ok combos) (sc : Nat) (s : Scenario)
    (hs : (sc, s) ∈ S.objects.zip S.coll.scenarios) (t t' : Table) (ht : t.init s.size = some t') (index : Nat) (date : Date) :
    ∀ g combo, (g, combo) ∈ combos → ∃ m, HasMember S sc s combo m ∧
      calcAll combos (fun _ => t'.valueOf S.objects sc index date) g = plainValue t m index date := by
  intro g combo hg
  obtain ⟨k, hk⟩ := List.mem_iff_getElem?.1 hs
  obtain ⟨hk1, hk2⟩ := List.getElem?_zip_eq_some.1 hk
  obtain ⟨m, hm1, hm2, -⟩ := combo_member hv hc hk2 hg
  refine ⟨m, ⟨k, hk1, hk2, hm1, hm2⟩, ?_⟩
  rw [calcAll_mem combos _ (combos_nodup hc) g combo hg]
  unfold Table.valueOf
  rw [index_of hk1, Option.bind_some]
  exact value_plain ht hm2 k index date combo hm1

/-- **C74 (defined).** That value exists on every date (and, for the factors, on every timestep with a baseline value). -/
theorem C74_defined (size : Nat) (t t' : Table) (ht : t.init size = some t') (m : Nat) (hm : m < size) (index : Nat)
    (hi : ∀ values rows, t = .factors values rows → index < values.length) (y mo d : Nat) (hd : ValidDate (isLeapYear y) mo d) :
    ∃ v, plainValue t m index (dateOf y mo d) = some v := by
  obtain ⟨rfl, hr⟩ := init_ok ht
  unfold plainValue
  cases t' with
  | constant values =>
    have hm' : m < values.length := by simp only at hr; omega
    exact ⟨_, List.getElem?_eq_getElem hm'⟩
  | monthly rows =>
    simp only at hr ⊢
    have hm' : m < rows.length := by omega
    rw [List.getElem?_eq_getElem hm', Option.bind_some]
    have hl := hr.2 _ (List.getElem_mem hm')
    have e : Profiles.monthly rows[m] = some rows[m] := by unfold Profiles.monthly; rw [if_neg (by simpa using hl)]
    obtain ⟨v, hv, -⟩ := (C38_in_range rows[m] rows[m] y mo d hd).2.2 e
    exact ⟨v, by rw [e, Option.bind_some, hv]⟩
  | weekly rows =>
    simp only at hr ⊢
    have hm' : m < rows.length := by omega
    rw [List.getElem?_eq_getElem hm', Option.bind_some]
    have hl := hr.2 _ (List.getElem_mem hm')
    have e : Profiles.weekly rows[m] = some rows[m] := by
      unfold Profiles.weekly; simp only; rw [if_neg (show ¬ rows[m].length = 53 by omega), if_neg (by simpa using hl)]
    obtain ⟨v, hv, -⟩ := (C38_in_range rows[m] rows[m] y mo d hd).2.1 e
    exact ⟨v, by rw [e, Option.bind_some, hv]⟩
  | daily rows =>
    simp only at hr ⊢
    have hm' : m < rows.length := by omega
    rw [List.getElem?_eq_getElem hm', Option.bind_some]
    have hl := hr.2 _ (List.getElem_mem hm')
    have e : Profiles.daily rows[m] = some rows[m] := by unfold Profiles.daily; rw [if_neg (by simpa using hl)]
    obtain ⟨v, hv, -⟩ := (C38_in_range rows[m] rows[m] y mo d hd).1 e
    exact ⟨v, by rw [e, Option.bind_some, hv]⟩
  | factors values rows =>
    simp only at hr ⊢
    have hm' : m < rows.length := by omega
    have hl := hr.2 _ (List.getElem_mem hm')
    have hmo : mo - 1 < rows[m].length := by obtain ⟨h1, h2, -⟩ := hd; omega
    rw [List.getElem?_eq_getElem (hi values rows rfl), List.getElem?_eq_getElem hm']
    exact ⟨_, by rw [Option.bind_some, Option.bind_some]; show (rows[m][mo - 1]?).map _ = _; rw [List.getElem?_eq_getElem hmo]; rfl⟩

/-- **C74 (wrapper).** In every combination the wrapper has the stored value of the child for that combination's member. -/
theorem C74_wrapper (S : Scens) (hv : ValidUser S.coll) (combos : List Index) (hc : S.coll.getCombinations = .ok combos) (sc : Nat) (s : Scenario)
    (hs : (sc, s) ∈ S.objects.zip S.coll.scenarios) (children children' : List Nat) (hw : wrapperInit s.size children = some children')
    (stored : Nat → Nat → Option Rat) :
    ∀ g combo, (g, combo) ∈ combos → ∃ m c : Nat, HasMember S sc s combo m ∧ children[m]? = some c ∧
      calcAll combos (wrapperValue children' stored S.objects sc) g = stored c g := by
  intro g combo hg
  obtain ⟨k, hk⟩ := List.mem_iff_getElem?.1 hs
  obtain ⟨hk1, hk2⟩ := List.getElem?_zip_eq_some.1 hk
  obtain ⟨m, hm1, hm2, -⟩ := combo_member hv hc hk2 hg
  unfold wrapperInit at hw
  by_cases h1 : s.size ≠ children.length
  · rw [if_pos h1] at hw; cases hw
  · rw [if_neg h1] at hw
    cases hw
    have hm' : m < children.length := by rw [← not_not.1 h1]; exact hm2
    refine ⟨m, children[m], ⟨k, hk1, hk2, hm1, hm2⟩, List.getElem?_eq_getElem hm', ?_⟩
    rw [calcAll_mem combos _ (combos_nodup hc) g combo hg]
    unfold wrapperValue
    rw [index_of hk1, Option.bind_some, hm1, Option.bind_some, rowAt_nat children m hm', List.getElem?_eq_getElem hm', Option.bind_some]

/-- **C74 (position).** Every scenario of the model has a position, no two share one, and scenarios added later do not change it. -/
theorem C74_position (S : Scens) (sc : Nat) (h : sc ∈ S.objects) (more : List Nat) :
    ∃ k s, scenarioIndex S.objects sc = some k ∧ S.coll.scenarios[k]? = some s ∧ scenarioIndex (S.objects ++ more) sc = some k ∧
      ∀ sc', scenarioIndex S.objects sc' = some k → sc' = sc := by
  obtain ⟨k, hk⟩ : ∃ k, S.objects.idxOf? sc = some k := by
    rw [← Option.ne_none_iff_exists']
    intro hn
    exact (List.idxOf?_eq_none_iff.1 hn) h
  obtain ⟨hlt, hget, hfirst⟩ := List.idxOf?_eq_some_iff.1 hk
  have hks : k < S.coll.scenarios.length := by rw [← S.same]; exact hlt
  refine ⟨k, S.coll.scenarios[k], hk, List.getElem?_eq_getElem hks, ?_, ?_⟩
  · refine List.idxOf?_eq_some_iff.2 ⟨by rw [List.length_append]; omega, ?_, ?_⟩
    · rw [List.getElem_append_left hlt]; exact hget
    · intro j hj
      rw [List.getElem_append_left (by omega)]
      exact hfirst j hj
  · intro sc' h'
    obtain ⟨_, hget', _⟩ := List.idxOf?_eq_some_iff.1 h'
    rw [← hget', hget]

/-- Three scenarios of sizes 2, 3 and 1; the second one is the parameter's. -/
private def three : Scens := ⟨[7, 8, 9], ⟨[⟨2, none⟩, ⟨3, some ⟨some 1, none, none⟩⟩, ⟨1, none⟩], none⟩, rfl, by decide⟩

example : scenarioIndex three.objects 8 = some 1 ∧
    (three.coll.getCombinations.toOption.map fun combos => (List.range 4).map (calcAll combos fun _ => (Table.constant [10, 20, 30]).valueOf three.objects 8 0 ⟨2000, 1, 1⟩)) =
      some [some 20, some 30, some 20, some 30] ∧ ((Table.constant [10, 20, 30]).init 3).isSome ∧ ((Table.constant [10, 20]).init 3).isNone := by decide +kernel

end Verif.ScenarioTables

import Verif.Spec.Collections
import Mathlib.Data.List.Nodup
import Mathlib.Tactic.Tauto
/-! # C95: names and collections of components -/

namespace Verif.Collections

private theorem mem_view (st : St) (p : Comp → Bool) (o : Nat × Option String) : o ∈ view st p ↔ ∃ c, st[o.1]? = some c ∧ p c = true ∧ c.name = o.2 := by
  unfold view
  simp only [List.mem_map, List.mem_filter, List.mem_zipIdx_iff_getElem?]
  constructor
  · rintro ⟨⟨c, i⟩, ⟨h1, h2⟩, rfl⟩
    exact ⟨c, h1, h2, rfl⟩
  · rintro ⟨c, h1, h2, h3⟩
    exact ⟨(c, o.1), ⟨h1, h2⟩, by rw [h3]⟩

private theorem hasName_iff (st : St) (name : Option String) : (components st).hasName name = true ↔ ∃ (i : Nat) (c : Comp), st[i]? = some c ∧ c.name = name := by
  unfold Named.hasName components
  simp only [List.any_eq_true, beq_iff_eq]
  constructor
  · rintro ⟨o, ho, hn⟩
    obtain ⟨c, h1, -, h2⟩ := (mem_view _ _ _).1 ho
    exact ⟨o.1, c, h1, h2.trans hn⟩
  · rintro ⟨i, c, h1, h2⟩
    exact ⟨(i, name), (mem_view _ _ _).2 ⟨c, h1, rfl, h2⟩, rfl⟩

private theorem free_iff (st : St) (name : Option String) : free st name = true ↔ ∀ n, name = some n → ∀ (i : Nat) (c : Comp), st[i]? = some c → c.name ≠ some n := by
  unfold free
  cases name with
  | none => simp
  | some n =>
    simp only [Option.isNone_some, Bool.false_or, Bool.not_eq_true']
    rw [← Bool.not_eq_true, hasName_iff]
    constructor
    · intro h m hm i c hc hn
      cases hm
      exact h ⟨i, c, hc, hn⟩
    · rintro h ⟨i, c, hc, hn⟩
      exact h n rfl i c hc hn

private theorem step_unique (st : St) (op : Op) (h : Unique st) : Unique (step st op).2 := by
  cases op with
  | create cls c rest =>
    simp only [step]
    split
    · rename_i hf
      rw [free_iff] at hf
      intro i j a b n ha hb han hbn
      rw [List.getElem?_append] at ha hb
      split at ha <;> split at hb
      · exact h i j a b n ha hb han hbn
      · rename_i h1 h2
        rw [List.getElem?_singleton] at hb
        split at hb
        · cases hb
          exact absurd han (hf n hbn i a ha)
        · cases hb
      · rename_i h1 h2
        rw [List.getElem?_singleton] at ha
        split at ha
        · cases ha
          exact absurd hbn (hf n han j b hb)
        · cases ha
      · rename_i h1 h2
        rw [List.getElem?_singleton] at ha hb
        split at ha <;> split at hb <;> first | omega | (cases ha; done) | cases hb
    · exact h
  | rename i name =>
    simp only [step]
    cases hi : st[i]? with
    | none => exact h
    | some c =>
      simp only
      split
      · rename_i hf
        rw [free_iff] at hf
        intro j k a b n ha hb han hbn
        rw [List.getElem?_set] at ha hb
        split at ha <;> split at hb
        · omega
        · split at ha
          · cases ha
            exact absurd hbn (hf n han k b hb)
          · cases ha
        · split at hb
          · cases hb
            exact absurd han (hf n hbn j a ha)
          · cases hb
        · exact h j k a b n ha hb han hbn
      · exact h
  | del p key => exact h
  | put p o => exact h

/-- After any history of creating (successfully or not) and renaming, no two components have the same name. -/
theorem C95_unique (ops : List Op) : Unique (after ops []) := by
  suffices h : ∀ st, Unique st → Unique (after ops st) from h [] (by intro i j c d n h; simp at h)
  induction ops with
  | nil => exact fun _ h => h
  | cons op ops ih => exact fun st h => ih _ (step_unique st op h)

/-- Looking up a name in any of the collections finds the one component of that kind with that name, and reports an error if there is none. -/
theorem C95_lookup (ops : List Op) (p : Comp → Bool) (n : String) (i : Nat) :
    ((view (after ops []) p).get (some n) = some i ↔ Finds (after ops []) p (some n) i) ∧
    ((view (after ops []) p).get (some n) = none ↔ ∀ j, ¬ Finds (after ops []) p (some n) j) := by
  have hu := C95_unique ops
  generalize after ops [] = st at hu ⊢
  have hsome : ∀ j, (view st p).get (some n) = some j → Finds st p (some n) j := by
    intro j hj
    unfold Named.get at hj
    rw [Option.map_eq_some_iff] at hj
    obtain ⟨o, ho, rfl⟩ := hj
    have hm := List.mem_of_find?_eq_some ho
    have hb := List.find?_some ho
    obtain ⟨c, h1, h2, h3⟩ := (mem_view _ _ _).1 hm
    exact ⟨c, h1, h2, h3.trans (by simpa using hb)⟩
  have hnone : (view st p).get (some n) = none → ∀ j, ¬ Finds st p (some n) j := by
    rintro h j ⟨c, h1, h2, h3⟩
    unfold Named.get at h
    rw [Option.map_eq_none_iff, List.find?_eq_none] at h
    exact h (j, some n) ((mem_view _ _ _).2 ⟨c, h1, h2, h3⟩) (by simp)
  refine ⟨⟨hsome i, fun hf => ?_⟩, ⟨hnone, fun hf => ?_⟩⟩
  · cases hg : (view st p).get (some n) with
    | none => exact absurd hf (hnone hg i)
    | some j =>
      obtain ⟨c, h1, -, h3⟩ := hsome j hg
      obtain ⟨d, h4, -, h6⟩ := hf
      rw [hu j i c d n h1 h4 h3 h6]
  · cases hg : (view st p).get (some n) with
    | none => rfl
    | some j => exact absurd (hsome j hg) (hf j)

private def par (n : String) : Comp := ⟨some n, .parameter, false, false, false⟩
private def recUnnamed : Comp := ⟨none, .recorder, false, false, true⟩

example : (parameters (after [.create "constantparameter" (par "a") true, .create "meanflownoderecorder" recUnnamed true, .rename 0 (some "b"), .create "x" (par "a") true] [])).get (some "a") = some 2 := by
  decide

/-- The collections: every component appears once, in the order of creation; a parameter and a recorder are in the collections of their kind, and the variables, constraints and objectives are selections of these. -/
theorem C95_collections (st : St) (i : Nat) (c : Comp) (hc : st[i]? = some c) :
    ((components st).map (·.1) = List.range st.length) ∧ ((components st).map (·.2) = st.map (·.name)) ∧
    ((i, c.name) ∈ parameters st ↔ c.kind = .parameter) ∧ ((i, c.name) ∈ recorders st ↔ c.kind = .recorder) ∧
    ((i, c.name) ∈ variableParameters st ↔ c.kind = .parameter ∧ c.isVariable = true) ∧ ((i, c.name) ∈ constraints st ↔ c.kind = .recorder ∧ c.isConstraint = true) ∧
    ((i, c.name) ∈ objectives st ↔ c.kind = .recorder ∧ c.isObjective = true) ∧ (∀ p, ((view st p).map (·.1)).Pairwise (· < ·)) := by
  have key : ∀ p, (i, c.name) ∈ view st p ↔ p c = true := by
    intro p
    rw [mem_view]
    exact ⟨fun ⟨d, h1, h2, _⟩ => (by rw [hc] at h1; cases h1; exact h2), fun h => ⟨c, hc, h, rfl⟩⟩
  refine ⟨?_, ?_, ?_, ?_, ?_, ?_, ?_, ?_⟩
  · unfold components view
    rw [List.filter_eq_self.2 fun _ _ => rfl, List.map_map]
    exact List.zipIdx_map_snd 0 st ▸ by simp [List.range_eq_range']
  · unfold components view
    rw [List.filter_eq_self.2 fun _ _ => rfl, List.map_map]
    conv_rhs => rw [← List.zipIdx_map_fst 0 st]
    rw [List.map_map]; rfl
  · exact (key _).trans (by simp)
  · exact (key _).trans (by simp)
  · exact (key _).trans (by simp)
  · exact (key _).trans (by simp)
  · exact (key _).trans (by simp)
  · intro p
    unfold view
    rw [List.map_map]
    have : ((st.zipIdx.filter fun c => p c.1).map Prod.snd).Sublist (st.zipIdx.map Prod.snd) := (List.filter_sublist).map _
    rw [List.zipIdx_map_snd] at this
    exact List.Pairwise.sublist this List.pairwise_lt_range'

/-! ## What goes wrong -/

/-- Deleting from a collection does not take the component out of the model: whatever is deleted from whichever collection, the components stay as they are (and the name stays taken). Putting something into one goes through, and changes nothing either. -/
theorem C95_delete_fails (st : St) (p : Comp → Bool) (key : Option String) (o : Nat × Option String) :
    (step st (.del p key)).2 = st ∧ step st (.put p o) = (true, st) ∧
    (∀ n, key = some n → (step st (.del p key)).1 = true → ∀ cls c rest, given cls c = some n → (step (step st (.del p key)).2 (.create cls c rest)).1 = false) := by
  refine ⟨rfl, rfl, ?_⟩
  rintro n rfl hd cls c rest hg
  have : ∃ (i : Nat) (d : Comp), st[i]? = some d ∧ d.name = some n := by
    simp only [step, Named.del] at hd
    split at hd
    · cases hd
    · rename_i i hi
      unfold Named.get at hi
      rw [Option.map_eq_some_iff] at hi
      obtain ⟨o, ho, -⟩ := hi
      obtain ⟨d, h1, -, h3⟩ := (mem_view _ _ _).1 (List.mem_of_find?_eq_some ho)
      have hb := List.find?_some ho
      exact ⟨_, d, h1, h3.trans (by simpa using hb)⟩
  obtain ⟨i, d, h1, h2⟩ := this
  have hf : free st (some n) = false := by
    rw [← Bool.not_eq_true, free_iff]
    exact fun h => h n rfl i d h1 h2
  show (step st _).1 = false
  simp only [step, hg, hf, Bool.false_eq_true, if_false]

/-- A constructor that fails leaves its component in the model, half made: the name is taken, and trying again is refused. -/
theorem C95_failed_constructor_fails (st : St) (cls : String) (c : Comp) (n : String) (hg : given cls c = some n) (hf : free st (some n) = true) :
    (step st (.create cls c false)).1 = false ∧ (step st (.create cls c false)).2.length = st.length + 1 ∧
    ∀ rest, (step (step st (.create cls c false)).2 (.create cls c rest)).1 = false := by
  have e : step st (.create cls c false) = (false, st ++ [{ c with name := some n }]) := by simp only [step, hg, hf, if_true]
  rw [e]
  refine ⟨rfl, by simp, fun rest => ?_⟩
  have hf' : free (st ++ [{ c with name := some n }]) (some n) = false := by
    rw [← Bool.not_eq_true, free_iff]
    exact fun h => h n rfl st.length { c with name := some n } (by simp) rfl
  simp only [step, hg, hf', Bool.false_eq_true, if_false]

example : free [] (given "monthlyprofileparameter" (par "a")) = true := by decide

/-- Giving a component the name it has is refused, as if another component had it. -/
theorem C95_same_name_fails (st : St) (i : Nat) (c : Comp) (n : String) (hc : st[i]? = some c) (hn : c.name = some n) : step st (.rename i (some n)) = (false, st) := by
  have hf : free st (some n) = false := by
    rw [← Bool.not_eq_true, free_iff]
    exact fun h => h n rfl i c hc hn
  simp only [step, hc, hf, Bool.false_eq_true, if_false]

/-- The second recorder of a class without a name is refused, since both would be named after the class; any number of parameters can have no name. -/
theorem C95_unnamed (st : St) (cls : String) (c d : Comp) (hc : c.name = none) (hd : d.name = none) :
    (c.kind = .recorder → d.kind = .recorder → free st (some cls) = true → (step st (.create cls c true)).1 = true ∧ (step (step st (.create cls c true)).2 (.create cls d true)).1 = false) ∧
    (c.kind ≠ .recorder → (step st (.create cls c true)) = (true, st ++ [c])) := by
  constructor
  · intro hk hk' hf
    have g1 : given cls c = some cls := by simp [given, hk, hc]
    have g2 : given cls d = some cls := by simp [given, hk', hd]
    have e : step st (.create cls c true) = (true, st ++ [{ c with name := some cls }]) := by simp only [step, g1, hf, if_true]
    rw [e]
    refine ⟨rfl, ?_⟩
    have hf' : free (st ++ [{ c with name := some cls }]) (some cls) = false := by
      rw [← Bool.not_eq_true, free_iff]
      exact fun h => h cls rfl st.length { c with name := some cls } (by simp) rfl
    simp only [step, g2, hf', Bool.false_eq_true, if_false]
  · intro hk
    have g1 : given cls c = none := by simp [given, hk, hc]
    have : ({ c with name := none } : Comp) = c := by cases c; simp_all
    simp only [step, g1, free, Option.isNone_none, Bool.true_or, if_true, this]

example : (step [] (.create "meanflownoderecorder" recUnnamed true)).1 = true := ((C95_unnamed [] "meanflownoderecorder" recUnnamed recUnnamed rfl rfl).1 rfl rfl (by decide)).1

/-! ## The iterator by itself -/

private theorem eraseP_congr {α : Type} {p q : α → Bool} : ∀ l : List α, (∀ x ∈ l, p x = q x) → l.eraseP p = l.eraseP q
  | [], _ => rfl
  | a :: l, h => by
    rw [List.eraseP_cons, List.eraseP_cons, h a (by simp), eraseP_congr l fun x hx => h x (by simp [hx])]

/-- As long as names and objects are distinct the iterator behaves as a dictionary in the order of insertion: what is appended is found under its name and nothing else changes; deleting takes out
exactly that object, keeping the order; deleting an unknown name is an error. -/
theorem C95_iterator (it : Named) (h : Distinct it) (i : Nat) (n : Option String) :
    (it.get n = some i ↔ (i, n) ∈ it) ∧ (it.hasName n = true ↔ (it.get n).isSome = true) ∧ (it.hasObject i = true ↔ ∃ m, it.get m = some i) ∧
    ((i, n) ∈ it → it.del n = some (it.filter fun o => decide (o ≠ (i, n)))) ∧ ((∀ j, (j, n) ∉ it) → it.del n = none) ∧
    (∀ o : Nat × Option String, o.1 ∉ it.map (·.1) → o.2 ∉ it.map (·.2) → Distinct (it.append o) ∧ ∀ m, (it.append o).get m = if m = o.2 then some o.1 else it.get m) := by
  have name_inj : ∀ o ∈ it, ∀ o' ∈ it, o.2 = o'.2 → o = o' := fun o ho o' ho' e => List.inj_on_of_nodup_map h.1 ho ho' e
  have obj_inj : ∀ o ∈ it, ∀ o' ∈ it, o.1 = o'.1 → o = o' := fun o ho o' ho' e => List.inj_on_of_nodup_map h.2 ho ho' e
  have hget : ∀ j m, it.get m = some j ↔ (j, m) ∈ it := by
    intro j m
    unfold Named.get
    rw [Option.map_eq_some_iff]
    constructor
    · rintro ⟨o, ho, rfl⟩
      have hb := List.find?_some ho
      have hm := List.mem_of_find?_eq_some ho
      rw [beq_iff_eq] at hb
      rw [← hb]; exact hm
    · intro hm
      cases hf : it.find? fun o => o.2 == m with
      | none => rw [List.find?_eq_none] at hf; exact absurd (hf _ hm) (by simp)
      | some o =>
        have hb := List.find?_some hf
        have hm' := List.mem_of_find?_eq_some hf
        rw [beq_iff_eq] at hb
        exact ⟨o, rfl, by rw [name_inj o hm' _ hm hb]⟩
  have hnone : ∀ m, it.get m = none ↔ ∀ j, (j, m) ∉ it := by
    intro m
    constructor
    · intro hn j hj
      rw [(hget j m).2 hj] at hn
      cases hn
    · intro hn
      cases hg : it.get m with
      | none => rfl
      | some j => exact absurd ((hget j m).1 hg) (hn j)
  refine ⟨hget i n, ?_, ?_, ?_, ?_, ?_⟩
  · unfold Named.hasName
    rw [List.any_eq_true, Option.isSome_iff_exists]
    constructor
    · rintro ⟨o, ho, hb⟩
      rw [beq_iff_eq] at hb
      exact ⟨o.1, (hget _ _).2 (by rw [← hb]; exact ho)⟩
    · rintro ⟨j, hj⟩
      exact ⟨(j, n), (hget _ _).1 hj, by simp⟩
  · unfold Named.hasObject
    rw [List.any_eq_true]
    constructor
    · rintro ⟨o, ho, hb⟩
      rw [beq_iff_eq] at hb
      exact ⟨o.2, (hget _ _).2 (by rw [← hb]; exact ho)⟩
    · rintro ⟨m, hm⟩
      exact ⟨(i, m), (hget _ _).1 hm, by simp⟩
  · intro hm
    unfold Named.del
    rw [(hget i n).2 hm]
    simp only [Option.some.injEq]
    have hnd : it.Nodup := List.Nodup.of_map _ h.1
    have e1 : it.eraseP (fun o => o.1 == i) = it.erase (i, n) := by
      rw [List.erase_eq_eraseP]
      refine eraseP_congr it fun o ho => ?_
      rw [Bool.eq_iff_iff, beq_iff_eq, beq_iff_eq]
      exact ⟨fun e => (obj_inj o ho _ hm e).symm, fun e => by rw [← e]⟩
    rw [e1, hnd.erase_eq_filter]
    apply List.filter_congr
    intro o _
    by_cases e : o = (i, n) <;> simp [e]
  · intro hno
    unfold Named.del
    rw [(hnone n).2 hno]
  · intro o h1 h2
    refine ⟨⟨?_, ?_⟩, fun m => ?_⟩
    · unfold Named.append
      rw [List.map_append, List.nodup_append]
      exact ⟨h.1, by simp, fun a ha b hb => by simp only [List.map_cons, List.map_nil, List.mem_cons, List.not_mem_nil, or_false] at hb; subst hb; exact fun e => h2 (e ▸ ha)⟩
    · unfold Named.append
      rw [List.map_append, List.nodup_append]
      exact ⟨h.2, by simp, fun a ha b hb => by simp only [List.map_cons, List.map_nil, List.mem_cons, List.not_mem_nil, or_false] at hb; subst hb; exact fun e => h1 (e ▸ ha)⟩
    · unfold Named.append
      by_cases e : m = o.2
      · subst e
        rw [if_pos rfl]
        have : it.find? (fun p => p.2 == o.2) = none := by
          rw [List.find?_eq_none]
          intro p hp hb
          rw [beq_iff_eq] at hb
          exact h2 (hb ▸ List.mem_map_of_mem hp)
        unfold Named.get
        rw [List.find?_append, this]
        simp
      · rw [if_neg e]
        unfold Named.get
        rw [List.find?_append]
        have : [o].find? (fun p => p.2 == m) = none := by
          rw [List.find?_eq_none]
          intro p hp
          simp only [List.mem_cons, List.not_mem_nil, or_false] at hp
          subst hp
          simpa using fun he => e he.symm
        rw [this]
        simp

example : Distinct [(0, some "a"), (1, some "b"), (2, none)] := ⟨by decide, by decide⟩

/-- Assigning an item adds the object under its own name, whatever the key, as appending does; so the key is looked up if it is the name. -/
theorem C95_setitem_partial (it : Named) (h : Distinct it) (key : Option String) (o : Nat × Option String) (h1 : o.1 ∉ it.map (·.1)) (h2 : o.2 ∉ it.map (·.2)) :
    Distinct (it.set key o) ∧ (∀ m, (it.set key o).get m = if m = o.2 then some o.1 else it.get m) ∧ (it.set key o).map (·.1) = it.map (·.1) ++ [o.1] := by
  obtain ⟨-, -, -, -, -, h3⟩ := C95_iterator it h o.1 o.2
  obtain ⟨h4, h5⟩ := h3 o h1 h2
  exact ⟨h4, h5, by simp [Named.set]⟩

example : (Named.set [(0, some "a"), (1, some "b")] (some "c") (2, some "c")).get (some "c") = some 2 := by decide

/-- The key of an item assignment is not looked at: afterwards the key is not found. -/
theorem C95_setitem_fails : ∃ (it : Named) (key : Option String) (o : Nat × Option String), Distinct (it.set key o) ∧ (it.set key o).get key = none :=
  ⟨[], some "a", (0, some "b"), ⟨by decide, by decide⟩, by decide⟩

end Verif.Collections

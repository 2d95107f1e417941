import Mathlib.Data.List.Nodup
import Mathlib.Data.List.Forall2
import Mathlib.Tactic.Tauto
import Mathlib.Tactic.Linarith
import Verif.Spec.ParameterLoading
/-!
# Lemmas: parameters in a document
-/

namespace Verif.ParameterLoading

theorem mapM_forall₂ {α β : Type} {f : α → Option β} {l : List α} {out : List β} : l.mapM f = some out ↔ List.Forall₂ (fun a b => f a = some b) l out := by
  induction l generalizing out with
  | nil =>
    rw [List.mapM_nil]
    constructor
    · intro h; cases h; exact .nil
    · intro h; cases h; rfl
  | cons x xs ih =>
    rw [List.mapM_cons]
    constructor
    · intro h
      cases hx : f x with
      | none => rw [hx] at h; cases h
      | some y =>
        rw [hx] at h
        cases hr : xs.mapM f with
        | none => rw [hr] at h; cases h
        | some ys =>
          rw [hr] at h
          cases h
          exact .cons hx (ih.1 hr)
    · intro h
      cases h with
      | cons hx hr =>
        rw [hx]
        show (xs.mapM f).bind _ = _
        rw [ih.2 hr]
        rfl

theorem mapM_some_of {α β : Type} {f : α → Option β} {l : List α} (h : ∀ x ∈ l, ∃ y, f x = some y) : ∃ out, l.mapM f = some out := by
  induction l with
  | nil => exact ⟨[], rfl⟩
  | cons x xs ih =>
    obtain ⟨y, hy⟩ := h x List.mem_cons_self
    obtain ⟨ys, hys⟩ := ih fun z hz => h z (List.mem_cons_of_mem _ hz)
    exact ⟨y :: ys, mapM_forall₂.2 (.cons hy (mapM_forall₂.1 hys))⟩

theorem forall₂_mem_right {α β : Type} {R : α → β → Prop} {l : List α} {out : List β} (h : List.Forall₂ R l out) {y : β} (hy : y ∈ out) : ∃ x ∈ l, R x y := by
  induction h with
  | nil => cases hy
  | cons hr _ ih =>
    rcases List.mem_cons.1 hy with rfl | hy
    · exact ⟨_, List.mem_cons_self, hr⟩
    · obtain ⟨x, hx, hr⟩ := ih hy
      exact ⟨x, List.mem_cons_of_mem _ hx, hr⟩

theorem forall₂_mem_left {α β : Type} {R : α → β → Prop} {l : List α} {out : List β} (h : List.Forall₂ R l out) {x : α} (hx : x ∈ l) : ∃ y ∈ out, R x y := by
  induction h with
  | nil => cases hx
  | cons hr _ ih =>
    rcases List.mem_cons.1 hx with rfl | hx
    · exact ⟨_, List.mem_cons_self, hr⟩
    · obtain ⟨y, hy, hr⟩ := ih hx
      exact ⟨y, List.mem_cons_of_mem _ hy, hr⟩

theorem lookup_mem {β : Type} {l : List (String × β)} {k : String} {v : β} (h : l.lookup k = some v) : (k, v) ∈ l := by
  induction l with
  | nil => cases h
  | cons e l ih =>
    obtain ⟨k', v'⟩ := e
    rw [List.lookup_cons] at h
    by_cases hk : k = k'
    · subst hk; simp at h; subst h; exact List.mem_cons_self
    · have hb : (k == k') = false := by simpa using hk
      rw [hb] at h
      exact List.mem_cons_of_mem _ (ih h)

theorem lookup_of_mem {β : Type} {l : List (String × β)} {k : String} {v : β} (hn : (l.map Prod.fst).Nodup) (h : (k, v) ∈ l) : l.lookup k = some v := by
  induction l with
  | nil => cases h
  | cons e l ih =>
    obtain ⟨k', v'⟩ := e
    rw [List.map_cons, List.nodup_cons] at hn
    rw [List.lookup_cons]
    rcases List.mem_cons.1 h with h1 | h1
    · obtain ⟨rfl, rfl⟩ := Prod.mk.inj h1
      rw [beq_self_eq_true]
    · have hk : k ≠ k' := by
        rintro rfl
        exact hn.1 (List.mem_map.2 ⟨_, h1, rfl⟩)
      have hb : (k == k') = false := by simpa using hk
      rw [hb]
      exact ih hn.2 h1

theorem lookup_none {β : Type} {l : List (String × β)} {k : String} (h : ∀ v, (k, v) ∉ l) : l.lookup k = none := by
  cases hl : l.lookup k with
  | none => rfl
  | some v => exact absurd (lookup_mem hl) (h v)

theorem has_iff {doc : Kw} {k : String} : has doc k = true ↔ ∃ v, (k, v) ∈ doc := by
  unfold has
  rw [List.any_eq_true]
  constructor
  · rintro ⟨⟨k', v⟩, he, hk⟩
    have : k' = k := by simpa using hk
    subst this
    exact ⟨v, he⟩
  · rintro ⟨v, he⟩
    exact ⟨_, he, by simp⟩

theorem callable_iff {c : Class} {kw : Kw} : c.callable kw = true ↔
    (kw.map Prod.fst).Nodup ∧ (∀ e ∈ kw, ∃ a ∈ c.args, a.1 = e.1) ∧ (∀ a ∈ c.args, a.2 = none → ∃ v, (a.1, v) ∈ kw) := by
  unfold Class.callable
  rw [Bool.and_eq_true, Bool.and_eq_true, decide_eq_true_iff, List.all_eq_true, List.all_eq_true]
  constructor
  · rintro ⟨⟨h1, h2⟩, h3⟩
    refine ⟨h1, fun e he => ?_, fun a ha h0 => ?_⟩
    · obtain ⟨a, ha, hk⟩ := List.any_eq_true.1 (h2 e he)
      exact ⟨a, ha, by simpa using hk⟩
    · have := h3 a ha
      rw [h0, Option.isSome_none, Bool.false_or] at this
      obtain ⟨⟨k, v⟩, he, hk⟩ := List.any_eq_true.1 this
      have : k = a.1 := by simpa using hk
      exact ⟨v, this ▸ he⟩
  · rintro ⟨h1, h2, h3⟩
    refine ⟨⟨h1, fun e he => ?_⟩, fun a ha => ?_⟩
    · obtain ⟨a, ha, hk⟩ := h2 e he
      exact List.any_eq_true.2 ⟨a, ha, by simpa using hk⟩
    · cases h0 : a.2 with
      | some d => simp
      | none =>
        obtain ⟨v, hv⟩ := h3 a ha h0
        have : (kw.any fun e => e.1 == a.1) = true := List.any_eq_true.2 ⟨_, hv, by simp⟩
        rw [this]
        simp

theorem loadParam_eq (w : World) (v : Value) : loadParam w v = aParameter w v := by
  cases v <;> rfl

theorem loadNode_eq (w : World) (v : Value) : loadNode w v = aNode w v := by
  cases v <;> rfl

theorem loadRecorder_eq (w : World) (v : Value) : loadRecorder w v = aRecorder w v := by
  cases v <;> rfl

theorem loadEither_eq (w : World) (v : Value) : loadEither w v = aParameterOrRecorder w v := by
  cases v with
  | text s =>
    unfold loadEither loadParam aParameterOrRecorder
    by_cases h : s ∈ w.params
    · simp only [if_pos h]
    · simp only [if_neg h]
      rfl
  | _ => rfl

theorem loadInteger_eq (v : Value) : loadInteger v = aWhole v := by
  cases v with
  | num q =>
    have key : ((q.num.tdiv q.den : Int) : Rat) = if 0 ≤ q then ((⌊q⌋ : Int) : Rat) else ((⌈q⌉ : Int) : Rat) := by
      split
      · rename_i h
        rw [Int.tdiv_eq_ediv_of_nonneg (Rat.num_nonneg.2 h), Rat.floor_def']
      · rename_i h
        have h' : 0 ≤ (-q).num := by rw [Rat.num_nonneg]; linarith
        have e : ⌈q⌉ = -⌊-q⌋ := by rw [Int.floor_neg, neg_neg]
        rw [e, Rat.floor_def', ← Int.tdiv_eq_ediv_of_nonneg h', Rat.den_neg_eq_den, Rat.num_neg_eq_neg_num, Int.neg_tdiv, neg_neg]
    show some (Value.num _) = some (Value.num _)
    rw [key]
  | flag b => cases b <;> rfl
  | _ => rfl

theorem convert_eq (w : World) (kind : Kind) (v : Arg) : convert w kind v = stands w kind v := by
  have hf : loadParam w = aParameter w := funext (loadParam_eq w)
  cases kind with
  | node =>
    cases v with
    | one v => cases v <;> simp [convert, stands, loadNode]
    | many vs => rfl
    | rows rs => rfl
  | param => cases v <;> simp [convert, stands, hf]
  | params => cases v <;> simp [convert, stands, hf]
  | single => cases v <;> simp [convert, stands, hf]
  | wrapped =>
    have hw : wrapConst = asConstant := by
      funext v
      cases v with
      | flag b => cases b <;> rfl
      | _ => rfl
    cases v <;> simp [convert, stands, hf, hw]
  | nodes =>
    have hg : loadNode w = aNode w := funext (loadNode_eq w)
    cases v <;> simp [convert, stands, hg]
  | recorder =>
    have hg : loadRecorder w = aRecorder w := funext (loadRecorder_eq w)
    cases v <;> simp [convert, stands, hg]
  | recorders =>
    have hg : loadRecorder w = aRecorder w := funext (loadRecorder_eq w)
    cases v <;> simp [convert, stands, hg]
  | either =>
    cases v <;> simp [convert, stands, loadEither_eq]
  | integer =>
    cases v <;> simp [convert, stands, loadInteger_eq]
  | scenario =>
    cases v with
    | one v => cases v <;> simp [convert, stands]
    | many vs => rfl
    | rows rs => rfl
  | plain => cases v <;> rfl

/-- The names a step looks for. -/
def Step.names (s : Step) : List String := s.alts.map Prod.fst

/-- What `load` does agrees with a table. -/
structure Agrees (c : Class) (t : Table) : Prop where
  keys : (c.steps.map Step.key).Nodup
  alts : ∀ s ∈ c.steps, ∀ a ∈ s.alts, t.entry a.1 = some (s.key, a.2)
  table : ∀ e ∈ t, ∃ s ∈ c.steps, e.1 ∈ s.names
  targets : ∀ e ∈ t, e.2.1 ∈ c.steps.map Step.key
  own : ∀ s ∈ c.steps, s.key ∈ s.names ∨ t.entry s.key = none
  known : ∀ s ∈ c.steps, ∃ a ∈ c.args, a.1 = s.key
  unknown : ∀ s ∈ c.steps, ∀ n ∈ s.names, n ≠ s.key → ∀ a ∈ c.args, a.1 ≠ n
  argsNodup : (c.args.map Prod.fst).Nodup

variable {w : World} {c : Class} {t : Table} {doc : Kw}

theorem entry_plain {t : Table} {k : String} (h1 : ∀ e ∈ t, e.1 ≠ k) (h2 : ∀ e ∈ t, e.2.1 ≠ k) : t.entry k = some (k, .plain) := by
  unfold Table.entry
  have h : t.find? (fun e => e.1 == k) = none := by
    rw [List.find?_eq_none]
    intro e he
    simpa using h1 e he
  rw [h]
  have h' : (t.any fun e => e.2.1 == k) = false := by
    rw [List.any_eq_false]
    intro e he
    simpa using h2 e he
  simp [h']

/-- A key that no step looks for and no step passes stands for itself. -/
theorem Agrees.other (h : Agrees c t) {k : String} (h1 : ∀ s ∈ c.steps, k ∉ s.names) (h2 : ∀ s ∈ c.steps, s.key ≠ k) : t.entry k = some (k, .plain) := by
  refine entry_plain ?_ ?_
  · rintro e he rfl
    obtain ⟨s, hs, hn⟩ := h.table e he
    exact h1 s hs hn
  · rintro e he rfl
    obtain ⟨s, hs, hk⟩ := List.mem_map.1 (h.targets e he)
    exact h2 s hs hk

theorem step_unique {c : Class} (h : (c.steps.map Step.key).Nodup) {s s' : Step} (hs : s ∈ c.steps) (hs' : s' ∈ c.steps) (hk : s.key = s'.key) : s = s' :=
  List.inj_on_of_nodup_map h hs hs' hk

/-- The step that looks for a name is unique. -/
theorem Agrees.unique (h : Agrees c t) {s s' : Step} (hs : s ∈ c.steps) (hs' : s' ∈ c.steps) {n : String} (hn : n ∈ s.names) (hn' : n ∈ s'.names) : s = s' := by
  obtain ⟨a, ha, rfl⟩ := List.mem_map.1 hn
  obtain ⟨a', ha', he⟩ := List.mem_map.1 hn'
  have e1 := h.alts s hs a ha
  have e2 := h.alts s' hs' a' ha'
  rw [he] at e2
  rw [e1] at e2
  simp at e2
  exact step_unique h.keys hs hs' e2.1

theorem found_mem {s : Step} {doc : Kw} {a : String × Kind} (h : s.found doc = some a) : a ∈ s.alts ∧ has doc a.1 = true := by
  unfold Step.found at h
  split at h
  · cases h
  · exact ⟨List.mem_of_find?_eq_some h, List.find?_some (p := fun a : String × Kind => has doc a.1) h⟩

/-- Every name that is there is the one that is taken, and nothing is there under a name that only the constructor knows. -/
structure Clean (c : Class) (t : Table) (doc : Kw) : Prop where
  taken : ∀ s ∈ c.steps, ∀ n ∈ s.names, has doc n = true → ∃ kind, s.found doc = some (n, kind)
  foreign : ∀ e ∈ doc, t.entry e.1 ≠ none

/-- What is left after the steps. -/
def left (c : Class) (doc : Kw) : Kw := doc.filter fun e => !(c.steps.any fun s => (s.found doc).any fun a => a.1 == e.1)

theorem left_mem {c : Class} {doc : Kw} {e : String × Arg} : e ∈ left c doc ↔ e ∈ doc ∧ ∀ s ∈ c.steps, ∀ a, s.found doc = some a → a.1 ≠ e.1 := by
  unfold left
  rw [List.mem_filter]
  refine and_congr Iff.rfl ?_
  rw [Bool.not_eq_true', List.any_eq_false]
  refine forall_congr' fun s => forall_congr' fun _ => ?_
  cases h : s.found doc with
  | none => simp
  | some a => simp

theorem Clean.left_iff (hc : Clean c t doc) (e : String × Arg) : e ∈ left c doc ↔ e ∈ doc ∧ ∀ s ∈ c.steps, e.1 ∉ s.names := by
  rw [left_mem]
  refine and_congr_right fun he => ?_
  constructor
  · intro h s hs hn
    obtain ⟨kind, hk⟩ := hc.taken s hs _ hn (has_iff.2 ⟨e.2, he⟩)
    exact h s hs _ hk rfl
  · intro h s hs a ha heq
    exact h s hs (heq ▸ List.mem_map.2 ⟨a, (found_mem ha).1, rfl⟩)

theorem Clean.classify (h : Agrees c t) (hc : Clean c t doc) {e : String × Arg} (he : e ∈ doc) :
    (∃ s ∈ c.steps, ∃ a ∈ s.alts, a.1 = e.1 ∧ s.found doc = some a ∧ t.entry e.1 = some (s.key, a.2)) ∨
      ((∀ s ∈ c.steps, e.1 ∉ s.names) ∧ (∀ s ∈ c.steps, s.key ≠ e.1) ∧ t.entry e.1 = some (e.1, .plain)) := by
  by_cases hn : ∃ s ∈ c.steps, e.1 ∈ s.names
  · obtain ⟨s, hs, hn⟩ := hn
    obtain ⟨kind, hk⟩ := hc.taken s hs _ hn (has_iff.2 ⟨e.2, he⟩)
    have ha := (found_mem hk).1
    exact Or.inl ⟨s, hs, _, ha, rfl, hk, h.alts s hs _ ha⟩
  · have hn : ∀ s ∈ c.steps, e.1 ∉ s.names := fun s hs hm => hn ⟨s, hs, hm⟩
    have hk : ∀ s ∈ c.steps, s.key ≠ e.1 := by
      intro s hs heq
      rcases h.own s hs with ho | ho
      · exact hn s hs (heq ▸ ho)
      · exact hc.foreign e he (heq ▸ ho)
    exact Or.inr ⟨hn, hk, h.other hn hk⟩

theorem map_of_forall₂ {α β γ : Type} {R : α → β → Prop} {l : List α} {out : List β} {f : α → γ} {g : β → γ} (h : List.Forall₂ R l out) (hfg : ∀ a ∈ l, ∀ b, R a b → g b = f a) :
    out.map g = l.map f := by
  induction h with
  | nil => rfl
  | cons hr _ ih =>
    rw [List.map_cons, List.map_cons, hfg _ List.mem_cons_self _ hr, ih fun a ha => hfg a (List.mem_cons_of_mem _ ha)]

theorem clean_construct (h : Agrees c t) (hn : (doc.map Prod.fst).Nodup) (hc : Clean c t doc)
    (hd : ∀ s ∈ c.steps, s.found doc = none → ∀ v, s.take w doc = some v → c.args.lookup s.key = some (some v))
    {passed kw : Kw} (hp : (c.steps.mapM fun s : Step => (s.take w doc).map fun v => (s.key, v)) = some passed) (hr : resolve w t doc = some kw) :
    construct c (passed ++ left c doc) = construct c kw := by
  have hp2 := mapM_forall₂.1 hp
  have hr2 := mapM_forall₂.1 hr
  have hkeys : passed.map Prod.fst = c.steps.map Step.key := by
    refine map_of_forall₂ hp2 fun s _ e he => ?_
    obtain ⟨v, _, rfl⟩ := Option.map_eq_some_iff.1 he
    rfl
  have P : ∀ k v, (k, v) ∈ passed ↔ ∃ s ∈ c.steps, s.key = k ∧ s.take w doc = some v := by
    intro k v
    constructor
    · intro hm
      obtain ⟨s, hs, he⟩ := forall₂_mem_right hp2 hm
      obtain ⟨v', hv, he⟩ := Option.map_eq_some_iff.1 he
      obtain ⟨rfl, rfl⟩ := Prod.mk.inj he
      exact ⟨s, hs, rfl, hv⟩
    · rintro ⟨s, hs, rfl, hv⟩
      obtain ⟨e, hm, he⟩ := forall₂_mem_left hp2 hs
      rw [hv] at he
      cases he
      exact hm
  have Q : ∀ k v, (k, v) ∈ kw ↔ ∃ e ∈ doc, ∃ m, t.entry e.1 = some m ∧ stands w m.2 e.2 = some v ∧ m.1 = k := by
    intro k v
    constructor
    · intro hm
      obtain ⟨e, he, h'⟩ := forall₂_mem_right hr2 hm
      obtain ⟨m, hm', h'⟩ := Option.bind_eq_some_iff.1 h'
      obtain ⟨v', hv, h'⟩ := Option.map_eq_some_iff.1 h'
      obtain ⟨rfl, rfl⟩ := Prod.mk.inj h'
      exact ⟨e, he, m, hm', hv, rfl⟩
    · rintro ⟨e, he, m, hm, hv, rfl⟩
      obtain ⟨e', hm', h'⟩ := forall₂_mem_left hr2 he
      rw [hm, Option.bind_some, hv] at h'
      cases h'
      exact hm'
  have hleft : ((left c doc).map Prod.fst).Nodup := (List.filter_sublist.map _).nodup hn
  have ndKw1 : ((passed ++ left c doc).map Prod.fst).Nodup := by
    rw [List.map_append, List.nodup_append']
    refine ⟨hkeys ▸ h.keys, hleft, ?_⟩
    rw [hkeys]
    intro k hk hk'
    obtain ⟨s, hs, rfl⟩ := List.mem_map.1 hk
    obtain ⟨e, he, heq⟩ := List.mem_map.1 hk'
    obtain ⟨hed, hno⟩ := (hc.left_iff e).1 he
    rcases hc.classify h hed with ⟨s', hs', a, ha, h1, -, -⟩ | ⟨-, h2, -⟩
    · exact hno s' hs' (h1 ▸ List.mem_map.2 ⟨a, ha, rfl⟩)
    · exact h2 s hs heq.symm
  have ndKw2 : (kw.map Prod.fst).Nodup := by
    have e : kw.map Prod.fst = doc.map fun e => ((t.entry e.1).map Prod.fst).getD "" := by
      refine map_of_forall₂ hr2 fun e _ b hb => ?_
      obtain ⟨m, hm, h'⟩ := Option.bind_eq_some_iff.1 hb
      obtain ⟨v', hv, rfl⟩ := Option.map_eq_some_iff.1 h'
      rw [hm]
      rfl
    rw [e]
    refine List.Nodup.map_on ?_ (List.Nodup.of_map _ hn)
    intro e1 h1 e2 h2 heq
    refine List.inj_on_of_nodup_map hn h1 h2 ?_
    rcases hc.classify h h1 with ⟨s1, hs1, a1, _, k1, f1, t1⟩ | ⟨_, n1, t1⟩ <;> rcases hc.classify h h2 with ⟨s2, hs2, a2, _, k2, f2, t2⟩ | ⟨_, n2, t2⟩ <;>
      rw [t1, t2] at heq <;> simp only [Option.map_some, Option.getD_some] at heq
    · have := step_unique h.keys hs1 hs2 heq
      subst this
      rw [f1] at f2
      cases f2
      exact k1.symm.trans k2
    · exact absurd heq (n2 s1 hs1)
    · exact absurd heq.symm (n1 s2 hs2)
    · exact heq
  -- a step that found something
  have F : ∀ s ∈ c.steps, ∀ a v, s.found doc = some a → s.take w doc = some v → (s.key, v) ∈ kw := by
    intro s hs a v hf hv
    unfold Step.take at hv
    simp only [hf] at hv
    obtain ⟨u, hu, hv⟩ := Option.bind_eq_some_iff.1 hv
    rw [convert_eq] at hv
    exact (Q _ _).2 ⟨(a.1, u), lookup_mem hu, (s.key, a.2), h.alts s hs a (found_mem hf).1, hv, rfl⟩
  have G : ∀ s ∈ c.steps, s.found doc = none → ∀ v, (s.key, v) ∉ kw := by
    intro s hs hf v hm
    obtain ⟨e, he, m, hm, _, hk⟩ := (Q _ _).1 hm
    rcases hc.classify h he with ⟨s', hs', a, _, _, f, te⟩ | ⟨_, n, te⟩
    · rw [te] at hm
      cases hm
      have := step_unique h.keys hs' hs hk
      subst this
      rw [hf] at f
      cases f
    · rw [te] at hm
      cases hm
      exact n s hs hk.symm
  have L : ∀ k v, (∀ s ∈ c.steps, s.key ≠ k) → ((k, v) ∈ left c doc ↔ (k, v) ∈ kw) := by
    intro k v hk
    rw [hc.left_iff, Q]
    constructor
    · rintro ⟨he, hno⟩
      rcases hc.classify h he with ⟨s', hs', a, ha, h1, -, -⟩ | ⟨-, -, te⟩
      · exact absurd (h1 ▸ List.mem_map.2 ⟨a, ha, rfl⟩) (hno s' hs')
      · exact ⟨_, he, _, te, rfl, rfl⟩
    · rintro ⟨e, he, m, hm, hv, hkk⟩
      rcases hc.classify h he with ⟨s', hs', a, _, _, f, te⟩ | ⟨n, _, te⟩
      · rw [te] at hm
        cases hm
        exact absurd hkk (hk s' hs')
      · rw [te] at hm
        cases hm
        have hv : some e.2 = some v := hv
        cases hv
        cases hkk
        exact ⟨he, n⟩
  have LS : ∀ e ∈ left c doc, e ∈ kw := by
    intro e he
    refine (L e.1 e.2 ?_).1 he
    obtain ⟨hed, hno⟩ := (hc.left_iff e).1 he
    rcases hc.classify h hed with ⟨s', hs', a, ha, h1, -, -⟩ | ⟨-, h2, -⟩
    · exact absurd (h1 ▸ List.mem_map.2 ⟨a, ha, rfl⟩) (hno s' hs')
    · exact h2
  have hcall : c.callable (passed ++ left c doc) = c.callable kw := by
    rw [Bool.eq_iff_iff, callable_iff, callable_iff]
    refine and_congr (iff_of_true ndKw1 ndKw2) (and_congr ?_ ?_)
    · constructor
      · intro hk e he
        by_cases hs : ∃ s ∈ c.steps, s.key = e.1
        · obtain ⟨s, hs, hse⟩ := hs
          exact hse ▸ h.known s hs
        · exact hk e (List.mem_append_right _ ((L e.1 e.2 fun s hs' heq => hs ⟨s, hs', heq⟩).2 he))
      · intro hk e he
        rcases List.mem_append.1 he with he | he
        · obtain ⟨s, hs, hse, _⟩ := (P e.1 e.2).1 he
          exact hse ▸ h.known s hs
        · exact hk e (LS e he)
    · refine forall_congr' fun a => forall_congr' fun ha => forall_congr' fun h0 => ?_
      constructor
      · rintro ⟨v, hv⟩
        rcases List.mem_append.1 hv with hv | hv
        · obtain ⟨s, hs, hse, ht⟩ := (P _ _).1 hv
          cases hf : s.found doc with
          | some b => exact ⟨v, hse ▸ F s hs b v hf ht⟩
          | none =>
            have h1 := hd s hs hf v ht
            obtain ⟨k, d⟩ := a
            cases h0
            have h2 := lookup_of_mem h.argsNodup ha
            have hse : s.key = k := hse
            rw [← hse, h1] at h2
            cases h2
        · exact ⟨v, LS _ hv⟩
      · rintro ⟨v, hv⟩
        by_cases hs : ∃ s ∈ c.steps, s.key = a.1
        · obtain ⟨s, hs, hse⟩ := hs
          obtain ⟨e, he, hsome⟩ := forall₂_mem_left hp2 hs
          obtain ⟨u, _, rfl⟩ := Option.map_eq_some_iff.1 hsome
          exact ⟨u, List.mem_append_left _ (hse ▸ he)⟩
        · exact ⟨v, List.mem_append_right _ ((L _ v fun s hs' heq => hs ⟨s, hs', heq⟩).2 hv)⟩
  have harg : c.arg (passed ++ left c doc) = c.arg kw := by
    funext k
    unfold Class.arg
    by_cases hs : ∃ s ∈ c.steps, s.key = k
    · obtain ⟨s, hs, rfl⟩ := hs
      obtain ⟨e, he, hsome⟩ := forall₂_mem_left hp2 hs
      obtain ⟨u, hu, rfl⟩ := Option.map_eq_some_iff.1 hsome
      rw [lookup_of_mem ndKw1 (List.mem_append_left _ he)]
      cases hf : s.found doc with
      | some b => rw [lookup_of_mem ndKw2 (F s hs b u hf hu)]
      | none => rw [lookup_none (G s hs hf), hd s hs hf u hu]
    · have hk : ∀ s ∈ c.steps, s.key ≠ k := fun s hs' heq => hs ⟨s, hs', heq⟩
      have : (passed ++ left c doc).lookup k = kw.lookup k := by
        cases hl : kw.lookup k with
        | some v => exact lookup_of_mem ndKw1 (List.mem_append_right _ ((L k v hk).2 (lookup_mem hl)))
        | none =>
          refine lookup_none fun v hm => ?_
          rcases List.mem_append.1 hm with hm | hm
          · obtain ⟨s, hs', hse, _⟩ := (P _ _).1 hm
            exact hk s hs' hse
          · have := lookup_of_mem ndKw2 ((L k v hk).1 hm)
            rw [hl] at this
            cases this
      rw [this]
  unfold construct
  rw [hcall, harg]

/-- A document is loaded as its table says. -/
theorem agrees_document (h : Agrees c t) (hn : (doc.map Prod.fst).Nodup)
    (hd : ∀ s ∈ c.steps, s.found doc = none → ∀ v, s.take w doc = some v → c.args.lookup s.key = some (some v))
    (hb : ∀ s ∈ c.steps, s.blockers.any (has doc) = true → ∀ n ∈ s.names, has doc n = false)
    (hm : ∀ s ∈ c.steps, s.take w doc = none → s.found doc = none → ∀ kw, resolve w t doc = some kw → construct c kw = none) :
    fromDocument w c doc = (resolve w t doc).bind (construct c) := by
  have hfind : ∀ s ∈ c.steps, ∀ n ∈ s.names, has doc n = true → ∃ a, s.found doc = some a := by
    intro s hs n hn' hh
    unfold Step.found
    rw [if_neg fun hbl => by rw [hb s hs hbl n hn'] at hh; cases hh]
    cases hf : s.alts.find? fun a => has doc a.1 with
    | some a => exact ⟨a, rfl⟩
    | none =>
      obtain ⟨a, ha, rfl⟩ := List.mem_map.1 hn'
      have := List.find?_eq_none.1 hf a ha
      exact absurd hh this
  refine Option.ext fun o => ?_
  rw [Option.bind_eq_some_iff]
  show (Option.bind _ fun passed => construct c (passed ++ left c doc)) = some o ↔ _
  rw [Option.bind_eq_some_iff]
  constructor
  · rintro ⟨passed, hp, ho⟩
    have hp2 := mapM_forall₂.1 hp
    have hcall : c.callable (passed ++ left c doc) = true := by
      unfold construct at ho
      split at ho
      · rename_i hh
        exact (Bool.and_eq_true _ _ ▸ hh).1
      · cases ho
    obtain ⟨nd, kn, -⟩ := callable_iff.1 hcall
    have inPassed : ∀ s ∈ c.steps, ∃ v, (s.key, v) ∈ passed := by
      intro s hs
      obtain ⟨e, he, hsome⟩ := forall₂_mem_left hp2 hs
      obtain ⟨u, _, rfl⟩ := Option.map_eq_some_iff.1 hsome
      exact ⟨u, he⟩
    have notLeft : ∀ s ∈ c.steps, ∀ v, (s.key, v) ∉ left c doc := by
      intro s hs v hv
      obtain ⟨u, hu⟩ := inPassed s hs
      rw [List.map_append, List.nodup_append'] at nd
      exact nd.2.2 (List.mem_map.2 ⟨_, hu, rfl⟩) (List.mem_map.2 ⟨_, hv, rfl⟩)
    have hc : Clean c t doc := by
      refine ⟨fun s hs n hn' hh => ?_, fun e he hnone => ?_⟩
      · obtain ⟨a, ha⟩ := hfind s hs n hn' hh
        by_cases hae : a.1 = n
        · exact ⟨a.2, by rw [ha, ← hae]⟩
        · exfalso
          obtain ⟨v, hv⟩ := has_iff.1 hh
          have hl : (n, v) ∈ left c doc := by
            refine left_mem.2 ⟨hv, fun s' hs' a' ha' heq => ?_⟩
            have : s' = s := h.unique hs' hs (List.mem_map.2 ⟨a', (found_mem ha').1, heq⟩) hn'
            subst this
            rw [ha] at ha'
            cases ha'
            exact hae heq
          by_cases hk : n = s.key
          · exact notLeft s hs v (hk ▸ hl)
          · obtain ⟨b, hb', hbe⟩ := kn _ (List.mem_append_right _ hl)
            exact h.unknown s hs n hn' hk b hb' hbe
      · have hstep : ∃ s ∈ c.steps, s.key = e.1 := by
          by_contra hno
          have h2 : ∀ s ∈ c.steps, s.key ≠ e.1 := fun s hs heq => hno ⟨s, hs, heq⟩
          by_cases h1 : ∀ s ∈ c.steps, e.1 ∉ s.names
          · rw [h.other h1 h2] at hnone
            cases hnone
          · push Not at h1
            obtain ⟨s, hs, hn'⟩ := h1
            obtain ⟨a, ha, hae⟩ := List.mem_map.1 hn'
            have := h.alts s hs a ha
            rw [hae, hnone] at this
            cases this
        obtain ⟨s, hs, hse⟩ := hstep
        refine notLeft s hs e.2 (left_mem.2 ⟨hse ▸ he, fun s' hs' a' ha' heq => ?_⟩)
        have := h.alts s' hs' a' (found_mem ha').1
        have heq : a'.1 = s.key := heq
        rw [heq, hse, hnone] at this
        cases this
    have hres : ∃ kw, resolve w t doc = some kw := by
      refine mapM_some_of fun e he => ?_
      rcases hc.classify h he with ⟨s, hs, a, ha, hae, hf, te⟩ | ⟨_, _, te⟩
      · rw [te, Option.bind_some]
        obtain ⟨e', he', hsome⟩ := forall₂_mem_left hp2 hs
        obtain ⟨u, hu, rfl⟩ := Option.map_eq_some_iff.1 hsome
        unfold Step.take at hu
        simp only [hf] at hu
        rw [hae, lookup_of_mem hn (show (e.1, e.2) ∈ doc from he), Option.bind_some, convert_eq] at hu
        exact ⟨(s.key, u), by simp [hu]⟩
      · rw [te, Option.bind_some]
        exact ⟨(e.1, e.2), rfl⟩
    obtain ⟨kw, hkw⟩ := hres
    exact ⟨kw, hkw, clean_construct h hn hc hd hp hkw ▸ ho⟩
  · rintro ⟨kw, hkw, ho⟩
    have hr2 := mapM_forall₂.1 hkw
    have hcall : c.callable kw = true := by
      unfold construct at ho
      split at ho
      · rename_i hh
        exact (Bool.and_eq_true _ _ ▸ hh).1
      · cases ho
    obtain ⟨nd, -, -⟩ := callable_iff.1 hcall
    have hc : Clean c t doc := by
      refine ⟨fun s hs n hn' hh => ?_, fun e he hnone => ?_⟩
      · obtain ⟨a, ha⟩ := hfind s hs n hn' hh
        by_cases hae : a.1 = n
        · exact ⟨a.2, by rw [ha, ← hae]⟩
        · exfalso
          obtain ⟨v, hv⟩ := has_iff.1 hh
          obtain ⟨b, hb', hbe⟩ := List.mem_map.1 hn'
          obtain ⟨u, hu⟩ := has_iff.1 (found_mem ha).2
          have e1 := h.alts s hs b hb'
          have e2 := h.alts s hs a (found_mem ha).1
          -- two entries of the document stand for the same argument
          have key : (kw.map Prod.fst) = doc.map fun e => ((t.entry e.1).map Prod.fst).getD "" := by
            refine map_of_forall₂ hr2 fun e _ b hb => ?_
            obtain ⟨m, hm, h'⟩ := Option.bind_eq_some_iff.1 hb
            obtain ⟨v', hv, rfl⟩ := Option.map_eq_some_iff.1 h'
            rw [hm]
            rfl
          rw [key] at nd
          have := List.inj_on_of_nodup_map nd hu hv (by rw [e2, ← hbe, e1]; rfl)
          exact hae (Prod.mk.inj this).1
      · obtain ⟨b, _, hb'⟩ := forall₂_mem_left hr2 he
        rw [hnone] at hb'
        cases hb'
    have hpas : ∃ passed, (c.steps.mapM fun s : Step => (s.take w doc).map fun v => (s.key, v)) = some passed := by
      refine mapM_some_of fun s hs => ?_
      cases ht : s.take w doc with
      | some v => exact ⟨_, rfl⟩
      | none =>
        exfalso
        cases hf : s.found doc with
        | none =>
          rw [hm s hs ht hf kw hkw] at ho
          cases ho
        | some a =>
          obtain ⟨u, hu⟩ := has_iff.1 (found_mem hf).2
          obtain ⟨b, _, hb'⟩ := forall₂_mem_left hr2 hu
          rw [h.alts s hs a (found_mem hf).1, Option.bind_some] at hb'
          obtain ⟨v', hv, -⟩ := Option.map_eq_some_iff.1 hb'
          unfold Step.take at ht
          simp only [hf] at ht
          rw [lookup_of_mem hn hu, Option.bind_some, convert_eq, hv] at ht
          cases ht
    obtain ⟨passed, hp⟩ := hpas
    exact ⟨passed, hp, clean_construct h hn hc hd hp hkw ▸ ho⟩

/-- What no step found is not among the arguments that the document stands for. -/
theorem not_found (h : Agrees c t) {s : Step} (hs : s ∈ c.steps) (hf : ∀ n ∈ s.names, has doc n = false) {kw : Kw} (hkw : resolve w t doc = some kw) (v : Arg) : (s.key, v) ∉ kw := by
  intro hm
  obtain ⟨e, he, h'⟩ := forall₂_mem_right (mapM_forall₂.1 hkw) hm
  obtain ⟨m, hm', h'⟩ := Option.bind_eq_some_iff.1 h'
  obtain ⟨v', -, h'⟩ := Option.map_eq_some_iff.1 h'
  have hk : m.1 = s.key := (Prod.mk.inj h').1
  by_cases h1 : ∀ s' ∈ c.steps, e.1 ∉ s'.names
  · by_cases h2 : ∀ s' ∈ c.steps, s'.key ≠ e.1
    · rw [h.other h1 h2] at hm'
      cases hm'
      exact h2 s hs hk.symm
    · push Not at h2
      obtain ⟨s', hs', heq⟩ := h2
      rcases h.own s' hs' with ho | ho
      · exact h1 s' hs' (heq ▸ ho)
      · rw [heq, hm'] at ho
        cases ho
  · push Not at h1
    obtain ⟨s', hs', hn'⟩ := h1
    obtain ⟨a, ha, hae⟩ := List.mem_map.1 hn'
    have := h.alts s' hs' a ha
    rw [hae, hm'] at this
    cases this
    have := step_unique h.keys hs' hs hk
    subst this
    have := hf _ hn'
    rw [has_iff.2 ⟨e.2, he⟩] at this
    cases this

theorem found_none {s : Step} (hb : s.blockers.any (has doc) = false) (hf : s.found doc = none) : ∀ n ∈ s.names, has doc n = false := by
  unfold Step.found at hf
  rw [hb] at hf
  intro n hn
  obtain ⟨a, ha, rfl⟩ := List.mem_map.1 hn
  simpa using List.find?_eq_none.1 hf a ha

/-- Every entry is always looked for; what is not there is the constructor's default, or required by it too. -/
def Plain (c : Class) : Prop :=
  ∀ s ∈ c.steps, s.blockers = [] ∧ c.args.lookup s.key = some s.default

theorem construct_required {kw : Kw} {k : String} (h : c.args.lookup k = some none) (hk : ∀ v, (k, v) ∉ kw) : construct c kw = none := by
  unfold construct
  rw [if_neg]
  intro hh
  obtain ⟨v, hv⟩ := (callable_iff.1 (Bool.and_eq_true _ _ ▸ hh).1).2.2 (k, none) (lookup_mem h) rfl
  exact hk v hv

theorem plain_document (h : Agrees c t) (hp : Plain c) (hn : (doc.map Prod.fst).Nodup) : fromDocument w c doc = (resolve w t doc).bind (construct c) := by
  refine agrees_document h hn ?_ ?_ ?_
  · intro s hs hf v hv
    unfold Step.take at hv
    simp only [hf, (hp s hs).1, List.any_nil, Bool.false_eq_true, if_false] at hv
    rw [(hp s hs).2, hv]
  · intro s hs hb
    rw [(hp s hs).1] at hb
    cases hb
  · intro s hs ht hf kw hkw
    have hf' := found_none (by rw [(hp s hs).1]; rfl) hf
    unfold Step.take at ht
    simp only [hf, (hp s hs).1, List.any_nil, Bool.false_eq_true, if_false] at ht
    exact construct_required (by rw [(hp s hs).2, ht]) (not_found h hs hf' hkw)

theorem document_refused (h : Agrees c t) (hp : Plain c) (hn : (doc.map Prod.fst).Nodup) (k : String) (v : Arg)
    (hb : ((k, v) ∈ doc ∧ ((t.entry k).bind fun m => stands w m.2 v) = none) ∨ ((k, v) ∈ doc ∧ t.entry k = some (k, .plain) ∧ c.args.lookup k = none) ∨
      (c.args.lookup k = some none ∧ ∀ e ∈ doc, (t.entry e.1).map Prod.fst ≠ some k)) : fromDocument w c doc = none := by
  rw [plain_document h hp hn]
  rcases hb with ⟨hm, hb⟩ | ⟨hm, ht, hl⟩ | ⟨hl, hno⟩
  · cases hr : resolve w t doc with
    | none => rfl
    | some kw =>
      obtain ⟨b, _, hb'⟩ := forall₂_mem_left (mapM_forall₂.1 hr) hm
      obtain ⟨m, hm', h'⟩ := Option.bind_eq_some_iff.1 hb'
      obtain ⟨u, hu, -⟩ := Option.map_eq_some_iff.1 h'
      have hm' : t.entry k = some m := hm'
      have hu : stands w m.2 v = some u := hu
      rw [hm', Option.bind_some, hu] at hb
      cases hb
  · cases hr : resolve w t doc with
    | none => rfl
    | some kw =>
      obtain ⟨b, hbm, hb'⟩ := forall₂_mem_left (mapM_forall₂.1 hr) hm
      have hb' : ((t.entry k).bind fun m => (stands w m.2 v).map fun v => (m.1, v)) = some b := hb'
      rw [ht, Option.bind_some] at hb'
      have hb' : some (k, v) = some b := hb'
      cases hb'
      rw [Option.bind_some]
      unfold construct
      rw [if_neg]
      intro hh
      obtain ⟨a, ha, hae⟩ := (callable_iff.1 (Bool.and_eq_true _ _ ▸ hh).1).2.1 _ hbm
      obtain ⟨a1, a2⟩ := a
      have hae : a1 = k := hae
      subst hae
      have := lookup_of_mem h.argsNodup ha
      rw [hl] at this
      cases this
  · cases hr : resolve w t doc with
    | none => rfl
    | some kw =>
      rw [Option.bind_some]
      refine construct_required hl fun v' hv' => ?_
      obtain ⟨e, he, hb'⟩ := forall₂_mem_right (mapM_forall₂.1 hr) hv'
      obtain ⟨m, hm', h'⟩ := Option.bind_eq_some_iff.1 hb'
      obtain ⟨u, _, h'⟩ := Option.map_eq_some_iff.1 h'
      refine hno e he ?_
      rw [hm']
      exact congrArg some (Prod.mk.inj h').1

theorem seq_none {fs : List ((String → Arg) → Option Obj)} {a : String → Arg} {f : (String → Arg) → Option Obj} (hm : f ∈ fs) (hf : f a = none) : seq fs a = none := by
  unfold seq
  rw [Option.map_eq_none_iff]
  cases h : fs.mapM fun f : (String → Arg) → Option Obj => f a with
  | none => rfl
  | some l =>
    obtain ⟨b, _, hb⟩ := forall₂_mem_left (mapM_forall₂.1 h) hm
    rw [hf] at hb
    cases hb

theorem documented_agrees (h : Documented c t) : Agrees c t ∧ Plain c := by
  cases h <;> exact ⟨⟨by decide +kernel, by decide +kernel, by decide +kernel, by decide +kernel, by decide +kernel, by decide +kernel, by decide +kernel, by decide +kernel⟩,
    by unfold Plain; decide +kernel⟩

end Verif.ParameterLoading

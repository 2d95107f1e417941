import Verif.Spec.OutputFile
import Mathlib.Data.List.Nodup
import Mathlib.Data.List.Induction
import Mathlib.Tactic.Tauto
/-!
# Lemmas on output files
-/

namespace Verif.OutputFile

variable {α : Type}

theorem Apart.symm {p q : Path} (h : Apart p q) : Apart q p := ⟨h.2, h.1⟩

theorem Apart.ne {p q : Path} (h : Apart p q) : p ≠ q := fun e => h.1 (e ▸ List.prefix_refl _)

theorem prefix_dropLast {p q : Path} (hp : p ≠ []) : q <+: p.dropLast ↔ q <+: p ∧ q ≠ p := by
  conv => rhs; rw [← List.dropLast_append_getLast hp]
  rw [List.prefix_concat_iff]
  constructor
  · intro h
    refine ⟨.inr h, fun e => ?_⟩
    have := h.length_le
    rw [e] at this
    simp at this
  · rintro ⟨h | h, hne⟩
    · exact absurd h hne
    · exact h

/-- The groups of a file are those on the way to its leaves. -/
def WF (f : File α) : Prop := ∀ p, f.at p = some .group ↔ p = [] ∨ ∃ q, (content f q).isSome ∧ p <+: q ∧ p ≠ q

theorem content_some {f : File α} {p : Path} {a : α} : content f p = some a ↔ f.at p = some (.leaf a) := by
  unfold content
  split
  · next h => rw [h]; simp
  · next h =>
    constructor
    · intro h'; cases h'
    · intro h'; exact absurd h' (h a)

theorem content_isSome {f : File α} {p : Path} : (content f p).isSome ↔ ∃ a, f.at p = some (.leaf a) := by
  rw [Option.isSome_iff_exists]
  simp only [content_some]

theorem isLeaf_iff {f : File α} {p : Path} : f.isLeaf p = true ↔ (content f p).isSome := by
  unfold File.isLeaf content
  split <;> simp_all

theorem wf_nil : WF ([] : File α) := by
  intro p
  unfold content File.at
  by_cases h : p = []
  · simp [h]
  · simp [h]

theorem lookup_groups (l : List Path) (q : Path) :
    (l.map fun r => (r, (Entry.group : Entry α))).lookup q = if q ∈ l then some .group else none := by
  induction l with
  | nil => rfl
  | cons a l ih =>
    simp only [List.map_cons, List.lookup_cons]
    by_cases h : q = a
    · subst h; simp
    · have : (q == a) = false := by simpa using h
      simp only [this, ih, List.mem_cons, h, false_or]

theorem create_at {f f' : File α} {p : Path} {a : α} (h : create f p a = some f') (q : Path) :
    f'.at q = if q = p then some (.leaf a) else (f.at q).or (if q <+: p.dropLast then some .group else none) := by
  unfold create at h
  split at h
  · cases h
  · next hc =>
    cases h
    push Not at hc
    obtain ⟨hp, -, hn⟩ := hc
    have hn' : f.lookup p = none := by
      unfold File.at at hn
      rw [if_neg hp] at hn
      cases hl : f.lookup p with
      | none => rfl
      | some e => rw [hl] at hn; exact absurd rfl hn
    unfold File.at
    by_cases hq : q = []
    · subst hq
      rw [if_pos rfl, if_neg (fun e => hp e.symm), if_pos rfl]; rfl
    · rw [if_neg hq, if_neg hq, List.lookup_append, List.lookup_append, lookup_groups]
      by_cases hqp : q = p
      · subst hqp
        have : ¬ q <+: q.dropLast := fun hh => ((prefix_dropLast hp).1 hh).2 rfl
        rw [hn', if_pos rfl]
        rw [if_neg (by simp [this])]
        simp
      · have hb : (q == p) = false := by simpa using hqp
        rw [if_neg hqp]
        simp only [List.lookup_cons, hb, List.lookup_nil, Option.or_none]
        cases hf : f.lookup q with
        | some e => rfl
        | none =>
          simp only [Option.none_or, List.mem_filter, List.mem_inits]
          have : (if q = [] then some Entry.group else List.lookup q f) = none := by rw [if_neg hq, hf]
          simp only [this, Option.isNone_none, and_true]

theorem create_content {f f' : File α} {p : Path} {a : α} (h : create f p a = some f') (q : Path) :
    content f' q = if q = p then some a else content f q := by
  unfold content
  rw [create_at h q]
  by_cases hq : q = p
  · rw [if_pos hq, if_pos hq]
  · rw [if_neg hq, if_neg hq]
    cases f.at q with
    | some e => rfl
    | none =>
      rw [Option.none_or]
      split
      · next h => split at h <;> cases h
      · rfl

theorem create_iff {f : File α} (hw : WF f) (p : Path) (a : α) :
    (create f p a).isSome ↔ p ≠ [] ∧ ∀ q, (content f q).isSome → Apart q p := by
  unfold create
  constructor
  · intro h
    split at h
    · cases h
    · next hc =>
      push Not at hc
      obtain ⟨hp, hl, hn⟩ := hc
      refine ⟨hp, fun q hq => ⟨fun hqp => ?_, fun hpq => ?_⟩⟩
      · by_cases e : q = p
        · subst e
          obtain ⟨a, ha⟩ := content_isSome.1 hq
          rw [ha] at hn; simp at hn
        · apply hl
          rw [List.any_eq_true]
          exact ⟨q, (List.mem_inits _ _).2 ((prefix_dropLast hp).2 ⟨hqp, e⟩), isLeaf_iff.2 hq⟩
      · by_cases e : p = q
        · subst e
          obtain ⟨a, ha⟩ := content_isSome.1 hq
          rw [ha] at hn; simp at hn
        · have := (hw p).2 (.inr ⟨q, hq, hpq, e⟩)
          rw [this] at hn; simp at hn
  · rintro ⟨hp, ha⟩
    rw [if_neg]
    · rfl
    · rintro (h | h | h)
      · exact hp h
      · rw [List.any_eq_true] at h
        obtain ⟨q, hq, hl⟩ := h
        rw [List.mem_inits, prefix_dropLast hp] at hq
        exact (ha q (isLeaf_iff.1 hl)).1 hq.1
      · cases hx : f.at p with
        | none => rw [hx] at h; cases h
        | some e =>
          cases e with
          | leaf b => exact (ha p (content_isSome.2 ⟨b, hx⟩)).1 (List.prefix_refl _)
          | group =>
            rcases (hw p).1 hx with e | ⟨q, hq, hpq, -⟩
            · exact hp e
            · exact (ha q hq).2 hpq

theorem create_wf {f f' : File α} (hw : WF f) {p : Path} {a : α} (h : create f p a = some f') : WF f' := by
  have hok := (create_iff hw p a).1 (by rw [h]; rfl)
  intro q
  rw [create_at h q]
  simp only [create_content h]
  by_cases hqp : q = p
  · subst hqp
    rw [if_pos rfl]
    constructor
    · intro h; cases h
    · rintro (e | ⟨r, hr, hqr, hne⟩)
      · exact absurd e hok.1
      · rw [if_neg (fun e => hne e.symm)] at hr
        exact absurd hqr (hok.2 r hr).2
  · rw [if_neg hqp]
    cases hx : f.at q with
    | none =>
      rw [Option.none_or]
      have h0 : ¬ (q = [] ∨ ∃ r, (content f r).isSome ∧ q <+: r ∧ q ≠ r) := by rw [← hw q, hx]; simp
      push Not at h0
      constructor
      · intro h
        split at h
        · next hd =>
          exact .inr ⟨p, by simp, ((prefix_dropLast hok.1).1 hd).1, hqp⟩
        · cases h
      · rintro (e | ⟨r, hr, hqr, hne⟩)
        · exact absurd e h0.1
        · by_cases er : r = p
          · subst er
            rw [if_pos ((prefix_dropLast hok.1).2 ⟨hqr, hne⟩)]
          · rw [if_neg er] at hr
            exact absurd (h0.2 r hr hqr) hne
    | some e =>
      rw [Option.some_or]
      cases e with
      | group =>
        constructor
        · intro _
          rcases (hw q).1 hx with e | ⟨r, hr, hqr, hne⟩
          · exact .inl e
          · refine .inr ⟨r, ?_, hqr, hne⟩
            split
            · rfl
            · exact hr
        · intro _; rfl
      | leaf b =>
        have hq : (content f q).isSome := content_isSome.2 ⟨b, hx⟩
        constructor
        · intro h; cases h
        · rintro (e | ⟨r, hr, hqr, hne⟩)
          · subst e; simp [File.at] at hx
          · by_cases er : r = p
            · subst er
              exact absurd hqr (hok.2 q hq).1
            · rw [if_neg er] at hr
              have := (hw q).2 (.inr ⟨r, hr, hqr, hne⟩)
              rw [hx] at this; cases this

theorem modify_at (f : File α) (p q : Path) (g : α → α) :
    (modify f p g).at q = if q = p then (f.at q).map (fun e => match e with
      | .leaf a => .leaf (g a)
      | .group => .group) else f.at q := by
  unfold File.at
  by_cases hq : q = []
  · subst hq; simp
  · simp only [if_neg hq]
    unfold modify
    induction f with
    | nil => simp
    | cons e f ih =>
      obtain ⟨r, e⟩ := e
      rw [List.map_cons]
      by_cases hr : r = p
      · simp only [if_pos hr, List.lookup_cons]
        by_cases hqr : q = r
        · subst hqr; subst hr; simp; rfl
        · have hb : (q == r) = false := by simpa using hqr
          simp only [hb, ih]
      · simp only [if_neg hr, List.lookup_cons]
        by_cases hqr : q = r
        · subst hqr; simp [hr]
        · have hb : (q == r) = false := by simpa using hqr
          simp only [hb, ih]

theorem modify_content (f : File α) (p q : Path) (g : α → α) :
    content (modify f p g) q = if q = p then (content f q).map g else content f q := by
  unfold content
  rw [modify_at]
  by_cases hq : q = p
  · simp only [if_pos hq]
    rcases f.at q with _ | (_ | _) <;> rfl
  · simp only [if_neg hq]

theorem modify_isSome (f : File α) (p q : Path) (g : α → α) : (content (modify f p g) q).isSome = (content f q).isSome := by
  rw [modify_content]; split <;> simp

theorem modify_wf {f : File α} (hw : WF f) (p : Path) (g : α → α) : WF (modify f p g) := by
  intro q
  simp only [modify_isSome]
  rw [← hw q, modify_at]
  split
  · rcases f.at q with _ | (_ | _) <;> simp
  · rfl

theorem remake_content {f f' : File α} {p : Path} {a : α} (h : remake f p a = some f') (q : Path) :
    content f' q = if q = p then some a else content f q := by
  unfold remake at h
  split at h
  · next b hb =>
    cases h
    rw [modify_content]
    split
    · next e => subst e; rw [content_some.2 hb]; rfl
    · rfl
  · cases h
  · exact create_content h q

theorem remake_wf {f f' : File α} (hw : WF f) {p : Path} {a : α} (h : remake f p a = some f') : WF f' := by
  unfold remake at h
  split at h
  · cases h; exact modify_wf hw _ _
  · cases h
  · exact create_wf hw h

theorem remake_iff {f : File α} (hw : WF f) (p : Path) (a : α) :
    (remake f p a).isSome ↔ p ≠ [] ∧ ∀ q, (content f q).isSome → q = p ∨ Apart q p := by
  unfold remake
  cases hx : f.at p with
  | none =>
    simp only
    rw [create_iff hw]
    refine and_congr_right fun _ => forall_congr' fun q => ⟨fun h hq => .inr (h hq), fun h hq => ?_⟩
    rcases h hq with e | h
    · subst e
      obtain ⟨b, hb⟩ := content_isSome.1 hq
      rw [hx] at hb; cases hb
    · exact h
  | some e =>
    cases e with
    | group =>
      simp only [Option.isSome_none, Bool.false_eq_true, false_iff, not_and]
      intro hp h
      rcases (hw p).1 hx with e | ⟨q, hq, hpq, hne⟩
      · exact hp e
      · rcases h q hq with e | h
        · exact hne e.symm
        · exact h.2 hpq
    | leaf b =>
      simp only [Option.isSome_some, true_iff]
      refine ⟨fun e => ?_, fun q hq => ?_⟩
      · subst e; simp [File.at] at hx
      · by_cases e : q = p
        · exact .inl e
        · right
          constructor
          · intro hqp
            have := (hw q).2 (.inr ⟨p, content_isSome.2 ⟨b, hx⟩, hqp, e⟩)
            obtain ⟨d, hd⟩ := content_isSome.1 hq
            rw [hd] at this; cases this
          · intro hpq
            have := (hw p).2 (.inr ⟨q, hq, hpq, fun e' => e e'.symm⟩)
            rw [hx] at this; cases this

theorem createAll_wf {f f' : File α} (hw : WF f) {l : List (Path × α)} (h : createAll f l = some f') : WF f' := by
  induction l generalizing f with
  | nil => cases h; exact hw
  | cons e l ih =>
    obtain ⟨g, hg, h⟩ := Option.bind_eq_some_iff.1 (show (create f e.1 e.2).bind _ = some f' from h)
    exact ih (create_wf hw hg) h

theorem createAll_iff {f : File α} (hw : WF f) (l : List (Path × α)) :
    (createAll f l).isSome ↔ (l.map Prod.fst).Pairwise Apart ∧ ∀ p ∈ l.map Prod.fst, p ≠ [] ∧ ∀ q, (content f q).isSome → Apart q p := by
  induction l generalizing f with
  | nil => simp [createAll]
  | cons e l ih =>
    obtain ⟨p, a⟩ := e
    simp only [createAll, List.map_cons, List.pairwise_cons, List.forall_mem_cons]
    cases hc : create f p a with
    | none =>
      have := (create_iff hw p a).not.1 (by rw [hc]; simp)
      simp only [Option.bind_none, Option.isSome_none, Bool.false_eq_true, false_iff]
      rintro ⟨-, h, -⟩
      exact this h
    | some g =>
      have hok := (create_iff hw p a).1 (by rw [hc]; rfl)
      rw [Option.bind_some, ih (create_wf hw hc)]
      simp only [create_content hc]
      constructor
      · rintro ⟨h1, h2⟩
        refine ⟨⟨fun q hq => ?_, h1⟩, hok, fun q hq => ⟨(h2 q hq).1, fun r hr => (h2 q hq).2 r ?_⟩⟩
        · exact (h2 q hq).2 p (by simp)
        · split
          · rfl
          · exact hr
      · rintro ⟨⟨h1, h2⟩, -, h3⟩
        refine ⟨h2, fun q hq => ⟨(h3 q hq).1, fun r hr => ?_⟩⟩
        split at hr
        · next e => subst e; exact h1 q hq
        · exact (h3 q hq).2 r hr

theorem createAll_content {f f' : File α} {l : List (Path × α)} (h : createAll f l = some f') :
    (∀ q, q ∉ l.map Prod.fst → content f' q = content f q) ∧ ((l.map Prod.fst).Nodup → ∀ e ∈ l, content f' e.1 = some e.2) ∧
      ∀ q, (content f' q).isSome ↔ q ∈ l.map Prod.fst ∨ (content f q).isSome := by
  induction l generalizing f with
  | nil => cases h; simp
  | cons e l ih =>
    obtain ⟨p, a⟩ := e
    obtain ⟨g, hg, h⟩ := Option.bind_eq_some_iff.1 (show (create f p a).bind _ = some f' from h)
    obtain ⟨h1, h2, h3⟩ := ih h
    refine ⟨fun q hq => ?_, fun hn => ?_, fun q => ?_⟩
    · rw [List.map_cons, List.mem_cons, not_or] at hq
      rw [h1 q hq.2, create_content hg, if_neg hq.1]
    · rw [List.map_cons, List.nodup_cons] at hn
      intro e he
      rcases List.mem_cons.1 he with rfl | he
      · rw [h1 _ hn.1, create_content hg, if_pos rfl]
      · exact h2 hn.2 e he
    · rw [h3 q, create_content hg, List.map_cons, List.mem_cons]
      by_cases e : q = p
      · simp [e]
      · simp [e]

theorem remakeAll_wf {f f' : File α} (hw : WF f) {l : List (Path × α)} (h : remakeAll f l = some f') : WF f' := by
  induction l generalizing f with
  | nil => cases h; exact hw
  | cons e l ih =>
    obtain ⟨g, hg, h⟩ := Option.bind_eq_some_iff.1 (show (remake f e.1 e.2).bind _ = some f' from h)
    exact ih (remake_wf hw hg) h

theorem remakeAll_iff {f : File α} (hw : WF f) (l : List (Path × α)) :
    (remakeAll f l).isSome ↔ (l.map Prod.fst).Pairwise (fun p q => p = q ∨ Apart p q) ∧
      ∀ p ∈ l.map Prod.fst, p ≠ [] ∧ ∀ q, (content f q).isSome → q = p ∨ Apart q p := by
  induction l generalizing f with
  | nil => simp [remakeAll]
  | cons e l ih =>
    obtain ⟨p, a⟩ := e
    simp only [remakeAll, List.map_cons, List.pairwise_cons, List.forall_mem_cons]
    cases hc : remake f p a with
    | none =>
      have := (remake_iff hw p a).not.1 (by rw [hc]; simp)
      simp only [Option.bind_none, Option.isSome_none, Bool.false_eq_true, false_iff]
      rintro ⟨-, h, -⟩
      exact this h
    | some g =>
      have hok := (remake_iff hw p a).1 (by rw [hc]; rfl)
      rw [Option.bind_some, ih (remake_wf hw hc)]
      simp only [remake_content hc]
      constructor
      · rintro ⟨h1, h2⟩
        refine ⟨⟨fun q hq => ?_, h1⟩, hok, fun q hq => ⟨(h2 q hq).1, fun r hr => (h2 q hq).2 r ?_⟩⟩
        · exact (h2 q hq).2 p (by simp)
        · split
          · rfl
          · exact hr
      · rintro ⟨⟨h1, h2⟩, -, h3⟩
        refine ⟨h2, fun q hq => ⟨(h3 q hq).1, fun r hr => ?_⟩⟩
        split at hr
        · next e => subst e; exact h1 q hq
        · exact (h3 q hq).2 r hr

theorem remakeAll_content {f f' : File α} {l : List (Path × α)} (h : remakeAll f l = some f') :
    (∀ q, q ∉ l.map Prod.fst → content f' q = content f q) ∧ ((l.map Prod.fst).Nodup → ∀ e ∈ l, content f' e.1 = some e.2) ∧
      ∀ q, (content f' q).isSome ↔ q ∈ l.map Prod.fst ∨ (content f q).isSome := by
  induction l generalizing f with
  | nil => cases h; simp
  | cons e l ih =>
    obtain ⟨p, a⟩ := e
    obtain ⟨g, hg, h⟩ := Option.bind_eq_some_iff.1 (show (remake f p a).bind _ = some f' from h)
    obtain ⟨h1, h2, h3⟩ := ih h
    refine ⟨fun q hq => ?_, fun hn => ?_, fun q => ?_⟩
    · rw [List.map_cons, List.mem_cons, not_or] at hq
      rw [h1 q hq.2, remake_content hg, if_neg hq.1]
    · rw [List.map_cons, List.nodup_cons] at hn
      intro e he
      rcases List.mem_cons.1 he with rfl | he
      · rw [h1 _ hn.1, remake_content hg, if_pos rfl]
      · exact h2 hn.2 e he
    · rw [h3 q, remake_content hg, List.map_cons, List.mem_cons]
      by_cases e : q = p
      · simp [e]
      · simp [e]

/-! ## The dictionary -/

theorem handles_append (items : List (Path × Nat)) (e : Path × Nat) : handles (items ++ [e]) = assign (handles items) e.2 e.1 := by
  unfold handles; rw [List.foldl_append]; rfl

theorem mem_handles (items : List (Path × Nat)) : ((handles items).map Prod.fst).Nodup ∧
    ∀ x p, (x, p) ∈ handles items ↔ (items.filter fun e => e.2 = x).getLast? = some (p, x) := by
  induction items using List.reverseRecOn with
  | nil => exact ⟨List.nodup_nil, fun x p => by simp [handles]⟩
  | append_singleton items e ih =>
    obtain ⟨q, y⟩ := e
    obtain ⟨hn, hm⟩ := ih
    rw [handles_append]
    have hkey : ∀ x, (∃ p, (x, p) ∈ handles items) ↔ ∃ p, (p, x) ∈ items := by
      intro x
      constructor
      · rintro ⟨p, hp⟩
        rw [hm] at hp
        exact ⟨p, (List.mem_filter.1 (List.mem_of_getLast? hp)).1⟩
      · rintro ⟨p, hp⟩
        have hne : (items.filter fun e => e.2 = x) ≠ [] := List.ne_nil_of_mem (List.mem_filter.2 ⟨hp, by simp⟩)
        obtain ⟨⟨r, z⟩, hr⟩ := (show ∃ v, (items.filter fun e => e.2 = x).getLast? = some v from ⟨_, List.getLast?_eq_getLast_of_ne_nil hne⟩)
        have hz := (List.mem_filter.1 (List.mem_of_getLast? hr)).2
        simp only [decide_eq_true_eq] at hz
        subst hz
        exact ⟨r, (hm _ _).2 hr⟩
    unfold assign
    by_cases hany : (handles items).any (fun e => e.1 == y) = true
    · rw [if_pos hany]
      constructor
      · rw [List.map_map]
        have : (Prod.fst ∘ fun e : Nat × Path => if e.1 == y then (y, q) else e) = Prod.fst := by
          funext e
          simp only [Function.comp]
          split
          · next h => simpa using (beq_iff_eq.1 h).symm
          · rfl
        rw [this]; exact hn
      · intro x p
        rw [List.mem_map, List.filter_append]
        by_cases hx : x = y
        · subst hx
          rw [List.filter_cons_of_pos (by simp), List.filter_nil, List.getLast?_concat]
          constructor
          · rintro ⟨⟨z, r⟩, hz, he⟩
            split at he
            · cases he; rfl
            · next hne => cases he; simp at hne
          · intro h
            cases h
            rw [List.any_eq_true] at hany
            obtain ⟨z, hz, hb⟩ := hany
            exact ⟨z, hz, by rw [if_pos hb]⟩
        · rw [List.filter_cons_of_neg (by simpa using fun h => hx h.symm), List.filter_nil, List.append_nil, ← hm]
          constructor
          · rintro ⟨⟨z, r⟩, hz, he⟩
            split at he
            · cases he; exact absurd rfl hx
            · cases he; exact hz
          · intro h
            exact ⟨(x, p), h, by rw [if_neg (by simpa using hx)]⟩
    · rw [if_neg hany]
      have hno : ∀ p, (p, y) ∉ items := by
        intro p hp
        obtain ⟨r, hr⟩ := (hkey y).2 ⟨p, hp⟩
        exact hany (List.any_eq_true.2 ⟨_, hr, by simp⟩)
      constructor
      · rw [List.map_append, List.nodup_append]
        refine ⟨hn, by simp, ?_⟩
        intro a ha b hb
        simp only [List.map_cons, List.map_nil, List.mem_singleton] at hb
        subst hb
        rintro rfl
        obtain ⟨⟨z, r⟩, hz, rfl⟩ := List.mem_map.1 ha
        exact hany (List.any_eq_true.2 ⟨_, hz, by simp⟩)
      · intro x p
        rw [List.mem_append, List.filter_append, List.mem_singleton]
        by_cases hx : x = y
        · subst hx
          have hnil : (items.filter fun e => e.2 = x) = [] := by
            rw [List.filter_eq_nil_iff]
            rintro ⟨r, z⟩ hr hz
            simp only [decide_eq_true_eq] at hz
            subst hz
            exact hno r hr
          rw [hm, hnil, List.filter_cons_of_pos (by simp)]
          simp [eq_comm]
        · rw [List.filter_cons_of_neg (by simpa using fun h => hx h.symm), List.filter_nil, List.append_nil, ← hm]
          simp [hx]

theorem handles_once {items : List (Path × Nat)} (h : (items.map Prod.snd).Nodup) : handles items = items.map fun e => (e.2, e.1) := by
  induction items using List.reverseRecOn with
  | nil => rfl
  | append_singleton items e ih =>
    rw [List.map_append, List.nodup_append] at h
    rw [handles_append, ih h.1]
    unfold assign
    rw [if_neg]
    · simp
    · rw [List.any_eq_true]
      rintro ⟨z, hz, hb⟩
      obtain ⟨w, hw, rfl⟩ := List.mem_map.1 hz
      exact h.2.2 _ (List.mem_map_of_mem hw) e.2 (by simp) (by simpa using hb)

/-! ## The after-hook -/

/-- The changes of one call, one array after the other. -/
def changes (c : Conf α) (w : Nat → Path → α → α) : List (Path × (α → α)) :=
  (handles c.items).flatMap fun e => (c.arrays e.1).map fun s => (e.2 ++ s, w e.1 s)

def modifies (f : File α) (l : List (Path × (α → α))) : File α := l.foldl (fun f e => modify f e.1 e.2) f

theorem modifies_wf {f : File α} (hw : WF f) (l : List (Path × (α → α))) : WF (modifies f l) := by
  induction l generalizing f with
  | nil => exact hw
  | cons e l ih => exact ih (modify_wf hw _ _)

theorem modifies_isSome (f : File α) (l : List (Path × (α → α))) (q : Path) : (content (modifies f l) q).isSome = (content f q).isSome := by
  induction l generalizing f with
  | nil => rfl
  | cons e l ih => exact (ih _).trans (modify_isSome _ _ _ _)

theorem modifies_other (f : File α) (l : List (Path × (α → α))) (q : Path) (h : q ∉ l.map Prod.fst) : content (modifies f l) q = content f q := by
  induction l generalizing f with
  | nil => rfl
  | cons e l ih =>
    rw [List.map_cons, List.mem_cons, not_or] at h
    exact (ih _ h.2).trans (by rw [modify_content, if_neg h.1])

theorem modifies_one (f : File α) (l : List (Path × (α → α))) (hn : (l.map Prod.fst).Nodup) (e : Path × (α → α)) (he : e ∈ l) :
    content (modifies f l) e.1 = (content f e.1).map e.2 := by
  induction l generalizing f with
  | nil => cases he
  | cons d l ih =>
    rw [List.map_cons, List.nodup_cons] at hn
    rcases List.mem_cons.1 he with rfl | he
    · show content (modifies (modify f e.1 e.2) l) e.1 = _
      rw [modifies_other _ _ _ hn.1, modify_content, if_pos rfl]
    · show content (modifies (modify f d.1 d.2) l) e.1 = _
      rw [ih _ hn.2 he, modify_content, if_neg]
      intro h
      exact hn.1 (h ▸ List.mem_map_of_mem he)

theorem after_eq {c : Conf α} {w : Nat → Path → α → α} {f f' : File α} (h : after c w f = some f') : f' = modifies f (changes c w) := by
  unfold after at h
  split at h
  · cases h
  · cases h
    unfold modifies changes
    rw [List.foldl_flatMap]
    simp only [List.foldl_map]

theorem changes_once {c : Conf α} (h : (c.items.map Prod.snd).Nodup) (w : Nat → Path → α → α) : (changes c w).map Prod.fst = c.itemPaths := by
  unfold changes Conf.itemPaths
  rw [handles_once h, List.map_flatMap, List.flatMap_map]
  simp [Function.comp_def]

theorem pairwise_apart_nodup {l : List Path} (h : l.Pairwise Apart) : l.Nodup := h.imp fun h => h.ne

end Verif.OutputFile

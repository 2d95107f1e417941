import Verif.Spec.References
import Mathlib.Data.List.Nodup
import Mathlib.Algebra.Order.BigOperators.Group.List
/-!
# Lemmas about loading components
-/

namespace Verif.References

/-! ## Dictionaries -/

theorem pop_spec : ∀ (todo : List (Key × Data)) (key : Key),
    (pop todo key = none ∧ key ∉ todo.map Prod.fst) ∨
    ∃ d l r, todo = l ++ (key, d) :: r ∧ pop todo key = some (d, l ++ r) := by
  intro todo
  induction todo with
  | nil => intro key; exact Or.inl ⟨rfl, by simp⟩
  | cons e rest ih =>
    intro key
    rw [pop]
    by_cases he : e.1 = key
    · rw [if_pos he]
      subst he
      exact Or.inr ⟨e.2, [], rest, rfl, rfl⟩
    · rw [if_neg he]
      rcases ih key with ⟨h1, h2⟩ | ⟨d, l, r, h1, h2⟩
      · rw [h1]
        exact Or.inl ⟨rfl, by simp only [List.map_cons, List.mem_cons, not_or]; exact ⟨fun h => he h.symm, h2⟩⟩
      · rw [h2]
        exact Or.inr ⟨d, e :: l, r, by rw [h1]; rfl, rfl⟩

theorem popitem_spec : ∀ (todo : List (Key × Data)) (kind : Kind),
    (popitem todo kind = none ∧ ∀ e ∈ todo, e.1.kind ≠ kind) ∨
    ∃ key d l r, todo = l ++ (key, d) :: r ∧ key.kind = kind ∧ popitem todo kind = some (key, d, l ++ r) := by
  intro todo
  induction todo with
  | nil => intro kind; exact Or.inl ⟨rfl, by simp⟩
  | cons e rest ih =>
    intro kind
    rw [popitem]
    rcases ih kind with ⟨h1, h2⟩ | ⟨key, d, l, r, h1, h2, h3⟩
    · rw [h1]
      simp only
      by_cases he : e.1.kind = kind
      · rw [if_pos he]
        exact Or.inr ⟨e.1, e.2, [], rest, rfl, he, rfl⟩
      · rw [if_neg he]
        refine Or.inl ⟨rfl, ?_⟩
        intro x hx
        rcases List.mem_cons.1 hx with rfl | hx
        · exact he
        · exact h2 x hx
    · rw [h3]
      exact Or.inr ⟨key, d, e :: l, r, by rw [h1]; rfl, h2, rfl⟩

theorem find_some (objs : List Obj) (key : Key) (i : Nat) (h : find objs key = some i) :
    ∃ o, objs[i]? = some o ∧ o.kind = key.kind ∧ o.name = some key.name := by
  unfold find at h
  rw [List.findIdx?_eq_some_iff_getElem] at h
  obtain ⟨hi, hp, -⟩ := h
  exact ⟨objs[i], List.getElem?_eq_getElem hi, by simpa using hp⟩

theorem find_none (objs : List Obj) (key : Key) (h : find objs key = none) :
    ∀ o ∈ objs, ¬ (o.kind = key.kind ∧ o.name = some key.name) := by
  unfold find at h
  rw [List.findIdx?_eq_none_iff] at h
  intro o ho
  simpa using h o ho

/-! ## More components -/

theorem prefix_getElem? {α : Type} {l l' : List α} (h : l <+: l') {i : Nat} {a : α} (hi : l[i]? = some a) : l'[i]? = some a := by
  obtain ⟨t, rfl⟩ := h
  rw [List.getElem?_append_left (List.getElem?_eq_some_iff.1 hi).1, hi]

mutual
theorem Resolves.mono (defs : List (Key × Data)) (objs objs' : List Obj) (hp : objs <+: objs') :
    ∀ (d : Data) (v : Value), Resolves defs objs d v → Resolves defs objs' d v
  | .ref key, v, h => by
    simp only [Resolves] at h ⊢
    rcases h with ⟨i, o, h1, h2, h3⟩ | h
    · exact Or.inl ⟨i, o, h1, prefix_getElem? hp h2, h3⟩
    · exact Or.inr h
  | .literal, v, h => by simpa only [Resolves] using h
  | .mapping kind true name args, v, h => by
    simp only [Resolves] at h ⊢
    obtain ⟨i, vs, h1, h2, h3⟩ := h
    exact ⟨i, vs, h1, prefix_getElem? hp h2, ResolvesAll.mono defs objs objs' hp args vs h3⟩
  | .mapping _ false _ _, v, h => by simpa only [Resolves] using h
theorem ResolvesAll.mono (defs : List (Key × Data)) (objs objs' : List Obj) (hp : objs <+: objs') :
    ∀ (ds : List Data) (vs : List Value), ResolvesAll defs objs ds vs → ResolvesAll defs objs' ds vs
  | [], vs, h => by simpa only [ResolvesAll] using h
  | d :: ds, vs, h => by
    simp only [ResolvesAll] at h ⊢
    obtain ⟨v, vs', h1, h2, h3⟩ := h
    exact ⟨v, vs', h1, Resolves.mono defs objs objs' hp d v h2, ResolvesAll.mono defs objs objs' hp ds vs' h3⟩
end

/-- A definition has been loaded. -/
def Done (defs : List (Key × Data)) (objs : List Obj) (e : Key × Data) : Prop :=
  ∃ v, Resolves defs objs e.2 v

/-- Components are made of earlier ones. -/
def Ordered (objs : List Obj) : Prop := ∀ i o, objs[i]? = some o → ∀ j, Value.obj j ∈ o.args → j < i

/-- No two components have the same name. -/
def Unique (objs : List Obj) : Prop := (objs.filterMap Obj.name).Nodup

/-- What a successful load does to the state. -/
structure Step (defs : List (Key × Data)) (s s' : State) : Prop where
  pre : s.objs <+: s'.objs
  sub : s'.todo.Sublist s.todo
  done : ∀ e ∈ s.todo, e ∈ s'.todo ∨ Done defs s'.objs e
  ordered : Ordered s.objs → Ordered s'.objs
  unique : Unique s.objs → Unique s'.objs

theorem Step.refl (defs : List (Key × Data)) (s : State) : Step defs s s :=
  ⟨List.prefix_refl _, List.Sublist.refl _, fun _ h => Or.inl h, id, id⟩

theorem Step.trans {defs : List (Key × Data)} {s t u : State} (h : Step defs s t) (h' : Step defs t u) : Step defs s u := by
  refine ⟨h.pre.trans h'.pre, h'.sub.trans h.sub, fun e he => ?_, fun x => h'.ordered (h.ordered x), fun x => h'.unique (h.unique x)⟩
  rcases h.done e he with h1 | ⟨v, h1⟩
  · exact h'.done e h1
  · exact Or.inr ⟨v, h1.mono _ _ _ h'.pre _ _⟩

/-- A component exists. -/
def Value.below (n : Nat) : Value → Prop
  | .obj i => i < n
  | .lit => True

theorem Value.below.mono {n m : Nat} (h : n ≤ m) {v : Value} (hv : v.below n) : v.below m := by
  cases v with
  | obj i => exact Nat.lt_of_lt_of_le hv h
  | lit => trivial

theorem loadList_step (defs : List (Key × Data)) (f : State → Data → Except Error (Value × State))
    (hf : ∀ s d v s', (∀ e ∈ s.todo, e ∈ defs) → f s d = .ok (v, s') →
      Step defs s s' ∧ Resolves defs s'.objs d v ∧ v.below s'.objs.length) :
    ∀ (ds : List Data) (s : State) (vs : List Value) (s' : State), (∀ e ∈ s.todo, e ∈ defs) → loadList f s ds = .ok (vs, s') →
      Step defs s s' ∧ ResolvesAll defs s'.objs ds vs ∧ ∀ v ∈ vs, v.below s'.objs.length := by
  intro ds
  induction ds with
  | nil =>
    intro s vs s' hs h
    simp only [loadList, Except.ok.injEq, Prod.mk.injEq] at h
    obtain ⟨rfl, rfl⟩ := h
    exact ⟨Step.refl _ _, by simp [ResolvesAll], by simp⟩
  | cons d ds ih =>
    intro s vs s' hs h
    rw [loadList] at h
    cases h1 : f s d with
    | error e => rw [h1] at h; cases h
    | ok r =>
      obtain ⟨v, t⟩ := r
      rw [h1] at h
      simp only at h
      cases h2 : loadList f t ds with
      | error e => rw [h2] at h; cases h
      | ok r =>
        obtain ⟨vs', u⟩ := r
        rw [h2] at h
        simp only [Except.ok.injEq, Prod.mk.injEq] at h
        obtain ⟨rfl, rfl⟩ := h
        obtain ⟨a1, a2, a3⟩ := hf s d v t hs h1
        obtain ⟨b1, b2, b3⟩ := ih t vs' u (fun e he => hs e (a1.sub.subset he)) h2
        refine ⟨a1.trans b1, ?_, ?_⟩
        · simp only [ResolvesAll]
          exact ⟨v, vs', rfl, a2.mono _ _ _ b1.pre _ _, b2⟩
        · intro w hw
          rcases List.mem_cons.1 hw with rfl | hw
          · exact a3.mono b1.pre.length_le
          · exact b3 w hw

theorem create_spec (s : State) (kind : Kind) (name : Option String) (args : List Value) (v : Value) (s' : State)
    (h : create s kind name args = .ok (v, s')) :
    v = .obj s.objs.length ∧ s' = { s with objs := s.objs ++ [⟨kind, name, args⟩] } ∧
      ∀ n, name = some n → ∀ o ∈ s.objs, o.name ≠ some n := by
  unfold create at h
  cases name with
  | none =>
    simp only [Except.ok.injEq, Prod.mk.injEq] at h
    exact ⟨h.1.symm, h.2.symm, by simp⟩
  | some n =>
    simp only at h
    split at h
    · cases h
    · rename_i hn
      simp only [Except.ok.injEq, Prod.mk.injEq] at h
      refine ⟨h.1.symm, h.2.symm, ?_⟩
      rintro m ⟨rfl⟩ o ho hon
      exact hn (List.any_eq_true.2 ⟨o, ho, by simpa using hon⟩)

theorem load_step (defs : List (Key × Data)) (hw : WellFormed defs) : ∀ (fuel : Nat) (s : State) (d : Data) (v : Value) (s' : State),
    (∀ e ∈ s.todo, e ∈ defs) → load fuel s d = .ok (v, s') →
    Step defs s s' ∧ Resolves defs s'.objs d v ∧ v.below s'.objs.length := by
  intro fuel
  induction fuel with
  | zero => intro s d v s' _ h; cases h
  | succ fuel ih =>
    intro s d v s' hs h
    cases d with
    | ref key =>
      rw [load] at h
      cases hf : find s.objs key with
      | some i =>
        rw [hf] at h
        simp only [Except.ok.injEq, Prod.mk.injEq] at h
        obtain ⟨rfl, rfl⟩ := h
        obtain ⟨o, ho, hk⟩ := find_some _ _ _ hf
        refine ⟨Step.refl _ _, ?_, ?_⟩
        · simp only [Resolves]
          exact Or.inl ⟨i, o, rfl, ho, hk⟩
        · exact (List.getElem?_eq_some_iff.1 ho).1
      | none =>
        rw [hf] at h
        simp only at h
        rcases pop_spec s.todo key with ⟨hp, -⟩ | ⟨d, l, r, htodo, hp⟩
        · rw [hp] at h; cases h
        · rw [hp] at h
          simp only at h
          have hmem : (key, d) ∈ defs := hs _ (by rw [htodo]; simp)
          obtain ⟨typed, args, rfl⟩ : ∃ typed args, d = .mapping key.kind typed (some key.name) args := hw.named _ hmem
          obtain ⟨a1, a2, a3⟩ := ih { s with todo := l ++ r } _ v s' (fun e he => hs e (by
            rw [htodo]
            simp only [List.mem_append, List.mem_cons] at he ⊢
            rcases he with he | he
            · exact Or.inl he
            · exact Or.inr (Or.inr he))) h
          have hsub : (l ++ r).Sublist s.todo := by
            rw [htodo]; exact (List.Sublist.refl l).append (List.sublist_cons_self _ _)
          refine ⟨⟨a1.pre, a1.sub.trans hsub, ?_, a1.ordered, a1.unique⟩, ?_, a3⟩
          · intro e he
            rw [htodo] at he
            simp only [List.mem_append, List.mem_cons] at he
            rcases he with he | rfl | he
            · exact a1.done e (by simp [he])
            · exact Or.inr ⟨v, a2⟩
            · exact a1.done e (by simp [he])
          · simp only [Resolves]
            cases typed with
            | true =>
              simp only [Resolves] at a2
              obtain ⟨i, vs, h1, h2, -⟩ := a2
              exact Or.inl ⟨i, _, h1, h2, rfl, rfl⟩
            | false =>
              simp only [Resolves] at a2
              exact Or.inr ⟨a2, _, _, _, hmem⟩
    | literal =>
      simp only [load, Except.ok.injEq, Prod.mk.injEq] at h
      obtain ⟨rfl, rfl⟩ := h
      exact ⟨Step.refl _ _, by simp [Resolves], trivial⟩
    | mapping kind typed name args =>
      unfold load at h
      cases typed with
      | false =>
        simp only [Bool.false_eq_true, if_false] at h
        cases kind with
        | recorder => cases h
        | param =>
          simp only [Except.ok.injEq, Prod.mk.injEq] at h
          obtain ⟨rfl, rfl⟩ := h
          exact ⟨Step.refl _ _, by simp [Resolves], trivial⟩
      | true =>
        simp only [if_true] at h
        cases hl : loadList (load fuel) s args with
        | error e => rw [hl] at h; cases h
        | ok r =>
          obtain ⟨vs, t⟩ := r
          rw [hl] at h
          simp only at h
          obtain ⟨b1, b2, b3⟩ := loadList_step defs (load fuel) ih args s vs t hs hl
          obtain ⟨rfl, rfl, hn⟩ := create_spec _ _ _ _ _ _ h
          have hpre : t.objs <+: t.objs ++ [⟨kind, name, vs⟩] := List.prefix_append _ _
          refine ⟨⟨b1.pre.trans hpre, b1.sub, ?_, ?_, ?_⟩, ?_, ?_⟩
          · intro e he
            rcases b1.done e he with h1 | ⟨w, h1⟩
            · exact Or.inl h1
            · exact Or.inr ⟨w, h1.mono _ _ _ hpre _ _⟩
          · intro ho i o hio j hj
            rcases Nat.lt_or_ge i t.objs.length with hi | hi
            · rw [List.getElem?_append_left hi] at hio
              exact b1.ordered ho i o hio j hj
            · rw [List.getElem?_append_right hi] at hio
              have hi' : i - t.objs.length = 0 := by
                by_contra hne
                rw [List.getElem?_eq_none (by simp; omega)] at hio
                cases hio
              rw [hi'] at hio
              simp only [List.getElem?_cons_zero, Option.some.injEq] at hio
              subst hio
              have := b3 _ hj
              simp only [Value.below] at this
              omega
          · intro hu
            have := b1.unique hu
            unfold Unique at this ⊢
            rw [List.filterMap_append]
            cases name with
            | none => simpa using this
            | some n =>
              have hsing : List.filterMap Obj.name [⟨kind, some n, vs⟩] = [n] := rfl
              rw [hsing, List.nodup_append]
              refine ⟨this, by simp, ?_⟩
              intro a ha b hb hab
              simp only [List.mem_singleton] at hb
              subst hb hab
              obtain ⟨o, ho, hon⟩ := List.mem_filterMap.1 ha
              exact hn _ rfl o ho hon
          · simp only [Resolves]
            refine ⟨_, vs, rfl, ?_, b2.mono _ _ _ hpre _ _⟩
            rw [List.getElem?_append_right (Nat.le_refl _)]
            simp
          · simp [Value.below]

/-- Loading all definitions of a kind. -/
theorem loadComponents_step (defs : List (Key × Data)) (hw : WellFormed defs) (fuel : Nat) (kind : Kind) : ∀ (n : Nat) (s : State) (l : Bool)
    (s' : State), (∀ e ∈ s.todo, e ∈ defs) → s.todo.length ≤ n → loadComponents fuel kind n s = .ok (l, s') →
    s.objs <+: s'.objs ∧ s'.todo.Sublist s.todo ∧ (∀ e ∈ s'.todo, e.1.kind ≠ kind) ∧
    (∀ e ∈ s.todo, e ∈ s'.todo ∨ Done defs s'.objs e ∨ (e.1.kind = .recorder ∧ kind = .recorder ∧ (find s'.objs e.1).isSome)) ∧
    (Ordered s.objs → Ordered s'.objs) ∧ (Unique s.objs → Unique s'.objs) := by
  intro n
  induction n with
  | zero =>
    intro s l s' hs hn h
    simp only [loadComponents, Except.ok.injEq, Prod.mk.injEq] at h
    obtain ⟨rfl, rfl⟩ := h
    have : s.todo = [] := List.length_eq_zero_iff.1 (by omega)
    exact ⟨List.prefix_refl _, List.Sublist.refl _, by simp [this], fun _ h => Or.inl h, id, id⟩
  | succ n ih =>
    intro s l s' hs hn h
    rw [loadComponents] at h
    rcases popitem_spec s.todo kind with ⟨h1, h2⟩ | ⟨key, d, a, b, htodo, hkind, hp⟩
    · rw [h1] at h
      simp only [Except.ok.injEq, Prod.mk.injEq] at h
      obtain ⟨rfl, rfl⟩ := h
      exact ⟨List.prefix_refl _, List.Sublist.refl _, h2, fun _ h => Or.inl h, id, id⟩
    · rw [hp] at h
      simp only at h
      have hsub : (a ++ b).Sublist s.todo := by
        rw [htodo]; exact (List.Sublist.refl a).append (List.sublist_cons_self _ _)
      have hlen : (a ++ b).length ≤ n := by
        have : s.todo.length = (a ++ b).length + 1 := by rw [htodo]; simp; omega
        omega
      have hsplit : ∀ e ∈ s.todo, e = (key, d) ∨ e ∈ a ++ b := by
        intro e he
        rw [htodo] at he
        simp only [List.mem_append, List.mem_cons] at he ⊢
        rcases he with he | he | he
        · exact Or.inr (Or.inl he)
        · exact Or.inl he
        · exact Or.inr (Or.inr he)
      by_cases hskip : kind = .recorder ∧ (find s.objs key).isSome
      · rw [if_pos hskip] at h
        obtain ⟨c1, c2, c3, c4, c5, c6⟩ := ih { s with todo := a ++ b } l s' (fun e he => hs e (hsub.subset he)) hlen h
        refine ⟨c1, c2.trans hsub, c3, ?_, c5, c6⟩
        intro e he
        rcases hsplit e he with rfl | he
        · refine Or.inr (Or.inr ⟨by rw [hkind]; exact hskip.1, hskip.1, ?_⟩)
          obtain ⟨i, hi⟩ := Option.isSome_iff_exists.1 hskip.2
          obtain ⟨o, ho, hk⟩ := find_some _ _ _ hi
          cases hfin : find s'.objs key with
          | some _ => simp
          | none =>
            have := find_none _ _ hfin o (List.mem_of_getElem? (prefix_getElem? c1 ho))
            exact absurd hk this
        · exact c4 e he
      · rw [if_neg hskip] at h
        cases hl : load fuel { s with todo := a ++ b } d with
        | error e => rw [hl] at h; cases h
        | ok r =>
          obtain ⟨v, t⟩ := r
          rw [hl] at h
          simp only at h
          cases hc : loadComponents fuel kind n t with
          | error e => rw [hc] at h; cases h
          | ok r =>
            obtain ⟨l', u⟩ := r
            rw [hc] at h
            simp only [Except.ok.injEq, Prod.mk.injEq] at h
            obtain ⟨-, rfl⟩ := h
            obtain ⟨a1, a2, a3⟩ := load_step defs hw fuel _ d v t (fun e he => hs e (hsub.subset he)) hl
            obtain ⟨c1, c2, c3, c4, c5, c6⟩ := ih t l' u (fun e he => hs e (hsub.subset (a1.sub.subset he)))
              (Nat.le_trans a1.sub.length_le hlen) hc
            refine ⟨a1.pre.trans c1, (c2.trans a1.sub).trans hsub, c3, ?_, fun x => c5 (a1.ordered x), fun x => c6 (a1.unique x)⟩
            intro e he
            rcases hsplit e he with rfl | he
            · exact Or.inr (Or.inl ⟨v, a2.mono _ _ _ c1 _ _⟩)
            · rcases a1.done e he with h1 | ⟨w, h1⟩
              · exact c4 e h1
              · exact Or.inr (Or.inl ⟨w, h1.mono _ _ _ c1 _ _⟩)

end Verif.References

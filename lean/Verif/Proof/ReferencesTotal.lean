import Verif.Proof.References
import Mathlib.Tactic.SplitIfs
/-!
# When loading succeeds
-/

namespace Verif.References

/-! ## The recursion ends -/

theorem weight_sublist {l l' : List (Key × Data)} (h : l.Sublist l') : weight l ≤ weight l' := by
  induction h with
  | slnil => exact Nat.le_refl _
  | cons a _ ih => simp only [weight, List.map_cons, List.sum_cons] at ih ⊢; omega
  | cons_cons a _ ih => simp only [weight, List.map_cons, List.sum_cons] at ih ⊢; omega

theorem weight_split (a b : List (Key × Data)) (e : Key × Data) : weight (a ++ e :: b) = size e.2 + weight (a ++ b) := by
  unfold weight
  simp only [List.map_append, List.map_cons, List.sum_append, List.sum_cons]
  omega

theorem create_ne_running (s : State) (kind : Kind) (name : Option String) (args : List Value) : create s kind name args ≠ .error .running := by
  unfold create
  cases name with
  | none => simp
  | some n => simp only; split_ifs <;> simp

/-- The definitions left are a part of those before. -/
theorem loadList_sub (f : State → Data → Except Error (Value × State)) (hf : ∀ s d v s', f s d = .ok (v, s') → s'.todo.Sublist s.todo) :
    ∀ (ds : List Data) (s : State) (vs : List Value) (s' : State), loadList f s ds = .ok (vs, s') → s'.todo.Sublist s.todo := by
  intro ds
  induction ds with
  | nil =>
    intro s vs s' h
    simp only [loadList, Except.ok.injEq, Prod.mk.injEq] at h
    rw [h.2]
  | cons d ds ih =>
    intro s vs s' h
    rw [loadList] at h
    cases h1 : f s d with
    | error e => rw [h1] at h; cases h
    | ok r =>
      obtain ⟨v, t⟩ := r
      rw [h1] at h
      simp only at h
      cases h2 : loadList f t ds with
      | error e => rw [h2] at h; cases h
      | ok r =>
        obtain ⟨vs', u⟩ := r
        rw [h2] at h
        simp only [Except.ok.injEq, Prod.mk.injEq] at h
        obtain ⟨-, rfl⟩ := h
        exact (ih _ _ _ h2).trans (hf _ _ _ _ h1)

theorem load_sub : ∀ (fuel : Nat) (s : State) (d : Data) (v : Value) (s' : State), load fuel s d = .ok (v, s') →
    s'.todo.Sublist s.todo := by
  intro fuel
  induction fuel with
  | zero => intro s d v s' h; cases h
  | succ fuel ih =>
    intro s d v s' h
    cases d with
    | ref key =>
      rw [load] at h
      cases hf : find s.objs key with
      | some i =>
        rw [hf] at h
        simp only [Except.ok.injEq, Prod.mk.injEq] at h
        rw [h.2]
      | none =>
        rw [hf] at h
        simp only at h
        rcases pop_spec s.todo key with ⟨hp, -⟩ | ⟨d, l, r, htodo, hp⟩
        · rw [hp] at h; cases h
        · rw [hp] at h
          refine (ih _ _ _ _ h).trans ?_
          rw [htodo]
          exact (List.Sublist.refl l).append (List.sublist_cons_self _ _)
    | literal =>
      simp only [load, Except.ok.injEq, Prod.mk.injEq] at h
      rw [h.2]
    | mapping kind typed name args =>
      unfold load at h
      cases typed with
      | false =>
        simp only [Bool.false_eq_true, if_false] at h
        cases kind with
        | recorder => cases h
        | param =>
          simp only [Except.ok.injEq, Prod.mk.injEq] at h
          rw [h.2]
      | true =>
        simp only [if_true] at h
        cases hl : loadList (load fuel) s args with
        | error e => rw [hl] at h; cases h
        | ok r =>
          obtain ⟨vs, t⟩ := r
          rw [hl] at h
          simp only at h
          obtain ⟨-, rfl, -⟩ := create_spec _ _ _ _ _ _ h
          have := loadList_sub _ ih _ _ _ _ hl
          exact this

theorem loadList_ends (fuel : Nat) (hf : ∀ s d, size d + weight s.todo ≤ fuel → load fuel s d ≠ .error .running) :
    ∀ (ds : List Data) (s : State), sizeAll ds + weight s.todo ≤ fuel → loadList (load fuel) s ds ≠ .error .running := by
  intro ds
  induction ds with
  | nil => intro s _; simp [loadList]
  | cons d ds ih =>
    intro s hs
    simp only [sizeAll] at hs
    rw [loadList]
    cases h1 : load fuel s d with
    | error e =>
      simp only
      intro h
      simp only [Except.error.injEq] at h
      subst h
      exact hf s d (by omega) h1
    | ok r =>
      obtain ⟨v, t⟩ := r
      simp only
      have hw := weight_sublist (load_sub _ _ _ _ _ h1)
      cases h2 : loadList (load fuel) t ds with
      | error e =>
        simp only
        intro h
        simp only [Except.error.injEq] at h
        subst h
        exact ih t (by omega) h2
      | ok r => simp

theorem load_ends : ∀ (fuel : Nat) (s : State) (d : Data), size d + weight s.todo ≤ fuel → load fuel s d ≠ .error .running := by
  intro fuel
  induction fuel with
  | zero =>
    intro s d h
    exfalso
    cases d <;> simp only [size] at h <;> omega
  | succ fuel ih =>
    intro s d hs
    cases d with
    | ref key =>
      rw [load]
      cases hf : find s.objs key with
      | some i => simp
      | none =>
        simp only
        rcases pop_spec s.todo key with ⟨hp, -⟩ | ⟨d, l, r, htodo, hp⟩
        · rw [hp]; simp
        · rw [hp]
          simp only
          apply ih
          rw [htodo, weight_split] at hs
          simp only [size] at hs
          simp only
          omega
    | literal => simp [load]
    | mapping kind typed name args =>
      unfold load
      cases typed with
      | false =>
        simp only [Bool.false_eq_true, if_false]
        cases kind <;> simp
      | true =>
        simp only [if_true]
        simp only [size] at hs
        cases hl : loadList (load fuel) s args with
        | error e =>
          simp only
          intro h
          simp only [Except.error.injEq] at h
          subst h
          exact loadList_ends fuel ih args s (by omega) hl
        | ok r => exact create_ne_running _ _ _ _

theorem loadComponents_sub (fuel : Nat) (kind : Kind) : ∀ (n : Nat) (s : State) (l : Bool) (s' : State),
    loadComponents fuel kind n s = .ok (l, s') → s'.todo.Sublist s.todo := by
  intro n
  induction n with
  | zero =>
    intro s l s' h
    simp only [loadComponents, Except.ok.injEq, Prod.mk.injEq] at h
    rw [h.2]
  | succ n ih =>
    intro s l s' h
    rw [loadComponents] at h
    rcases popitem_spec s.todo kind with ⟨h1, h2⟩ | ⟨key, d, a, b, htodo, hkind, hp⟩
    · rw [h1] at h
      simp only [Except.ok.injEq, Prod.mk.injEq] at h
      rw [h.2]
    · rw [hp] at h
      simp only at h
      have hsub : (a ++ b).Sublist s.todo := by
        rw [htodo]; exact (List.Sublist.refl a).append (List.sublist_cons_self _ _)
      by_cases hskip : kind = .recorder ∧ (find s.objs key).isSome
      · rw [if_pos hskip] at h
        exact (ih _ _ _ h).trans hsub
      · rw [if_neg hskip] at h
        cases hl : load fuel { s with todo := a ++ b } d with
        | error e => rw [hl] at h; cases h
        | ok r =>
          obtain ⟨v, t⟩ := r
          rw [hl] at h
          simp only at h
          cases hc : loadComponents fuel kind n t with
          | error e => rw [hc] at h; cases h
          | ok r =>
            obtain ⟨l', u⟩ := r
            rw [hc] at h
            simp only [Except.ok.injEq, Prod.mk.injEq] at h
            obtain ⟨-, rfl⟩ := h
            exact ((ih _ _ _ hc).trans (load_sub _ _ _ _ _ hl)).trans hsub

theorem loadComponents_ends (fuel : Nat) (kind : Kind) : ∀ (n : Nat) (s : State), weight s.todo ≤ fuel →
    loadComponents fuel kind n s ≠ .error .running := by
  intro n
  induction n with
  | zero => intro s _; simp [loadComponents]
  | succ n ih =>
    intro s hs
    rw [loadComponents]
    rcases popitem_spec s.todo kind with ⟨h1, h2⟩ | ⟨key, d, a, b, htodo, hkind, hp⟩
    · rw [h1]; simp
    · rw [hp]
      simp only
      have hsub : (a ++ b).Sublist s.todo := by
        rw [htodo]; exact (List.Sublist.refl a).append (List.sublist_cons_self _ _)
      have hws := weight_sublist hsub
      by_cases hskip : kind = .recorder ∧ (find s.objs key).isSome
      · rw [if_pos hskip]
        exact ih _ (by simp only; omega)
      · rw [if_neg hskip]
        cases hl : load fuel { s with todo := a ++ b } d with
        | error e =>
          simp only
          intro h
          simp only [Except.error.injEq] at h
          subst h
          refine load_ends fuel _ d ?_ hl
          rw [htodo, weight_split] at hs
          exact hs
        | ok r =>
          obtain ⟨v, t⟩ := r
          simp only
          have hwt := weight_sublist (load_sub _ _ _ _ _ hl)
          simp only at hwt
          cases hc : loadComponents fuel kind n t with
          | error e =>
            simp only
            intro h
            simp only [Except.error.injEq] at h
            subst h
            exact ih t (by omega) hc
          | ok r => simp

/-! ## Names -/

/-- Names belong to definitions, and those of definitions not yet loaded are free. -/
structure Inv (defs : List (Key × Data)) (s : State) : Prop where
  sub : ∀ e ∈ s.todo, e ∈ defs
  nodup : (s.todo.map fun e => e.1.name).Nodup
  fresh : ∀ e ∈ s.todo, ∀ o ∈ s.objs, o.name ≠ some e.1.name
  origin : ∀ o ∈ s.objs, ∀ n, o.name = some n → ⟨o.kind, n⟩ ∈ defs.map Prod.fst

/-- The name a definition has itself. -/
def ownName : Data → Option String
  | .mapping _ _ name _ => name
  | _ => none

/-- The name a definition is given is free and belongs to it. -/
def OwnFree (defs : List (Key × Data)) (s : State) : Data → Prop
  | .mapping kind _ (some n) _ => (∀ o ∈ s.objs, o.name ≠ some n) ∧ (∀ e ∈ s.todo, e.1.name ≠ n) ∧ ⟨kind, n⟩ ∈ defs.map Prod.fst
  | _ => True

/-- New names come from definitions loaded meanwhile, or from the definition itself. -/
def NewNames (s s' : State) (own : Option String) : Prop :=
  ∀ o ∈ s'.objs, ∀ n, o.name = some n → (∃ o' ∈ s.objs, o'.name = some n) ∨ (∃ e ∈ s.todo, e.1.name = n) ∨ own = some n

theorem loadList_inv (defs : List (Key × Data)) (f : State → Data → Except Error (Value × State))
    (hsub : ∀ s d v s', f s d = .ok (v, s') → s'.todo.Sublist s.todo)
    (hf : ∀ s d v s', Inv defs s → Plain d → OwnFree defs s d → f s d = .ok (v, s') → Inv defs s' ∧ NewNames s s' (ownName d)) :
    ∀ (ds : List Data) (s : State) (vs : List Value) (s' : State), Inv defs s → PlainAll ds → loadList f s ds = .ok (vs, s') →
      Inv defs s' ∧ NewNames s s' none := by
  intro ds
  induction ds with
  | nil =>
    intro s vs s' hi _ h
    simp only [loadList, Except.ok.injEq, Prod.mk.injEq] at h
    obtain ⟨-, rfl⟩ := h
    exact ⟨hi, fun o ho n hn => Or.inl ⟨o, ho, hn⟩⟩
  | cons d ds ih =>
    intro s vs s' hi hp h
    simp only [PlainAll] at hp
    obtain ⟨p1, p2, p3⟩ := hp
    have hown : ownName d = none := by
      cases d with
      | mapping k t n a => exact p1
      | _ => rfl
    have hfree : OwnFree defs s d := by
      cases d with
      | mapping k t n a => simp only at p1; subst p1; trivial
      | _ => trivial
    rw [loadList] at h
    cases h1 : f s d with
    | error e => rw [h1] at h; cases h
    | ok r =>
      obtain ⟨v, t⟩ := r
      rw [h1] at h
      simp only at h
      cases h2 : loadList f t ds with
      | error e => rw [h2] at h; cases h
      | ok r =>
        obtain ⟨vs', u⟩ := r
        rw [h2] at h
        simp only [Except.ok.injEq, Prod.mk.injEq] at h
        obtain ⟨-, rfl⟩ := h
        obtain ⟨a1, a2⟩ := hf s d v t hi p2 hfree h1
        obtain ⟨b1, b2⟩ := ih t vs' u a1 p3 h2
        refine ⟨b1, ?_⟩
        intro o ho n hn
        rcases b2 o ho n hn with ⟨o', ho', hn'⟩ | ⟨e, he, hen⟩ | h
        · rw [hown] at a2
          exact a2 o' ho' n hn'
        · exact Or.inr (Or.inl ⟨e, (hsub _ _ _ _ h1).subset he, hen⟩)
        · cases h

theorem Inv.pop {defs : List (Key × Data)} {s : State} (hi : Inv defs s) {l r : List (Key × Data)} {e : Key × Data}
    (htodo : s.todo = l ++ e :: r) : Inv defs { s with todo := l ++ r } ∧ (∀ x ∈ l ++ r, x.1.name ≠ e.1.name) := by
  have hsub : (l ++ r).Sublist s.todo := by
    rw [htodo]; exact (List.Sublist.refl l).append (List.sublist_cons_self _ _)
  refine ⟨⟨fun x hx => hi.sub x (hsub.subset hx), hi.nodup.sublist (hsub.map _), fun x hx => hi.fresh x (hsub.subset hx), hi.origin⟩, ?_⟩
  have hn := hi.nodup
  rw [htodo, List.map_append, List.map_cons, List.nodup_middle] at hn
  intro x hx h
  rw [List.nodup_cons] at hn
  apply hn.1
  rw [← h, ← List.map_append]
  exact List.mem_map_of_mem (f := fun e : Key × Data => e.1.name) hx

theorem load_inv (defs : List (Key × Data)) (hw : WellFormed defs) (hplain : ∀ e ∈ defs, Plain e.2) :
    ∀ (fuel : Nat) (s : State) (d : Data) (v : Value) (s' : State), Inv defs s → Plain d → OwnFree defs s d →
      load fuel s d = .ok (v, s') → Inv defs s' ∧ NewNames s s' (ownName d) := by
  intro fuel
  induction fuel with
  | zero => intro s d v s' _ _ _ h; cases h
  | succ fuel ih =>
    intro s d v s' hi hp ho h
    have hsame : ∀ own, NewNames s s own := fun own o ho n hn => Or.inl ⟨o, ho, hn⟩
    cases d with
    | ref key =>
      rw [load] at h
      cases hf : find s.objs key with
      | some i =>
        rw [hf] at h
        simp only [Except.ok.injEq, Prod.mk.injEq] at h
        obtain ⟨-, rfl⟩ := h
        exact ⟨hi, hsame _⟩
      | none =>
        rw [hf] at h
        simp only at h
        rcases pop_spec s.todo key with ⟨hp, -⟩ | ⟨d, l, r, htodo, hp⟩
        · rw [hp] at h; cases h
        · rw [hp] at h
          simp only at h
          have hmem : (key, d) ∈ s.todo := by rw [htodo]; simp
          have hmemd := hi.sub _ hmem
          obtain ⟨typed, args, hd⟩ := hw.named _ hmemd
          simp only at hd
          subst hd
          obtain ⟨hi', hne⟩ := hi.pop htodo
          obtain ⟨c1, c2⟩ := ih _ _ v s' hi' (hplain _ hmemd) ⟨hi.fresh _ hmem, hne,
            List.mem_map_of_mem (f := Prod.fst) hmemd⟩ h
          refine ⟨c1, ?_⟩
          intro o ho n hn
          rcases c2 o ho n hn with h1 | ⟨e, he, hen⟩ | h1
          · exact Or.inl h1
          · refine Or.inr (Or.inl ⟨e, ?_, hen⟩)
            rw [htodo]
            simp only [List.mem_append, List.mem_cons] at he ⊢
            rcases he with he | he
            · exact Or.inl he
            · exact Or.inr (Or.inr he)
          · simp only [ownName, Option.some.injEq] at h1
            exact Or.inr (Or.inl ⟨_, hmem, h1⟩)
    | literal =>
      simp only [load, Except.ok.injEq, Prod.mk.injEq] at h
      obtain ⟨-, rfl⟩ := h
      exact ⟨hi, hsame _⟩
    | mapping kind typed name args =>
      simp only [Plain] at hp
      obtain ⟨rfl, hpa⟩ := hp
      unfold load at h
      simp only [if_true] at h
      cases hl : loadList (load fuel) s args with
      | error e => rw [hl] at h; cases h
      | ok r =>
        obtain ⟨vs, t⟩ := r
        rw [hl] at h
        simp only at h
        obtain ⟨b1, b2⟩ := loadList_inv defs (load fuel) (load_sub fuel) ih args s vs t hi hpa hl
        obtain ⟨rfl, rfl, hn⟩ := create_spec _ _ _ _ _ _ h
        have hsub := loadList_sub _ (load_sub fuel) _ _ _ _ hl
        constructor
        · refine ⟨b1.sub, b1.nodup, ?_, ?_⟩
          · intro e he o hoo
            rcases List.mem_append.1 hoo with hoo | hoo
            · exact b1.fresh e he o hoo
            · simp only [List.mem_singleton] at hoo
              subst hoo
              intro hcon
              simp only at hcon
              subst hcon
              exact ho.2.1 e (hsub.subset he) rfl
          · intro o hoo n hon
            rcases List.mem_append.1 hoo with hoo | hoo
            · exact b1.origin o hoo n hon
            · simp only [List.mem_singleton] at hoo
              subst hoo
              simp only at hon
              subst hon
              exact ho.2.2
        · intro o hoo n hon
          rcases List.mem_append.1 hoo with hoo | hoo
          · rcases b2 o hoo n hon with h1 | h1 | h1
            · exact Or.inl h1
            · exact Or.inr (Or.inl h1)
            · cases h1
          · simp only [List.mem_singleton] at hoo
            subst hoo
            exact Or.inr (Or.inr hon)

/-! ## Success -/

/-- Every name of rank below `r` is loaded or can be. -/
def Available (defs : List (Key × Data)) (rank : Key → Nat) (r : Nat) (s : State) : Prop :=
  ∀ e ∈ defs, rank e.1 < r → e ∈ s.todo ∨ (find s.objs e.1).isSome

theorem find_isSome {objs : List Obj} {key : Key} {i : Nat} {o : Obj} (hi : objs[i]? = some o) (hk : o.kind = key.kind)
    (hn : o.name = some key.name) : (find objs key).isSome := by
  cases h : find objs key with
  | some j => rfl
  | none => exact absurd ⟨hk, hn⟩ (find_none _ _ h o (List.mem_of_getElem? hi))

theorem find_prefix {objs objs' : List Obj} (hp : objs <+: objs') {key : Key} (h : (find objs key).isSome) : (find objs' key).isSome := by
  obtain ⟨i, hi⟩ := Option.isSome_iff_exists.1 h
  obtain ⟨o, ho, h1, h2⟩ := find_some _ _ _ hi
  exact find_isSome (prefix_getElem? hp ho) h1 h2

theorem Done.found {defs : List (Key × Data)} (hw : WellFormed defs) (hplain : ∀ e ∈ defs, Plain e.2) {objs : List Obj} {e : Key × Data}
    (he : e ∈ defs) (h : Done defs objs e) : (find objs e.1).isSome := by
  obtain ⟨typed, args, hd⟩ := hw.named e he
  have hp := hplain e he
  obtain ⟨v, hv⟩ := h
  rw [hd] at hp hv
  simp only [Plain] at hp
  obtain ⟨rfl, -⟩ := hp
  simp only [Resolves] at hv
  obtain ⟨i, vs, -, hi, -⟩ := hv
  exact find_isSome hi rfl rfl

theorem Available.step {defs : List (Key × Data)} (hw : WellFormed defs) (hplain : ∀ e ∈ defs, Plain e.2) {rank : Key → Nat} {r : Nat}
    {s s' : State} (h : Available defs rank r s) (hs : Step defs s s') : Available defs rank r s' := by
  intro e he hr
  rcases h e he hr with h1 | h1
  · rcases hs.done e h1 with h2 | h2
    · exact Or.inl h2
    · exact Or.inr (h2.found hw hplain he)
  · exact Or.inr (find_prefix hs.pre h1)

theorem loadList_total (defs : List (Key × Data)) (hw : WellFormed defs) (hplain : ∀ e ∈ defs, Plain e.2) (rank : Key → Nat) (fuel r : Nat)
    (hf : ∀ s d e, Inv defs s → Plain d → OwnFree defs s d → (∀ k ∈ uses d, k ∈ defs.map Prod.fst ∧ rank k < r) →
      Available defs rank r s → load fuel s d = .error e → e = .running) :
    ∀ (ds : List Data) (s : State) (e : Error), Inv defs s → PlainAll ds → (∀ k ∈ usesAll ds, k ∈ defs.map Prod.fst ∧ rank k < r) →
      Available defs rank r s → loadList (load fuel) s ds = .error e → e = .running := by
  intro ds
  induction ds with
  | nil => intro s e _ _ _ _ h; cases h
  | cons d ds ih =>
    intro s e hi hp hu ha h
    simp only [PlainAll] at hp
    obtain ⟨p1, p2, p3⟩ := hp
    simp only [usesAll, List.mem_append] at hu
    have hfree : OwnFree defs s d := by
      cases d with
      | mapping k t n a => simp only at p1; subst p1; trivial
      | _ => trivial
    rw [loadList] at h
    cases h1 : load fuel s d with
    | error e' =>
      rw [h1] at h
      simp only [Except.error.injEq] at h
      subst h
      exact hf s d _ hi p2 hfree (fun k hk => hu k (Or.inl hk)) ha h1
    | ok x =>
      obtain ⟨v, t⟩ := x
      rw [h1] at h
      simp only at h
      cases h2 : loadList (load fuel) t ds with
      | ok x => rw [h2] at h; cases h
      | error e' =>
        rw [h2] at h
        simp only [Except.error.injEq] at h
        subst h
        exact ih t _ (load_inv defs hw hplain fuel s d v t hi p2 hfree h1).1 p3 (fun k hk => hu k (Or.inr hk))
          (ha.step hw hplain (load_step defs hw fuel s d v t hi.sub h1).1) h2

theorem load_total (defs : List (Key × Data)) (hw : WellFormed defs) (hplain : ∀ e ∈ defs, Plain e.2) (rank : Key → Nat)
    (hacyclic : ∀ e ∈ defs, ∀ k ∈ uses e.2, k ∈ defs.map Prod.fst ∧ rank k < rank e.1) :
    ∀ (fuel r : Nat) (s : State) (d : Data) (e : Error), Inv defs s → Plain d → OwnFree defs s d →
      (∀ k ∈ uses d, k ∈ defs.map Prod.fst ∧ rank k < r) → Available defs rank r s → load fuel s d = .error e → e = .running := by
  intro fuel
  induction fuel with
  | zero => intro r s d e _ _ _ _ _ h; simp only [load, Except.error.injEq] at h; exact h.symm
  | succ fuel ih =>
    intro r s d e hi hp ho hu ha h
    cases d with
    | ref key =>
      rw [load] at h
      obtain ⟨hk, hr⟩ := hu key (by simp [uses])
      cases hf : find s.objs key with
      | some i => rw [hf] at h; cases h
      | none =>
        rw [hf] at h
        simp only at h
        obtain ⟨⟨key, dx⟩, hx, rfl⟩ := List.mem_map.1 hk
        rcases ha (key, dx) hx hr with h1 | h1
        · rcases pop_spec s.todo key with ⟨-, hp⟩ | ⟨d, l, r', htodo, hp⟩
          · exact absurd (List.mem_map_of_mem (f := Prod.fst) h1) hp
          · rw [hp] at h
            simp only at h
            have hmem : (key, d) ∈ s.todo := by rw [htodo]; simp
            have hmemd := hi.sub _ hmem
            obtain ⟨typed, args, hd⟩ := hw.named _ hmemd
            simp only at hd
            subst hd
            obtain ⟨hi', hne⟩ := hi.pop htodo
            refine ih (rank key) _ _ e hi' (hplain _ hmemd) ⟨hi.fresh _ hmem, hne,
              List.mem_map_of_mem (f := Prod.fst) hmemd⟩ (hacyclic _ hmemd) ?_ h
            intro y hy hyr
            rcases ha y hy (Nat.lt_trans hyr hr) with h2 | h2
            · left
              rw [htodo] at h2
              simp only [List.mem_append, List.mem_cons] at h2 ⊢
              rcases h2 with h2 | rfl | h2
              · exact Or.inl h2
              · simp at hyr
              · exact Or.inr h2
            · exact Or.inr h2
        · rw [hf] at h1; cases h1
    | literal => simp [load] at h
    | mapping kind typed name args =>
      simp only [Plain] at hp
      obtain ⟨rfl, hpa⟩ := hp
      unfold load at h
      simp only [if_true] at h
      simp only [uses] at hu
      cases hl : loadList (load fuel) s args with
      | error e' =>
        rw [hl] at h
        simp only [Except.error.injEq] at h
        subst h
        exact loadList_total defs hw hplain rank fuel r (fun s d e => ih r s d e) args s _ hi hpa hu ha hl
      | ok x =>
        obtain ⟨vs, t⟩ := x
        rw [hl] at h
        simp only at h
        exfalso
        obtain ⟨b1, b2⟩ := loadList_inv defs (load fuel) (load_sub fuel) (load_inv defs hw hplain fuel) args s vs t hi hpa hl
        unfold create at h
        cases name with
        | none => cases h
        | some n =>
          simp only at h
          split_ifs at h with hany
          obtain ⟨o, hoo, hon⟩ := List.any_eq_true.1 hany
          simp only [decide_eq_true_eq] at hon
          rcases b2 o hoo n hon with ⟨o', ho', hn'⟩ | ⟨x, hx, hxn⟩ | h1
          · exact ho.1 o' ho' hn'
          · exact ho.2.1 x hx hxn
          · cases h1

/-- Loading all definitions of a kind keeps the invariants, passes none over and finds no literal. -/
theorem loadComponents_inv (defs : List (Key × Data)) (hw : WellFormed defs) (hplain : ∀ e ∈ defs, Plain e.2) (fuel : Nat) (kind : Kind) :
    ∀ (n : Nat) (s : State) (l : Bool) (s' : State), Inv defs s → s.todo.length ≤ n → loadComponents fuel kind n s = .ok (l, s') →
      Inv defs s' ∧ Step defs s s' ∧ l = false := by
  intro n
  induction n with
  | zero =>
    intro s l s' hi hn h
    simp only [loadComponents, Except.ok.injEq, Prod.mk.injEq] at h
    obtain ⟨rfl, rfl⟩ := h
    exact ⟨hi, Step.refl _ _, rfl⟩
  | succ n ih =>
    intro s l s' hi hn h
    rw [loadComponents] at h
    rcases popitem_spec s.todo kind with ⟨h1, h2⟩ | ⟨key, d, a, b, htodo, hkind, hp⟩
    · rw [h1] at h
      simp only [Except.ok.injEq, Prod.mk.injEq] at h
      obtain ⟨rfl, rfl⟩ := h
      exact ⟨hi, Step.refl _ _, rfl⟩
    · rw [hp] at h
      simp only at h
      have hmem : (key, d) ∈ s.todo := by rw [htodo]; simp
      have hmemd := hi.sub _ hmem
      obtain ⟨hi', hne⟩ := hi.pop htodo
      rw [if_neg (by
        rintro ⟨-, hs⟩
        obtain ⟨i, hi2⟩ := Option.isSome_iff_exists.1 hs
        obtain ⟨o, ho, -, hn⟩ := find_some _ _ _ hi2
        exact hi.fresh _ hmem o (List.mem_of_getElem? ho) hn)] at h
      cases hl : load fuel { s with todo := a ++ b } d with
      | error e => rw [hl] at h; cases h
      | ok r =>
        obtain ⟨v, t⟩ := r
        rw [hl] at h
        simp only at h
        cases hc : loadComponents fuel kind n t with
        | error e => rw [hc] at h; cases h
        | ok r =>
          obtain ⟨l', u⟩ := r
          rw [hc] at h
          simp only [Except.ok.injEq, Prod.mk.injEq] at h
          obtain ⟨hlit, rfl⟩ := h
          obtain ⟨a1, a2, a3⟩ := load_step defs hw fuel _ d v t hi'.sub hl
          obtain ⟨typed, args, hd⟩ := hw.named _ hmemd
          have hpd := hplain _ hmemd
          simp only at hd hpd
          subst hd
          have a2' := a2
          simp only [Plain] at hpd
          obtain ⟨rfl, -⟩ := hpd
          obtain ⟨c1, c2⟩ := load_inv defs hw hplain fuel _ _ v t hi' (hplain _ hmemd) ⟨hi.fresh _ hmem, hne,
            List.mem_map_of_mem (f := Prod.fst) hmemd⟩ hl
          have hlen : t.todo.length ≤ n := by
            have : s.todo.length = (a ++ b).length + 1 := by rw [htodo]; simp; omega
            have h3 := a1.sub.length_le
            simp only at h3
            omega
          obtain ⟨d1, d2, d3⟩ := ih t l' u c1 hlen hc
          refine ⟨d1, ?_, ?_⟩
          · have h1 := a1.trans d2
            refine ⟨h1.pre, h1.sub.trans ?_, ?_, h1.ordered, h1.unique⟩
            · rw [htodo]; exact (List.Sublist.refl a).append (List.sublist_cons_self _ _)
            · intro e he
              rw [htodo] at he
              simp only [List.mem_append, List.mem_cons] at he
              rcases he with he | rfl | he
              · exact h1.done e (by simp [he])
              · exact Or.inr ⟨v, a2.mono _ _ _ d2.pre _ _⟩
              · exact h1.done e (by simp [he])
          · simp only [Resolves] at a2'
            obtain ⟨i, vs, rfl, -⟩ := a2'
            subst d3
            simpa using hlit.symm

theorem loadComponents_total (defs : List (Key × Data)) (hw : WellFormed defs) (hplain : ∀ e ∈ defs, Plain e.2) (rank : Key → Nat)
    (hacyclic : ∀ e ∈ defs, ∀ k ∈ uses e.2, k ∈ defs.map Prod.fst ∧ rank k < rank e.1) (fuel : Nat) (kind : Kind) :
    ∀ (n : Nat) (s : State) (e : Error), Inv defs s → s.todo.length ≤ n → (∀ r, Available defs rank r s) →
      loadComponents fuel kind n s = .error e → e = .running := by
  intro n
  induction n with
  | zero => intro s e _ _ _ h; cases h
  | succ n ih =>
    intro s e hi hn ha h
    rw [loadComponents] at h
    rcases popitem_spec s.todo kind with ⟨h1, h2⟩ | ⟨key, d, a, b, htodo, hkind, hp⟩
    · rw [h1] at h; cases h
    · rw [hp] at h
      simp only at h
      have hmem : (key, d) ∈ s.todo := by rw [htodo]; simp
      have hmemd := hi.sub _ hmem
      obtain ⟨hi', hne⟩ := hi.pop htodo
      rw [if_neg (by
        rintro ⟨-, hs⟩
        obtain ⟨i, hi2⟩ := Option.isSome_iff_exists.1 hs
        obtain ⟨o, ho, -, hn⟩ := find_some _ _ _ hi2
        exact hi.fresh _ hmem o (List.mem_of_getElem? ho) hn)] at h
      obtain ⟨typed, args, hd⟩ := hw.named _ hmemd
      simp only at hd
      subst hd
      have hfree : OwnFree defs { s with todo := a ++ b } (.mapping key.kind typed (some key.name) args) :=
        ⟨hi.fresh _ hmem, hne, List.mem_map_of_mem (f := Prod.fst) hmemd⟩
      cases hl : load fuel { s with todo := a ++ b } (.mapping key.kind typed (some key.name) args) with
      | error e' =>
        rw [hl] at h
        simp only [Except.error.injEq] at h
        subst h
        refine load_total defs hw hplain rank hacyclic fuel (rank key) _ _ _ hi' (hplain _ hmemd) hfree (hacyclic _ hmemd) ?_ hl
        intro y hy hyr
        rcases ha _ y hy hyr with h2 | h2
        · left
          rw [htodo] at h2
          simp only [List.mem_append, List.mem_cons] at h2 ⊢
          rcases h2 with h2 | rfl | h2
          · exact Or.inl h2
          · simp at hyr
          · exact Or.inr h2
        · exact Or.inr h2
      | ok r =>
        obtain ⟨v, t⟩ := r
        rw [hl] at h
        simp only at h
        cases hc : loadComponents fuel kind n t with
        | ok r => rw [hc] at h; cases h
        | error e' =>
          rw [hc] at h
          simp only [Except.error.injEq] at h
          subst h
          obtain ⟨a1, a2, -⟩ := load_step defs hw fuel _ _ v t hi'.sub hl
          obtain ⟨c1, c2⟩ := load_inv defs hw hplain fuel _ _ v t hi' (hplain _ hmemd) hfree hl
          have hlen : t.todo.length ≤ n := by
            have : s.todo.length = (a ++ b).length + 1 := by rw [htodo]; simp; omega
            have h3 := a1.sub.length_le
            simp only at h3
            omega
          refine ih t _ c1 hlen ?_ hc
          intro r y hy hyr
          rcases ha r y hy hyr with h2 | h2
          · rw [htodo] at h2
            simp only [List.mem_append, List.mem_cons] at h2
            by_cases hyk : y = (key, .mapping key.kind typed (some key.name) args)
            · subst hyk
              exact Or.inr (Done.found hw hplain hy ⟨v, a2⟩)
            · have hyt : y ∈ a ++ b := by
                simp only [List.mem_append]
                rcases h2 with h2 | h2 | h2
                · exact Or.inl h2
                · exact absurd h2 hyk
                · exact Or.inr h2
              rcases a1.done y hyt with h3 | h3
              · exact Or.inl h3
              · exact Or.inr (h3.found hw hplain hy)
          · exact Or.inr (find_prefix a1.pre h2)

end Verif.References

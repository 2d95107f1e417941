import Verif.Proof.ReferencesTotal
/-!
# References between components of a document (C47)
-/

namespace Verif.References

private theorem unique_index {objs : List Obj} (h : Unique objs) {i j : Nat} {o o' : Obj} {n : String} (hi : objs[i]? = some o)
    (hj : objs[j]? = some o') (hn : o.name = some n) (hn' : o'.name = some n) : i = j := by
  unfold Unique List.Nodup at h
  rw [List.pairwise_filterMap, List.pairwise_iff_getElem] at h
  obtain ⟨hi1, hi2⟩ := List.getElem?_eq_some_iff.1 hi
  obtain ⟨hj1, hj2⟩ := List.getElem?_eq_some_iff.1 hj
  rcases Nat.lt_trichotomy i j with hlt | heq | hgt
  · exact absurd rfl (h i j hi1 hj1 hlt n (by rw [hi2]; exact hn) n (by rw [hj2]; exact hn'))
  · exact heq
  · exact absurd rfl (h j i hj1 hi1 hgt n (by rw [hj2]; exact hn') n (by rw [hi2]; exact hn))

/-- **C47 (it ends).** Loading a document ends, however the definitions refer to each other: the depth of the recursion never exceeds the total size
of the document. -/
theorem C47_ends (defs : List (Key × Data)) (nodes : List Data) (fuel : Nat) (hfuel : weight defs + sizeAll nodes ≤ fuel) :
    loadAll fuel defs nodes ≠ .error .running := by
  unfold loadAll
  cases h1 : loadComponents fuel .recorder defs.length ⟨[], defs⟩ with
  | error e =>
    simp only
    intro h
    simp only [Except.error.injEq] at h
    subst h
    exact loadComponents_ends fuel _ _ _ (by simp only; omega) h1
  | ok r =>
    obtain ⟨l, s⟩ := r
    have hs := weight_sublist (loadComponents_sub _ _ _ _ _ _ h1)
    simp only at hs ⊢
    cases h2 : loadComponents fuel .param defs.length s with
    | error e =>
      simp only
      intro h
      simp only [Except.error.injEq] at h
      subst h
      exact loadComponents_ends fuel _ _ _ (by omega) h2
    | ok r =>
      obtain ⟨l, t⟩ := r
      have ht := weight_sublist (loadComponents_sub _ _ _ _ _ _ h2)
      cases l with
      | true => simp
      | false =>
        simp only
        exact loadList_ends fuel (load_ends fuel) nodes t (by omega)

/-- **C47 (one object).** When a document is loaded, every parameter it defines exists exactly once, under its name, no two components have the same name,
and every reference — in any definition, at any depth, and from any node — stands for the one component with that name, whatever the order of the
definitions and the number of references. -/
theorem C47_shared (defs : List (Key × Data)) (hw : WellFormed defs) (nodes : List Data) (fuel : Nat) (vs : List Value) (s : State)
    (h : loadAll fuel defs nodes = .ok (vs, s)) :
    (∀ key name args, (key, .mapping .param true name args) ∈ defs → key.kind = .param →
      ∃ (i : Nat) (values : List Value), s.objs[i]? = some ⟨.param, some key.name, values⟩ ∧ ResolvesAll defs s.objs args values ∧
        ∀ (j : Nat) (o : Obj), s.objs[j]? = some o → o.name = some key.name → j = i) ∧
    ResolvesAll defs s.objs nodes vs ∧
    (∀ (i j : Nat) (o o' : Obj) (n : String), s.objs[i]? = some o → s.objs[j]? = some o' → o.name = some n → o'.name = some n → i = j) := by
  unfold loadAll at h
  cases h1 : loadComponents fuel .recorder defs.length ⟨[], defs⟩ with
  | error e => rw [h1] at h; cases h
  | ok r =>
    obtain ⟨l, s1⟩ := r
    rw [h1] at h
    simp only at h
    obtain ⟨a1, a2, a3, a4, a5, a6⟩ := loadComponents_step defs hw fuel .recorder defs.length ⟨[], defs⟩ l s1 (fun e he => he) (Nat.le_refl _) h1
    cases h2 : loadComponents fuel .param defs.length s1 with
    | error e => rw [h2] at h; cases h
    | ok r =>
      obtain ⟨l', s2⟩ := r
      rw [h2] at h
      cases l' with
      | true => cases h
      | false =>
        simp only at h
        obtain ⟨b1, b2, b3, b4, b5, b6⟩ := loadComponents_step defs hw fuel .param _ _ false s2 (fun e he => a2.subset he)
          a2.length_le h2
        obtain ⟨c1, c2, c3⟩ := loadList_step defs (load fuel) (load_step defs hw fuel) nodes s2 vs s
          (fun e he => a2.subset (b2.subset he)) h
        have hu : Unique s.objs := c1.unique (b6 (a6 (by simp [Unique])))
        refine ⟨?_, c2, fun i j o o' n hi hj hn hn' => unique_index hu hi hj hn hn'⟩
        intro key name args hmem hk
        have hdone : Done defs s2.objs (key, .mapping .param true name args) := by
          rcases a4 _ hmem with h3 | ⟨v, h3⟩ | ⟨h3, -⟩
          · rcases b4 _ h3 with h4 | h4 | ⟨h4, -⟩
            · exact absurd hk (b3 _ h4)
            · exact h4
            · simp only at h4; rw [hk] at h4; cases h4
          · exact ⟨v, h3.mono _ _ _ b1 _ _⟩
          · simp only at h3; rw [hk] at h3; cases h3
        obtain ⟨v, hv⟩ := hdone
        have hv := hv.mono _ _ _ c1.pre _ _
        obtain ⟨typed, args', hd⟩ := hw.named _ hmem
        simp only [Data.mapping.injEq] at hd
        obtain ⟨-, -, rfl, rfl⟩ := hd
        simp only [Resolves] at hv
        obtain ⟨i, values, rfl, hi, hr⟩ := hv
        exact ⟨i, values, hi, hr, fun j o hj hn => unique_index hu hj hi hn rfl⟩

mutual
private theorem uses_lt (defs : List (Key × Data)) (objs : List Obj) (ho : Ordered objs) : ∀ (d : Data) (v : Value) (n : Nat),
    Resolves defs objs d v → v.below n → ∀ k ∈ uses d,
      (∃ (j : Nat) (o : Obj), j < n ∧ objs[j]? = some o ∧ o.kind = k.kind ∧ o.name = some k.name) ∨ Untyped defs k
  | .ref key, v, n, h, hb, k, hk => by
    simp only [uses, List.mem_singleton] at hk
    subst hk
    simp only [Resolves] at h
    rcases h with ⟨i, o, rfl, h1, h2⟩ | ⟨-, h⟩
    · exact Or.inl ⟨i, o, hb, h1, h2⟩
    · exact Or.inr h
  | .literal, v, n, h, hb, k, hk => by simp [uses] at hk
  | .mapping kind true name args, v, n, h, hb, k, hk => by
    simp only [uses] at hk
    simp only [Resolves] at h
    obtain ⟨i, vs, rfl, h1, h2⟩ := h
    have hargs : ∀ w ∈ vs, w.below i := by
      intro w hw
      cases w with
      | lit => trivial
      | obj j => exact ho i _ h1 j hw
    rcases usesAll_lt defs objs ho args vs i h2 hargs k hk with ⟨j, o, hj, h3⟩ | h3
    · exact Or.inl ⟨j, o, Nat.lt_trans hj hb, h3⟩
    · exact Or.inr h3
  | .mapping _ false _ _, v, n, h, hb, k, hk => by simp [uses] at hk
private theorem usesAll_lt (defs : List (Key × Data)) (objs : List Obj) (ho : Ordered objs) : ∀ (ds : List Data) (vs : List Value) (n : Nat),
    ResolvesAll defs objs ds vs → (∀ v ∈ vs, v.below n) → ∀ k ∈ usesAll ds,
      (∃ (j : Nat) (o : Obj), j < n ∧ objs[j]? = some o ∧ o.kind = k.kind ∧ o.name = some k.name) ∨ Untyped defs k
  | [], vs, n, h, hb, k, hk => by simp [usesAll] at hk
  | d :: ds, vs, n, h, hb, k, hk => by
    simp only [usesAll, List.mem_append] at hk
    simp only [ResolvesAll] at h
    obtain ⟨v, vs', rfl, h1, h2⟩ := h
    rcases hk with hk | hk
    · exact uses_lt defs objs ho d v n h1 (hb v (by simp)) k hk
    · exact usesAll_lt defs objs ho ds vs' n h2 (fun w hw => hb w (by simp [hw])) k hk
end

/-- **C47 (what is accepted).** A document whose definitions all have a type, with names different for all parameters and recorders and given only to
top-level definitions, is loaded exactly when every name used is defined and no definition refers to itself, directly or through others. -/
theorem C47_accepted (defs : List (Key × Data)) (hw : WellFormed defs) (hnames : (defs.map fun e => e.1.name).Nodup)
    (hplain : ∀ e ∈ defs, Plain e.2) (nodes : List Data) (hnodes : PlainAll nodes) (fuel : Nat)
    (hfuel : weight defs + sizeAll nodes ≤ fuel) :
    (∃ r, loadAll fuel defs nodes = .ok r) ↔ ∃ rank, Acyclic defs nodes rank := by
  have hinv : Inv defs ⟨[], defs⟩ := ⟨fun e he => he, hnames, by simp, by simp⟩
  have huntyped : ∀ k, ¬ Untyped defs k := by
    rintro k ⟨kind, name, args, hm⟩
    have := hplain _ hm
    simp [Plain] at this
  constructor
  · rintro ⟨⟨vs, s⟩, h⟩
    unfold loadAll at h
    cases h1 : loadComponents fuel .recorder defs.length ⟨[], defs⟩ with
    | error e => rw [h1] at h; cases h
    | ok r =>
      obtain ⟨l, s1⟩ := r
      rw [h1] at h
      simp only at h
      obtain ⟨-, -, a3, -⟩ := loadComponents_step defs hw fuel .recorder defs.length ⟨[], defs⟩ l s1 (fun e he => he) (Nat.le_refl _) h1
      obtain ⟨i1, st1, -⟩ := loadComponents_inv defs hw hplain fuel .recorder _ _ l s1 hinv (Nat.le_refl _) h1
      cases h2 : loadComponents fuel .param defs.length s1 with
      | error e => rw [h2] at h; cases h
      | ok r =>
        obtain ⟨l', s2⟩ := r
        rw [h2] at h
        cases l' with
        | true => cases h
        | false =>
          simp only at h
          obtain ⟨-, b2, b3, -⟩ := loadComponents_step defs hw fuel .param _ _ false s2 (fun e he => i1.sub e he) st1.sub.length_le h2
          obtain ⟨i2, st2, -⟩ := loadComponents_inv defs hw hplain fuel .param _ _ false s2 i1 st1.sub.length_le h2
          obtain ⟨st3, c2, c3⟩ := loadList_step defs (load fuel) (load_step defs hw fuel) nodes s2 vs s i2.sub h
          obtain ⟨i3, -⟩ := loadList_inv defs (load fuel) (load_sub fuel) (load_inv defs hw hplain fuel) nodes s2 vs s i2 hnodes h
          have st := (st1.trans st2).trans st3
          have ho : Ordered s.objs := st.ordered (by intro i o hi; simp at hi)
          have hu : Unique s.objs := st.unique (by simp [Unique])
          have hdone : ∀ e ∈ defs, Done defs s.objs e := by
            intro e he
            rcases (st1.trans st2).done e he with h3 | ⟨v, h3⟩
            · exfalso
              cases hk : e.1.kind with
              | param => exact b3 e h3 hk
              | recorder => exact a3 e (b2.subset h3) hk
            · exact ⟨v, h3.mono _ _ _ st3.pre _ _⟩
          have hrank : ∀ (i : Nat) (o : Obj) (k : Key), s.objs[i]? = some o → o.kind = k.kind → o.name = some k.name → find s.objs k = some i := by
            intro i o k hi hk hn
            obtain ⟨j, hj⟩ := Option.isSome_iff_exists.1 (find_isSome hi hk hn)
            obtain ⟨o', ho', hk', hn'⟩ := find_some _ _ _ hj
            rw [hj, unique_index hu hi ho' hn hn']
          have hknown : ∀ (j : Nat) (o : Obj) (k : Key), s.objs[j]? = some o → o.kind = k.kind → o.name = some k.name → k ∈ defs.map Prod.fst := by
            intro j o k hj hk hn
            have := i3.origin o (List.mem_of_getElem? hj) _ hn
            rw [hk] at this
            exact this
          have hdefs : ∀ e ∈ defs, ∀ k ∈ uses e.2, k ∈ defs.map Prod.fst ∧
              (find s.objs k).getD 0 < (find s.objs e.1).getD 0 := by
            intro e he k hk
            obtain ⟨v, hv⟩ := hdone e he
            obtain ⟨typed, args, hd⟩ := hw.named e he
            have hp := hplain e he
            rw [hd] at hv hp hk
            simp only [Plain] at hp
            obtain ⟨rfl, -⟩ := hp
            simp only [Resolves] at hv
            obtain ⟨i, values, rfl, hi, hr⟩ := hv
            simp only [uses] at hk
            rcases usesAll_lt defs s.objs ho args values i hr (by
              intro w hw
              cases w with
              | lit => trivial
              | obj j => exact ho i _ hi j hw) k hk with ⟨j, o, hj, h3, h4, h5⟩ | h3
            · refine ⟨hknown j o k h3 h4 h5, ?_⟩
              rw [hrank j o k h3 h4 h5, hrank i _ e.1 hi rfl rfl]
              exact hj
            · exact absurd h3 (huntyped k)
          refine ⟨fun k => (find s.objs k).getD 0, fun e he k hk => (hdefs e he k hk).1, ?_, fun e he k hk => (hdefs e he k hk).2⟩
          intro k hk
          rcases usesAll_lt defs s.objs ho nodes vs s.objs.length c2 c3 k hk with ⟨j, o, -, h3, h4, h5⟩ | h3
          · exact hknown j o k h3 h4 h5
          · exact absurd h3 (huntyped k)
  · rintro ⟨rank, ha⟩
    have hacyclic : ∀ e ∈ defs, ∀ k ∈ uses e.2, k ∈ defs.map Prod.fst ∧ rank k < rank e.1 :=
      fun e he k hk => ⟨ha.known e he k hk, ha.rank e he k hk⟩
    have hends := C47_ends defs nodes fuel hfuel
    cases hr : loadAll fuel defs nodes with
    | ok r => exact ⟨r, rfl⟩
    | error e =>
      exfalso
      rw [hr] at hends
      have hne : e ≠ .running := fun h => hends (by rw [h])
      apply hne
      unfold loadAll at hr
      have hav : ∀ r, Available defs rank r ⟨[], defs⟩ := fun r e he _ => Or.inl he
      cases h1 : loadComponents fuel .recorder defs.length ⟨[], defs⟩ with
      | error e' =>
        rw [h1] at hr
        simp only [Except.error.injEq] at hr
        subst hr
        exact loadComponents_total defs hw hplain rank hacyclic fuel _ _ _ _ hinv (Nat.le_refl _) hav h1
      | ok r =>
        obtain ⟨l, s1⟩ := r
        rw [h1] at hr
        simp only at hr
        obtain ⟨i1, st1, -⟩ := loadComponents_inv defs hw hplain fuel .recorder _ _ l s1 hinv (Nat.le_refl _) h1
        have hav1 : ∀ r, Available defs rank r s1 := fun r => (hav r).step hw hplain st1
        cases h2 : loadComponents fuel .param defs.length s1 with
        | error e' =>
          rw [h2] at hr
          simp only [Except.error.injEq] at hr
          subst hr
          exact loadComponents_total defs hw hplain rank hacyclic fuel _ _ _ _ i1 st1.sub.length_le hav1 h2
        | ok r =>
          obtain ⟨l', s2⟩ := r
          rw [h2] at hr
          obtain ⟨i2, st2, rfl⟩ := loadComponents_inv defs hw hplain fuel .param _ _ l' s2 i1 st1.sub.length_le h2
          simp only at hr
          have hbound : ∃ r, ∀ k ∈ usesAll nodes, rank k < r := by
            generalize usesAll nodes = ks
            induction ks with
            | nil => exact ⟨0, by simp⟩
            | cons k ks ih =>
              obtain ⟨r, hr⟩ := ih
              refine ⟨max r (rank k + 1), ?_⟩
              intro k' hk'
              rcases List.mem_cons.1 hk' with rfl | hk'
              · omega
              · have := hr k' hk'; omega
          obtain ⟨r, hr'⟩ := hbound
          exact loadList_total defs hw hplain rank fuel r (load_total defs hw hplain rank hacyclic fuel r) nodes s2 e i2 hnodes
            (fun k hk => ⟨ha.nodes k hk, hr' k hk⟩) ((hav1 r).step hw hplain st2) hr

/-- **C47 (order).** Whether such a document is loaded does not depend on the order of its definitions. -/
theorem C47_order (defs defs' : List (Key × Data)) (hperm : defs.Perm defs') (hw : WellFormed defs) (hnames : (defs.map fun e => e.1.name).Nodup)
    (hplain : ∀ e ∈ defs, Plain e.2) (nodes : List Data) (hnodes : PlainAll nodes) (fuel : Nat)
    (hfuel : weight defs + sizeAll nodes ≤ fuel) :
    (∃ r, loadAll fuel defs nodes = .ok r) ↔ ∃ r, loadAll fuel defs' nodes = .ok r := by
  have hw' : WellFormed defs' := ⟨(hperm.map _).nodup_iff.1 hw.nodup, fun e he => hw.named e (hperm.mem_iff.2 he)⟩
  have hweight : weight defs' = weight defs := ((hperm.map _).sum_eq).symm
  rw [C47_accepted defs hw hnames hplain nodes hnodes fuel hfuel, C47_accepted defs' hw' ((hperm.map _).nodup_iff.1 hnames)
    (fun e he => hplain e (hperm.mem_iff.2 he)) nodes hnodes fuel (by omega)]
  have key : ∀ rank (a b : List (Key × Data)), a.Perm b → Acyclic a nodes rank → Acyclic b nodes rank := by
    intro rank a b hab h
    refine ⟨?_, ?_, ?_⟩
    · intro e he k hk
      exact (hab.map Prod.fst).mem_iff.1 (h.known e (hab.mem_iff.2 he) k hk)
    · intro k hk
      exact (hab.map Prod.fst).mem_iff.1 (h.nodes k hk)
    · intro e he k hk
      exact h.rank e (hab.mem_iff.2 he) k hk
  exact ⟨fun ⟨rank, h⟩ => ⟨rank, key rank _ _ hperm h⟩, fun ⟨rank, h⟩ => ⟨rank, key rank _ _ hperm.symm h⟩⟩

private def p (n : String) : Key := ⟨.param, n⟩
private def param (n : String) (args : List Data) : Key × Data := (p n, .mapping .param true (some n) args)

/-- Three parameters, one of them used twice and defined last but one, one with an inline parameter, and a recorder. -/
private def exDefs : List (Key × Data) :=
  [param "a" [.ref (p "b"), .mapping .param true none [.ref (p "c")], .literal], param "b" [.ref (p "c")], param "c" [],
    (⟨.recorder, "r"⟩, .mapping .recorder true (some "r") [.ref (p "b")])]

example : WellFormed exDefs ∧ (exDefs.map fun e => e.1.name).Nodup ∧ (∀ e ∈ exDefs, Plain e.2) ∧ PlainAll [.ref (p "a"), .ref (p "c")] ∧
    Acyclic exDefs [.ref (p "a"), .ref (p "c")]
      (fun k => if k = p "c" then 0 else if k = p "b" then 1 else 2) ∧ weight exDefs + sizeAll [.ref (p "a"), .ref (p "c")] ≤ 20 := by
  refine ⟨⟨by decide +kernel, ?_⟩, by decide +kernel, ?_, ?_, ⟨?_, ?_, ?_⟩, ?_⟩
  · simp [exDefs, param, p]
  · simp [exDefs, param, Plain, PlainAll]
  · simp [PlainAll, Plain]
  · simp [exDefs, param, uses, usesAll, p]
  · simp [exDefs, param, usesAll, uses, p]
  · simp [exDefs, param, uses, usesAll, p]
  · decide +kernel

example : loadAll 20 exDefs [.ref (p "a"), .ref (p "c")] =
    .ok ([.obj 4, .obj 0], ⟨[⟨.param, some "c", []⟩, ⟨.param, some "b", [.obj 0]⟩, ⟨.recorder, some "r", [.obj 1]⟩,
      ⟨.param, none, [.obj 0]⟩, ⟨.param, some "a", [.obj 1, .obj 3, .lit]⟩], []⟩) := by rfl

/-- A circle of references. -/
example : loadAll 20 [param "a" [.ref (p "b")], param "b" [.ref (p "a")]] [] = .error (.unknown (p "b")) := by rfl

/-- **C47 fails for definitions without a type.** A named parameter without `type` (plain values) is refused when nothing refers to it and when two
things refer to it, but taken silently as a number — no parameter with that name exists — when exactly one other definition refers to it. -/
theorem C47_untyped_fails :
    let x : Key × Data := (p "x", .mapping .param false (some "x") [])
    loadAll 20 [x] [] = .error .literalNamed ∧
    loadAll 20 [x, param "a" [.ref (p "x")], param "b" [.ref (p "x")]] [] = .error (.unknown (p "x")) ∧
    loadAll 20 [x, param "a" [.ref (p "x")]] [] = .ok ([], ⟨[⟨.param, some "a", [.lit]⟩], []⟩) := ⟨rfl, rfl, rfl⟩

end Verif.References

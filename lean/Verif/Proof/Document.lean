import Mathlib.Data.List.Forall2
import Mathlib.Data.List.Infix
import Mathlib.Data.List.Nodup
import Mathlib.Data.List.Perm.Subperm
import Verif.Spec.Document
/-! Helper lemmas about loading a document. -/

namespace Verif.Document

theorem find_named {l : List Node} {x : String} {i : Nat} : find l x = some i ↔ Named l x i := by
  unfold find Named
  rw [List.findIdx?_eq_some_iff_getElem]
  constructor
  · rintro ⟨h, h1, h2⟩
    refine ⟨?_, ?_⟩
    · rw [List.getElem?_eq_getElem h]
      simpa using h1
    · intro j hj
      have := h2 j hj
      rw [List.getElem?_eq_getElem (by omega)]
      simpa using this
  · rintro ⟨h1, h2⟩
    have h : i < l.length := by
      by_contra hc
      rw [List.getElem?_eq_none (by omega)] at h1
      cases h1
    refine ⟨h, ?_, ?_⟩
    · rw [List.getElem?_eq_getElem h] at h1
      simpa using h1
    · intro j hj
      have := h2 j hj
      rw [List.getElem?_eq_getElem (by omega)] at this
      simpa using this

theorem find_append {l e : List Node} {x : String} {i : Nat} (h : find l x = some i) : find (l ++ e) x = some i := by
  unfold find at *
  rw [List.findIdx?_append, h]
  rfl

theorem find_prefix {l l' : List Node} {x : String} {i : Nat} (hp : l <+: l') (h : find l x = some i) : find l' x = some i := by
  obtain ⟨e, rfl⟩ := hp
  exact find_append h

theorem find_get {l : List Node} {x : String} {i : Nat} (h : find l x = some i) : ∃ n, l[i]? = some n ∧ n.name = x := by
  have := (find_named.1 h).1
  rcases hl : l[i]? with _ | n
  · rw [hl] at this; cases this
  · rw [hl] at this
    exact ⟨n, rfl, by simpa using this⟩

theorem find_isSome {l : List Node} {x : String} : (∃ i, find l x = some i) ↔ x ∈ l.map Node.name := by
  constructor
  · rintro ⟨i, h⟩
    obtain ⟨n, h1, h2⟩ := find_get h
    exact List.mem_map.2 ⟨n, List.mem_of_getElem? h1, h2⟩
  · intro h
    rcases hf : find l x with _ | i
    · unfold find at hf
      rw [List.findIdx?_eq_none_iff] at hf
      obtain ⟨n, hn, hx⟩ := List.mem_map.1 h
      have := hf n hn
      simp [hx] at this
    · exact ⟨i, rfl⟩

theorem find_none {l : List Node} {x : String} : find l x = none ↔ x ∉ l.map Node.name := by
  rw [← find_isSome]
  rcases find l x with _ | i <;> simp

theorem tops_append (l e : List Node) : tops (l ++ e) = tops l ++ tops e := by
  unfold tops; simp

theorem mem_tops {l : List Node} {x : String} : x ∈ tops l ↔ ∃ n ∈ l, n.sub = false ∧ n.name = x := by
  unfold tops
  simp only [List.mem_map, List.mem_filter, Bool.not_eq_true', and_assoc]

theorem tops_sub_names {l : List Node} {x : String} (h : x ∈ tops l) : x ∈ l.map Node.name := by
  obtain ⟨n, hn, _, hx⟩ := mem_tops.1 h
  exact List.mem_map.2 ⟨n, hn, hx⟩

/-- A sub-node. -/
def subNode (x : String) : Node := ⟨x, true, none, [], false⟩

theorem addSubs_spec (xs : List String) : ∀ (l l' : List Node) (e : Option Error), addSubs l xs = (l', e) →
    ∃ ys, ys <+: xs ∧ l' = l ++ ys.map subNode ∧ (∀ y ∈ ys, y ∉ tops l) ∧ (e = none → ys = xs) := by
  induction xs with
  | nil =>
    intro l l' e h
    unfold addSubs at h
    cases h
    exact ⟨[], List.prefix_refl _, by simp, by simp, fun _ => rfl⟩
  | cons x xs ih =>
    intro l l' e h
    unfold addSubs at h
    split at h
    · cases h
      exact ⟨[], List.nil_prefix, by simp, by simp, fun h => by cases h⟩
    · rename_i hx
      obtain ⟨ys, h1, h2, h3, h4⟩ := ih _ _ _ h
      refine ⟨x :: ys, (List.prefix_cons_inj _).2 h1, ?_, ?_, ?_⟩
      · rw [h2]; simp [subNode]
      · intro y hy
        rcases List.mem_cons.1 hy with rfl | hy
        · exact hx
        · intro hc
          refine h3 y hy ?_
          rw [tops_append]
          exact List.mem_append_left _ hc
      · intro he
        rw [h4 he]

theorem addSubs_ok (xs : List String) : ∀ (l : List Node), (∀ x ∈ xs, x ∉ tops l) → addSubs l xs = (l ++ xs.map subNode, none) := by
  induction xs with
  | nil => intro l _; unfold addSubs; simp
  | cons x xs ih =>
    intro l h
    unfold addSubs
    rw [if_neg (h x (by simp)), ih]
    · simp [subNode]
    · intro y hy
      rw [tops_append]
      intro hc
      rcases List.mem_append.1 hc with hc | hc
      · exact h y (by simp [hy]) hc
      · simp [tops] at hc

theorem tops_subs (xs : List String) : tops (xs.map subNode) = [] := by
  unfold tops
  rw [List.map_eq_nil_iff, List.filter_eq_nil_iff]
  intro a ha
  obtain ⟨x, _, rfl⟩ := List.mem_map.1 ha
  simp [subNode]

/-- What `pre_load_node` gives for a name: the node that has the name, or a node made from the entry of that name. -/
def Got (base : List Node) (todo : List (String × Def)) (l : List Node) (x : String) (i : Nat) : Prop :=
  find l x = some i ∨ ((∃ d, todo.lookup x = some d) ∧ base.length ≤ i ∧ ∃ n, l[i]? = some n ∧ n.name = x ∧ n.sub = false)

theorem get_prefix {l l' : List Node} {i : Nat} {n : Node} (hp : l <+: l') (h : l[i]? = some n) : l'[i]? = some n := by
  obtain ⟨e, rfl⟩ := hp
  rw [List.getElem?_append_left]
  · exact h
  · by_contra hc
    rw [List.getElem?_eq_none (by omega)] at h
    cases h

theorem Got.mono {base todo l l' x i} (hp : l <+: l') (h : Got base todo l x i) : Got base todo l' x i := by
  rcases h with h | ⟨h1, h2, n, h3, h4⟩
  · exact Or.inl (find_prefix hp h)
  · exact Or.inr ⟨h1, h2, n, get_prefix hp h3, h4⟩

theorem Got.lt {base todo l x i} (h : Got base todo l x i) : ∃ n, l[i]? = some n ∧ n.name = x := by
  rcases h with h | ⟨_, _, n, h3, h4, _⟩
  · exact find_get h
  · exact ⟨n, h3, h4⟩

theorem refs_mono {base todo l l'} (hp : l <+: l') {rs : List String} {is : List Nat} (h : List.Forall₂ (Got base todo l) rs is) :
    List.Forall₂ (Got base todo l') rs is := h.imp fun _ _ g => g.mono hp

/-- What is true of the nodes at any moment of the first stage. -/
structure Inv (base : List Node) (todo : List (String × Def)) (l : List Node) : Prop where
  pre : base <+: l
  top : ∀ k n, base.length ≤ k → l[k]? = some n → n.sub = false →
    ∃ d, n.entry = some d ∧ todo.lookup n.name = some d ∧ n.pending = true ∧ List.Forall₂ (Got base todo l) d.refs n.refs ∧ (∀ i ∈ n.refs, i < k) ∧
      d.registered = true ∧ d.accepts = true ∧ (∀ x ∈ d.subs, ∃ j, base.length ≤ j ∧ l[j]? = some (subNode x)) ∧ n.name ∉ tops (l.take k)
  sub : ∀ k n, base.length ≤ k → l[k]? = some n → n.sub = true →
    n = subNode n.name ∧ n.name ∉ tops (l.take k) ∧ ∃ x d, todo.lookup x = some d ∧ n.name ∈ d.subs

theorem forall₂_mem_right {α β : Type} {R : α → β → Prop} {xs : List α} {ys : List β} (h : List.Forall₂ R xs ys) {y : β} (hy : y ∈ ys) :
    ∃ x ∈ xs, R x y := by
  induction h with
  | nil => cases hy
  | cons h1 _ ih =>
    rcases List.mem_cons.1 hy with rfl | hy
    · exact ⟨_, by simp, h1⟩
    · obtain ⟨x, hx, hr⟩ := ih hy
      exact ⟨x, by simp [hx], hr⟩

theorem forall₂_mem_left {α β : Type} {R : α → β → Prop} {xs : List α} {ys : List β} (h : List.Forall₂ R xs ys) {x : α} (hx : x ∈ xs) :
    ∃ y ∈ ys, R x y := by
  induction h with
  | nil => cases hx
  | cons h1 _ ih =>
    rcases List.mem_cons.1 hx with rfl | hx
    · exact ⟨_, by simp, h1⟩
    · obtain ⟨y, hy, hr⟩ := ih hx
      exact ⟨y, by simp [hy], hr⟩

theorem Inv.snocSub {base todo l} (h : Inv base todo l) (x : String) (hx : x ∉ tops l) (hd : ∃ y d, todo.lookup y = some d ∧ x ∈ d.subs) :
    Inv base todo (l ++ [subNode x]) := by
  have hlen : base.length ≤ l.length := h.pre.length_le
  refine ⟨h.pre.trans (List.prefix_append _ _), ?_, ?_⟩
  · intro k n hk hn hs
    rcases Nat.lt_or_ge k l.length with hkl | hkl
    · rw [List.getElem?_append_left hkl] at hn
      obtain ⟨d, a1, a2, a3, a4, a5, a6, a7, a8, a9⟩ := h.top k n hk hn hs
      refine ⟨d, a1, a2, a3, refs_mono (List.prefix_append _ _) a4, a5, a6, a7, ?_, ?_⟩
      · intro y hy
        obtain ⟨j, hj, hj'⟩ := a8 y hy
        refine ⟨j, hj, ?_⟩
        rw [List.getElem?_append_left]
        · exact hj'
        · by_contra hc
          rw [List.getElem?_eq_none (by omega)] at hj'
          cases hj'
      · rw [List.take_append_of_le_length (by omega)]
        exact a9
    · have : k = l.length := by
        by_contra hc
        rw [List.getElem?_eq_none (by simp; omega)] at hn
        cases hn
      subst this
      simp at hn
      subst hn
      cases hs
  · intro k n hk hn hs
    rcases Nat.lt_or_ge k l.length with hkl | hkl
    · rw [List.getElem?_append_left hkl] at hn
      obtain ⟨a1, a2, a3⟩ := h.sub k n hk hn hs
      refine ⟨a1, ?_, a3⟩
      rw [List.take_append_of_le_length (by omega)]
      exact a2
    · have : k = l.length := by
        by_contra hc
        rw [List.getElem?_eq_none (by simp; omega)] at hn
        cases hn
      subst this
      simp at hn
      subst hn
      refine ⟨rfl, ?_, hd⟩
      have : (l ++ [subNode x]).take l.length = l := by simp
      rw [this]
      exact hx

theorem Inv.subs {base todo} (xs : List String) : ∀ {l}, Inv base todo l → (∀ x ∈ xs, x ∉ tops l) → (∃ y d, todo.lookup y = some d ∧ ∀ x ∈ xs, x ∈ d.subs) →
    Inv base todo (l ++ xs.map subNode) := by
  induction xs with
  | nil => intro l h _ _; simpa using h
  | cons x xs ih =>
    intro l h hx ⟨y, d, hd, hs⟩
    have h1 := h.snocSub x (hx x (by simp)) ⟨y, d, hd, hs x (by simp)⟩
    have h2 := ih h1 (by
      intro z hz hc
      rw [tops_append] at hc
      rcases List.mem_append.1 hc with hc | hc
      · exact hx z (by simp [hz]) hc
      · simp [tops, subNode] at hc) ⟨y, d, hd, fun z hz => hs z (by simp [hz])⟩
    simpa using h2

theorem Inv.snocTop {base todo l} (h : Inv base todo l) (name : String) (d : Def) (refs : List Nat) (hd : todo.lookup name = some d)
    (hr : List.Forall₂ (Got base todo l) d.refs refs) (h1 : d.registered = true) (h2 : d.accepts = true)
    (h3 : ∀ x ∈ d.subs, ∃ j, base.length ≤ j ∧ l[j]? = some (subNode x)) (h4 : name ∉ tops l) :
    Inv base todo (l ++ [⟨name, false, some d, refs, true⟩]) := by
  have hlen : base.length ≤ l.length := h.pre.length_le
  refine ⟨h.pre.trans (List.prefix_append _ _), ?_, ?_⟩
  · intro k n hk hn hs
    rcases Nat.lt_or_ge k l.length with hkl | hkl
    · rw [List.getElem?_append_left hkl] at hn
      obtain ⟨d, a1, a2, a3, a4, a5, a6, a7, a8, a9⟩ := h.top k n hk hn hs
      refine ⟨d, a1, a2, a3, refs_mono (List.prefix_append _ _) a4, a5, a6, a7, ?_, ?_⟩
      · intro y hy
        obtain ⟨j, hj, hj'⟩ := a8 y hy
        refine ⟨j, hj, ?_⟩
        rw [List.getElem?_append_left]
        · exact hj'
        · by_contra hc
          rw [List.getElem?_eq_none (by omega)] at hj'
          cases hj'
      · rw [List.take_append_of_le_length (by omega)]
        exact a9
    · have : k = l.length := by
        by_contra hc
        rw [List.getElem?_eq_none (by simp; omega)] at hn
        cases hn
      subst this
      simp at hn
      subst hn
      refine ⟨d, rfl, hd, rfl, refs_mono (List.prefix_append _ _) hr, ?_, h1, h2, ?_, by simpa using h4⟩
      · intro i hi
        obtain ⟨r, _, hr'⟩ := forall₂_mem_right hr hi
        obtain ⟨n, hn, _⟩ := hr'.lt
        by_contra hc
        rw [List.getElem?_eq_none (by omega)] at hn
        cases hn
      · intro y hy
        obtain ⟨j, hj, hj'⟩ := h3 y hy
        refine ⟨j, hj, ?_⟩
        rw [List.getElem?_append_left]
        · exact hj'
        · by_contra hc
          rw [List.getElem?_eq_none (by omega)] at hj'
          cases hj'
  · intro k n hk hn hs
    rcases Nat.lt_or_ge k l.length with hkl | hkl
    · rw [List.getElem?_append_left hkl] at hn
      obtain ⟨a1, a2, a3⟩ := h.sub k n hk hn hs
      refine ⟨a1, ?_, a3⟩
      rw [List.take_append_of_le_length (by omega)]
      exact a2
    · have : k = l.length := by
        by_contra hc
        rw [List.getElem?_eq_none (by simp; omega)] at hn
        cases hn
      subst this
      simp at hn
      subst hn
      cases hs

theorem construct_inv {base todo l} (h : Inv base todo l) (name : String) (d : Def) (refs : List Nat) (hd : todo.lookup name = some d)
    (hr : List.Forall₂ (Got base todo l) d.refs refs) (h1 : d.registered = true) (l' : List Node) (r : Except Error Nat)
    (hc : construct l name d refs = (l', r)) :
    Inv base todo l' ∧ l <+: l' ∧ (∀ i, r = .ok i → Got base todo l' name i) := by
  unfold construct at hc
  split at hc
  · rename_i ha
    rcases hs : addSubs l d.subs with ⟨l1, e⟩
    rw [hs] at hc
    obtain ⟨ys, b1, b2, b3, b4⟩ := addSubs_spec _ _ _ _ hs
    have i1 : Inv base todo l1 := by
      rw [b2]
      exact h.subs ys b3 ⟨name, d, hd, fun x hx => b1.subset hx⟩
    have p1 : l <+: l1 := by rw [b2]; exact List.prefix_append _ _
    cases e with
    | some e =>
      simp only at hc
      cases hc
      exact ⟨i1, p1, fun i hi => by cases hi⟩
    | none =>
      simp only at hc
      have b5 := b4 rfl
      split at hc
      · cases hc
        exact ⟨i1, p1, fun i hi => by cases hi⟩
      · rename_i ht
        cases hc
        refine ⟨i1.snocTop name d refs hd (refs_mono p1 hr) h1 ha ?_ ht, p1.trans (List.prefix_append _ _), ?_⟩
        · intro x hx
          rw [← b5] at hx
          obtain ⟨j, hj, hj'⟩ := List.mem_iff_getElem.1 hx
          refine ⟨l.length + j, by have := h.pre.length_le; omega, ?_⟩
          rw [b2, List.getElem?_append_right (by omega)]
          simp [hj, hj']
        · intro i hi
          cases hi
          exact Or.inr ⟨⟨d, hd⟩, by have := h.pre.length_le; rw [b2]; simp; omega, _, by simp; rfl, rfl, rfl⟩
  · cases hc
    exact ⟨h, List.prefix_refl _, fun i hi => by cases hi⟩

theorem each_inv {base todo} {f : State → String → State × Except Error Nat}
    (hf : ∀ s x, Inv base todo s.nodes → Inv base todo (f s x).1.nodes ∧ s.nodes <+: (f s x).1.nodes ∧ ∀ i, (f s x).2 = .ok i → Got base todo (f s x).1.nodes x i) :
    ∀ (xs : List String) (s : State), Inv base todo s.nodes →
      Inv base todo (each f s xs).1.nodes ∧ s.nodes <+: (each f s xs).1.nodes ∧ ∀ is, (each f s xs).2 = .ok is → List.Forall₂ (Got base todo (each f s xs).1.nodes) xs is := by
  intro xs
  induction xs with
  | nil =>
    intro s h
    unfold each
    refine ⟨h, List.prefix_refl _, ?_⟩
    intro is hi
    cases hi
    exact List.Forall₂.nil
  | cons x xs ih =>
    intro s h
    obtain ⟨a1, a2, a3⟩ := hf s x h
    unfold each
    rcases hx : f s x with ⟨s1, r⟩
    rw [hx] at a1 a2 a3
    cases r with
    | error e => exact ⟨a1, a2, fun is hi => by cases hi⟩
    | ok i =>
      obtain ⟨b1, b2, b3⟩ := ih s1 a1
      simp only
      rcases hy : each f s1 xs with ⟨s2, r⟩
      rw [hy] at b1 b2 b3
      cases r with
      | error e => exact ⟨b1, a2.trans b2, fun is hi => by cases hi⟩
      | ok is =>
        refine ⟨b1, a2.trans b2, ?_⟩
        intro js hj
        cases hj
        exact List.Forall₂.cons ((a3 i rfl).mono b2) (b3 is rfl)

theorem preLoad_inv {base todo} : ∀ (fuel : Nat) (s : State) (x : String), Inv base todo s.nodes →
    Inv base todo (preLoad todo fuel s x).1.nodes ∧ s.nodes <+: (preLoad todo fuel s x).1.nodes ∧
      ∀ i, (preLoad todo fuel s x).2 = .ok i → Got base todo (preLoad todo fuel s x).1.nodes x i := by
  intro fuel
  induction fuel with
  | zero => intro s x h; unfold preLoad; exact ⟨h, List.prefix_refl _, fun i hi => by cases hi⟩
  | succ fuel ih =>
    intro s x h
    unfold preLoad
    rcases hf : find s.nodes x with _ | i
    · simp only
      rcases ht : todo.lookup x with _ | d
      · exact ⟨h, List.prefix_refl _, fun i hi => by cases hi⟩
      · simp only
        split
        · exact ⟨h, List.prefix_refl _, fun i hi => by cases hi⟩
        · split
          · rename_i hreg
            have he := each_inv ih d.refs ⟨s.nodes, x :: s.started⟩ h
            rcases hy : each (preLoad todo fuel) ⟨s.nodes, x :: s.started⟩ d.refs with ⟨s1, r⟩
            rw [hy] at he
            obtain ⟨b1, b2, b3⟩ := he
            cases r with
            | error e => exact ⟨b1, b2, fun i hi => by cases hi⟩
            | ok refs =>
              simp only
              rcases hc : construct s1.nodes x d refs with ⟨l', r⟩
              obtain ⟨c1, c2, c3⟩ := construct_inv b1 x d refs ht (b3 refs rfl) hreg l' r hc
              exact ⟨c1, b2.trans c2, c3⟩
          · exact ⟨h, List.prefix_refl _, fun i hi => by cases hi⟩
    · refine ⟨h, List.prefix_refl _, ?_⟩
      intro j hj
      cases hj
      exact Or.inl hf

/-- A node apart from its `__parameters_to_load`. -/
def strip (n : Node) : Node := { n with pending := false }

theorem find_strip (l : List Node) (x : String) : find (l.map strip) x = find l x := by
  unfold find
  rw [List.findIdx?_map]
  rfl

theorem find_same {l l' : List Node} (h : l'.map strip = l.map strip) (x : String) : find l' x = find l x := by
  rw [← find_strip l', h, find_strip]

theorem get_same {l l' : List Node} (h : l'.map strip = l.map strip) (k : Nat) : (l'[k]?).map strip = (l[k]?).map strip := by
  rw [← List.getElem?_map, h, List.getElem?_map]

theorem finalise_spec (l l' : List Node) (x : String) (e : Option Error) (h : finalise l x = (l', e)) :
    (e ≠ none ∧ l' = l) ∨ (e = none ∧ ∃ k n, find l x = some k ∧ l[k]? = some n ∧ n.pending = true ∧ (n.entry.map Def.params).getD true = true ∧ l' = l.set k (strip n)) := by
  unfold finalise at h
  rcases hf : find l x with _ | k
  · rw [hf] at h
    cases h
    exact Or.inl ⟨by simp, rfl⟩
  · rw [hf] at h
    simp only at h
    rcases hk : l[k]? with _ | n
    · rw [hk] at h
      cases h
      exact Or.inl ⟨by simp, rfl⟩
    · rw [hk] at h
      simp only at h
      split at h
      · rename_i hp
        split at h
        · rename_i hq
          cases h
          exact Or.inr ⟨rfl, k, n, rfl, hk, hp, hq, rfl⟩
        · cases h
          exact Or.inl ⟨by simp, rfl⟩
      · cases h
        exact Or.inl ⟨by simp, rfl⟩

theorem set_strip {l : List Node} {k : Nat} {n : Node} (h : l[k]? = some n) : (l.set k (strip n)).map strip = l.map strip := by
  apply List.ext_getElem?
  intro j
  rw [List.getElem?_map, List.getElem?_map, List.getElem?_set]
  have hk : k < l.length := by
    by_contra hc
    rw [List.getElem?_eq_none (by omega)] at h
    cases h
  split
  · rename_i hj
    subst hj
    rw [h]
    simp [strip]
  · rfl

theorem finaliseAll_spec (xs : List String) : ∀ (l l' : List Node) (e : Option Error), finaliseAll l xs = (l', e) →
    l'.map strip = l.map strip ∧ (∀ (k : Nat) (n : Node), l[k]? = some n → n.pending = false → l'[k]? = some n) ∧
    (e = none → ∀ x ∈ xs, ∃ k n, find l x = some k ∧ l[k]? = some n ∧ n.pending = true ∧ (n.entry.map Def.params).getD true = true ∧ l'[k]? = some (strip n)) := by
  induction xs with
  | nil =>
    intro l l' e h
    unfold finaliseAll at h
    cases h
    exact ⟨rfl, fun k n h _ => h, fun _ x hx => by cases hx⟩
  | cons x xs ih =>
    intro l l' e h
    unfold finaliseAll at h
    rcases hf : finalise l x with ⟨l1, e1⟩
    rw [hf] at h
    rcases finalise_spec _ _ _ _ hf with ⟨h1, h2⟩ | ⟨h1, k, n, a1, a2, a3, a4, a5⟩
    · cases e1 with
      | none => exact absurd rfl h1
      | some e1 =>
        cases h
        subst h2
        exact ⟨rfl, fun k n h _ => h, fun h => by cases h⟩
    · subst h1
      simp only at h
      obtain ⟨b1, b2, b3⟩ := ih _ _ _ h
      have hst : l1.map strip = l.map strip := by rw [a5]; exact set_strip a2
      have hk : k < l.length := by
        by_contra hc
        rw [List.getElem?_eq_none (by omega)] at a2
        cases a2
      have hk1 : l1[k]? = some (strip n) := by rw [a5]; simp [hk]
      have hne : ∀ j, j ≠ k → l1[j]? = l[j]? := by
        intro j hj
        rw [a5, List.getElem?_set_ne (by omega)]
      refine ⟨b1.trans hst, ?_, ?_⟩
      · intro j m hj hm
        have : j ≠ k := by
          rintro rfl
          rw [a2] at hj
          cases hj
          rw [a3] at hm
          cases hm
        exact b2 j m (by rw [hne j this]; exact hj) hm
      · intro he y hy
        rcases List.mem_cons.1 hy with rfl | hy
        · exact ⟨k, n, a1, a2, a3, a4, b2 k _ hk1 rfl⟩
        · obtain ⟨j, m, c1, c2, c3, c4, c5⟩ := b3 he y hy
          have : j ≠ k := by
            rintro rfl
            rw [hk1] at c2
            cases c2
            cases c3
          exact ⟨j, m, by rw [← find_same hst]; exact c1, by rw [← hne j this]; exact c2, c3, c4, c5⟩

theorem finaliseAll_ok (xs : List String) : ∀ (l : List Node), xs.Nodup →
    (∀ x ∈ xs, ∃ k n, find l x = some k ∧ l[k]? = some n ∧ n.pending = true ∧ (n.entry.map Def.params).getD true = true) → (finaliseAll l xs).2 = none := by
  induction xs with
  | nil => intro l _ _; rfl
  | cons x xs ih =>
    intro l hn h
    obtain ⟨k, n, a1, a2, a3, a4⟩ := h x (by simp)
    have hfin : finalise l x = (l.set k (strip n), none) := by
      unfold finalise
      rw [a1]
      simp only [a2, a3, a4, if_true]
      rfl
    unfold finaliseAll
    rw [hfin]
    simp only
    have hst := set_strip a2
    refine ih _ (List.nodup_cons.1 hn).2 ?_
    intro y hy
    obtain ⟨j, m, c1, c2, c3, c4⟩ := h y (by simp [hy])
    have : k ≠ j := by
      rintro rfl
      obtain ⟨n', hn', hx⟩ := find_get a1
      obtain ⟨n'', hn'', hy'⟩ := find_get c1
      rw [hn'] at hn''
      cases hn''
      rw [hx] at hy'
      subst hy'
      exact (List.nodup_cons.1 hn).1 hy
    exact ⟨j, m, by rw [find_same hst]; exact c1, by rw [List.getElem?_set_ne this]; exact c2, c3, c4⟩

theorem connectAll_spec (accepts : Edge → Bool) (es : List Edge) : ∀ (g g' : Graph) (r : Option Error), connectAll accepts g es = (g', r) →
    g'.nodes = g.nodes ∧ ∃ done calls, done <+: es ∧ g'.calls = g.calls ++ calls ∧ List.Forall₂ (Joins g.nodes) done calls ∧ (r = none → done = es ∧ ∀ e ∈ es, accepts e = true) := by
  induction es with
  | nil =>
    intro g g' r h
    unfold connectAll at h
    cases h
    exact ⟨rfl, [], [], List.prefix_refl _, by simp, List.Forall₂.nil, fun _ => ⟨rfl, by simp⟩⟩
  | cons e es ih =>
    intro g g' r h
    unfold connectAll at h
    have stop : ∀ err : Error, (g, some err) = (g', r) → g'.nodes = g.nodes ∧ ∃ done calls, done <+: e :: es ∧ g'.calls = g.calls ++ calls ∧
        List.Forall₂ (Joins g.nodes) done calls ∧ (r = none → done = e :: es ∧ ∀ e' ∈ e :: es, accepts e' = true) := by
      intro err h
      cases h
      exact ⟨rfl, [], [], List.nil_prefix, by simp, List.Forall₂.nil, fun h => by cases h⟩
    split at h
    · exact stop _ h
    · rename_i slots hs
      rcases h1 : find g.nodes e.source with _ | i
      · rw [h1] at h
        exact stop _ h
      · rw [h1] at h
        simp only at h
        rcases h2 : find g.nodes e.target with _ | j
        · rw [h2] at h
          exact stop _ h
        · rw [h2] at h
          simp only at h
          split at h
          · rename_i ha
            obtain ⟨b1, done, calls, b2, b3, b4, b5⟩ := ih _ _ _ h
            refine ⟨b1, e :: done, ⟨i, j, slots⟩ :: calls, (List.prefix_cons_inj _).2 b2, by rw [b3]; simp, List.Forall₂.cons ?_ b4, ?_⟩
            · refine ⟨find_named.1 h1, find_named.1 h2, ?_⟩
              unfold Edge.pair at hs
              split at hs
              · rename_i hes
                cases hs
                exact Or.inl ⟨hes, rfl⟩
              · rename_i a b hes
                cases hs
                exact Or.inr ⟨a, b, hes, rfl⟩
              · cases hs
            · intro hr
              obtain ⟨c1, c2⟩ := b5 hr
              refine ⟨by rw [c1], ?_⟩
              intro e' he'
              rcases List.mem_cons.1 he' with rfl | he'
              · exact ha
              · exact c2 e' he'
          · exact stop _ h

theorem connectAll_ok (accepts : Edge → Bool) (es : List Edge) : ∀ (g : Graph),
    (∀ e ∈ es, accepts e = true ∧ (e.slots.length = 0 ∨ e.slots.length = 2) ∧ ∀ x, x = e.source ∨ x = e.target → x ∈ g.nodes.map Node.name) →
    (connectAll accepts g es).2 = none := by
  induction es with
  | nil => intro g _; rfl
  | cons e es ih =>
    intro g h
    obtain ⟨a1, a2, a3⟩ := h e (by simp)
    obtain ⟨i, hi⟩ := find_isSome.2 (a3 e.source (Or.inl rfl))
    obtain ⟨j, hj⟩ := find_isSome.2 (a3 e.target (Or.inr rfl))
    unfold connectAll
    have hs : ∃ sl, e.pair = some sl := by
      unfold Edge.pair
      rcases hh : e.slots with _ | ⟨a, _ | ⟨b, _ | ⟨c, r⟩⟩⟩
      · exact ⟨_, rfl⟩
      · rw [hh] at a2; simp at a2
      · exact ⟨_, rfl⟩
      · rw [hh] at a2; simp at a2
    obtain ⟨sl, hs⟩ := hs
    simp only [hs, hi, hj, a1, if_true]
    exact ih _ fun e' he' => h e' (by simp [he'])

theorem mem_keys {todo : List (String × Def)} {x : String} : (∃ d, todo.lookup x = some d) ↔ x ∈ todo.map Prod.fst := by
  induction todo with
  | nil => simp
  | cons e todo ih =>
    rw [List.lookup_cons]
    by_cases h : x = e.1
    · subst h; simp
    · have : (x == e.1) = false := by simpa using h
      rw [this]
      simp only [List.map_cons, List.mem_cons, h, false_or]
      exact ih

theorem lookup_mem {todo : List (String × Def)} {x : String} {d : Def} (h : todo.lookup x = some d) : (x, d) ∈ todo := by
  induction todo with
  | nil => cases h
  | cons e todo ih =>
    rw [List.lookup_cons] at h
    by_cases hx : x = e.1
    · subst hx
      simp at h
      subst h
      simp
    · have : (x == e.1) = false := by simpa using hx
      rw [this] at h
      exact List.mem_cons_of_mem _ (ih h)

theorem mem_lookup {todo : List (String × Def)} (hn : (todo.map Prod.fst).Nodup) {x : String} {d : Def} (h : (x, d) ∈ todo) : todo.lookup x = some d := by
  induction todo with
  | nil => cases h
  | cons e todo ih =>
    rw [List.lookup_cons]
    rw [List.map_cons, List.nodup_cons] at hn
    rcases List.mem_cons.1 h with rfl | h
    · simp
    · have hx : x ≠ e.1 := by
        rintro rfl
        exact hn.1 (List.mem_map.2 ⟨_, h, rfl⟩)
      have : (x == e.1) = false := by simpa using hx
      rw [this]
      exact ih hn.2 h

/-- What is true of the entries whose `type` has been taken. -/
def Begun (todo : List (String × Def)) (st : List String) : Prop := st.Nodup ∧ ∀ x ∈ st, x ∈ todo.map Prod.fst

theorem Begun.length {todo st} (h : Begun todo st) : st.length ≤ todo.length := by
  have := (List.subperm_of_subset h.1 h.2).length_le
  simpa using this

theorem each_fuel {todo} {f : State → String → State × Except Error Nat} {b : Nat}
    (hf : ∀ s x, Begun todo s.started → b ≤ s.started.length →
      (f s x).2 ≠ .error .running ∧ Begun todo (f s x).1.started ∧ s.started.length ≤ (f s x).1.started.length) :
    ∀ (xs : List String) (s : State), Begun todo s.started → b ≤ s.started.length →
      (each f s xs).2 ≠ .error .running ∧ Begun todo (each f s xs).1.started ∧ s.started.length ≤ (each f s xs).1.started.length := by
  intro xs
  induction xs with
  | nil => intro s h _; unfold each; exact ⟨by simp, h, Nat.le_refl _⟩
  | cons x xs ih =>
    intro s h hb
    obtain ⟨a1, a2, a3⟩ := hf s x h hb
    unfold each
    rcases hx : f s x with ⟨s1, r⟩
    rw [hx] at a1 a2 a3
    cases r with
    | error e => exact ⟨by simpa using a1, a2, a3⟩
    | ok i =>
      obtain ⟨b1, b2, b3⟩ := ih s1 a2 (Nat.le_trans hb a3)
      simp only
      rcases hy : each f s1 xs with ⟨s2, r⟩
      rw [hy] at b1 b2 b3
      cases r with
      | error e => exact ⟨by simpa using b1, b2, Nat.le_trans a3 b3⟩
      | ok is => exact ⟨by simp, b2, Nat.le_trans a3 b3⟩

theorem construct_running (l : List Node) (x : String) (d : Def) (refs : List Nat) : (construct l x d refs).2 ≠ .error .running := by
  unfold construct
  split
  · rcases h : addSubs l d.subs with ⟨l1, e⟩
    cases e with
    | some e =>
      simp only
      have : ∀ (xs : List String) (l l1 : List Node) (e : Error), addSubs l xs = (l1, some e) → e = .nameUsed := by
        intro xs
        induction xs with
        | nil => intro l l1 e h; unfold addSubs at h; cases h
        | cons x xs ih =>
          intro l l1 e h
          unfold addSubs at h
          split at h
          · cases h; rfl
          · exact ih _ _ _ h
      rw [this _ _ _ _ h]
      simp
    | none =>
      simp only
      split <;> simp
  · simp

theorem preLoad_fuel {todo} : ∀ (fuel : Nat) (s : State) (x : String), Begun todo s.started → todo.length + 1 - fuel ≤ s.started.length →
    (preLoad todo fuel s x).2 ≠ .error .running ∧ Begun todo (preLoad todo fuel s x).1.started ∧ s.started.length ≤ (preLoad todo fuel s x).1.started.length := by
  intro fuel
  induction fuel with
  | zero =>
    intro s x h hb
    have := h.length
    omega
  | succ fuel ih =>
    intro s x h hb
    unfold preLoad
    rcases hf : find s.nodes x with _ | i
    · simp only
      rcases ht : todo.lookup x with _ | d
      · exact ⟨by simp, h, Nat.le_refl _⟩
      · simp only
        split
        · exact ⟨by simp, h, Nat.le_refl _⟩
        · rename_i hx
          have h' : Begun todo (x :: s.started) := by
            refine ⟨List.nodup_cons.2 ⟨hx, h.1⟩, ?_⟩
            intro y hy
            rcases List.mem_cons.1 hy with rfl | hy
            · exact mem_keys.1 ⟨d, ht⟩
            · exact h.2 y hy
          split
          · have he := each_fuel (b := todo.length + 1 - fuel) (todo := todo) (f := preLoad todo fuel) ih d.refs ⟨s.nodes, x :: s.started⟩ h' (by simp; omega)
            rcases hy : each (preLoad todo fuel) ⟨s.nodes, x :: s.started⟩ d.refs with ⟨s1, r⟩
            rw [hy] at he
            obtain ⟨b1, b2, b3⟩ := he
            simp only [List.length_cons] at b3
            cases r with
            | error e => exact ⟨by simpa using b1, b2, by simp only; omega⟩
            | ok refs =>
              simp only
              exact ⟨construct_running _ _ _ _, b2, by omega⟩
          · exact ⟨by simp, h', by simp⟩
    · exact ⟨by simp, h, Nat.le_refl _⟩

/-- What the first stage needs. -/
structure Ready (base : List Node) (todo : List (String × Def)) (rank : String → Nat) : Prop where
  keys : (todo.map Prod.fst).Nodup
  good : ∀ x d, todo.lookup x = some d → d.registered = true ∧ d.accepts = true
  subs : ∀ x d, todo.lookup x = some d → ∀ y ∈ d.subs, y ∉ todo.map Prod.fst ∧ y ∉ tops base
  refs : ∀ x d, todo.lookup x = some d → ∀ r ∈ d.refs, r ∈ base.map Node.name ∨ r ∈ todo.map Prod.fst ∧ rank r < rank x

/-- What is left behind by a successful call. -/
structure Post (todo : List (String × Def)) (s s' : State) : Prop where
  begun : Begun todo s'.started
  sub : ∀ x ∈ s.started, x ∈ s'.started
  len : s.started.length ≤ s'.started.length
  found : ∀ x ∈ s'.started, x ∈ s'.nodes.map Node.name ∨ x ∈ s.started
  tops : ∀ x ∈ tops s'.nodes, x ∈ tops s.nodes ∨ x ∉ s.started

/-- A name that can be loaded: the node is there, or nothing that has been begun and not finished ranks as low. -/
def Can (todo : List (String × Def)) (rank : String → Nat) (s : State) (x : String) : Prop :=
  x ∈ s.nodes.map Node.name ∨ x ∈ todo.map Prod.fst ∧ ∀ y ∈ s.started, y ∈ s.nodes.map Node.name ∨ rank x < rank y

theorem names_prefix {l l' : List Node} (h : l <+: l') {x : String} (hx : x ∈ l.map Node.name) : x ∈ l'.map Node.name := by
  obtain ⟨e, rfl⟩ := h
  rw [List.map_append]
  exact List.mem_append_left _ hx

theorem Can.mono {todo rank s s' x} (h : Can todo rank s x) (hp : s.nodes <+: s'.nodes) (hq : Post todo s s') : Can todo rank s' x := by
  rcases h with h | ⟨h1, h2⟩
  · exact Or.inl (names_prefix hp h)
  · refine Or.inr ⟨h1, ?_⟩
    intro y hy
    rcases hq.found y hy with hy | hy
    · exact Or.inl hy
    · rcases h2 y hy with h | h
      · exact Or.inl (names_prefix hp h)
      · exact Or.inr h

theorem Post.refl {todo s} (h : Begun todo s.started) : Post todo s s :=
  ⟨h, fun _ h => h, Nat.le_refl _, fun _ h => Or.inr h, fun _ h => Or.inl h⟩

theorem Post.trans {todo s s' s''} (hp : s'.nodes <+: s''.nodes) (h : Post todo s s') (h' : Post todo s' s'') : Post todo s s'' := by
  refine ⟨h'.begun, fun x hx => h'.sub x (h.sub x hx), Nat.le_trans h.len h'.len, ?_, ?_⟩
  · intro x hx
    rcases h'.found x hx with hx | hx
    · exact Or.inl hx
    · rcases h.found x hx with hx | hx
      · exact Or.inl (names_prefix hp hx)
      · exact Or.inr hx
  · intro x hx
    rcases h'.tops x hx with hx | hx
    · exact h.tops x hx
    · exact Or.inr fun hc => hx (h.sub x hc)

theorem each_ok {base todo rank} {f : State → String → State × Except Error Nat} {b : Nat}
    (hi : ∀ s x, Inv base todo s.nodes → Inv base todo (f s x).1.nodes ∧ s.nodes <+: (f s x).1.nodes ∧ ∀ i, (f s x).2 = .ok i → Got base todo (f s x).1.nodes x i)
    (hf : ∀ s x, Inv base todo s.nodes → Begun todo s.started → b ≤ s.started.length → Can todo rank s x → (∃ i, (f s x).2 = .ok i) ∧ Post todo s (f s x).1) :
    ∀ (xs : List String) (s : State), Inv base todo s.nodes → Begun todo s.started → b ≤ s.started.length → (∀ x ∈ xs, Can todo rank s x) →
      (∃ is, (each f s xs).2 = .ok is) ∧ Post todo s (each f s xs).1 := by
  intro xs
  induction xs with
  | nil => intro s _ h _ _; unfold each; exact ⟨⟨[], rfl⟩, Post.refl h⟩
  | cons x xs ih =>
    intro s hin h hb hx
    obtain ⟨⟨i, a1⟩, a2⟩ := hf s x hin h hb (hx x (by simp))
    obtain ⟨c1, c2, _⟩ := hi s x hin
    unfold each
    rcases hfx : f s x with ⟨s1, r⟩
    rw [hfx] at a1 a2 c1 c2
    simp only at a1
    subst a1
    simp only
    obtain ⟨⟨is, b1⟩, b2⟩ := ih s1 c1 a2.begun (Nat.le_trans hb a2.len) fun y hy => (hx y (by simp [hy])).mono c2 a2
    have d2 := (each_inv hi xs s1 c1).2.1
    rcases hy : each f s1 xs with ⟨s2, r⟩
    rw [hy] at b1 b2 d2
    simp only at b1
    subst b1
    exact ⟨⟨_, rfl⟩, a2.trans d2 b2⟩

theorem Inv.tops_names {base todo l} (h : Inv base todo l) {x : String} (hx : x ∈ tops l) : x ∈ tops base ∨ x ∈ todo.map Prod.fst := by
  obtain ⟨n, hn, hs, rfl⟩ := mem_tops.1 hx
  obtain ⟨k, hk, hk'⟩ := List.mem_iff_getElem.1 hn
  have hk'' : l[k]? = some n := by rw [List.getElem?_eq_getElem hk, hk']
  rcases Nat.lt_or_ge k base.length with hb | hb
  · obtain ⟨e, rfl⟩ := h.pre
    rw [List.getElem?_append_left hb] at hk''
    exact Or.inl (mem_tops.2 ⟨n, List.mem_of_getElem? hk'', hs, rfl⟩)
  · obtain ⟨d, _, hd, _⟩ := h.top k n hb hk'' hs
    exact Or.inr (mem_keys.1 ⟨d, hd⟩)

theorem preLoad_ok {base todo rank} (hr : Ready base todo rank) : ∀ (fuel : Nat) (s : State) (x : String), Inv base todo s.nodes → Begun todo s.started →
    todo.length + 1 - fuel ≤ s.started.length → Can todo rank s x → (∃ i, (preLoad todo fuel s x).2 = .ok i) ∧ Post todo s (preLoad todo fuel s x).1 := by
  intro fuel
  induction fuel with
  | zero =>
    intro s x _ h hb _
    have := h.length
    omega
  | succ fuel ih =>
    intro s x hin h hb hc
    unfold preLoad
    rcases hf : find s.nodes x with _ | i
    · rcases hc with hc | ⟨hc, hst⟩
      · exact absurd hc (find_none.1 hf)
      obtain ⟨d, hd⟩ := mem_keys.2 hc
      have hx : x ∉ s.started := by
        intro hx
        rcases hst x hx with hx | hx
        · exact find_none.1 hf hx
        · omega
      obtain ⟨hreg, hacc⟩ := hr.good x d hd
      simp only [hd, hx, if_false, hreg, if_true]
      have h' : Begun todo (x :: s.started) := by
        refine ⟨List.nodup_cons.2 ⟨hx, h.1⟩, ?_⟩
        intro y hy
        rcases List.mem_cons.1 hy with rfl | hy
        · exact hc
        · exact h.2 y hy
      have hcan : ∀ r ∈ d.refs, Can todo rank ⟨s.nodes, x :: s.started⟩ r := by
        intro r hr'
        rcases hr.refs x d hd r hr' with hb' | ⟨hk, hlt⟩
        · exact Or.inl (names_prefix hin.pre hb')
        · refine Or.inr ⟨hk, ?_⟩
          intro y hy
          rcases List.mem_cons.1 hy with rfl | hy
          · exact Or.inr hlt
          · rcases hst y hy with h1 | h1
            · exact Or.inl h1
            · exact Or.inr (by omega)
      obtain ⟨⟨is, a1⟩, a2⟩ := each_ok (base := base) (rank := rank) (b := todo.length + 1 - fuel) (preLoad_inv fuel) ih d.refs ⟨s.nodes, x :: s.started⟩ hin h' (by simp; omega) hcan
      obtain ⟨c1, c2, _⟩ := each_inv (preLoad_inv fuel) d.refs ⟨s.nodes, x :: s.started⟩ hin
      rcases hy : each (preLoad todo fuel) ⟨s.nodes, x :: s.started⟩ d.refs with ⟨s1, r⟩
      rw [hy] at a1 a2 c1 c2
      simp only at a1
      subst a1
      simp only
      have hsub : ∀ y ∈ d.subs, y ∉ tops s1.nodes := by
        intro y hy hc'
        obtain ⟨e1, e2⟩ := hr.subs x d hd y hy
        rcases c1.tops_names hc' with h1 | h1
        · exact e2 h1
        · exact e1 h1
      have hself : x ∉ tops (s1.nodes ++ d.subs.map subNode) := by
        rw [tops_append, tops_subs, List.append_nil]
        intro hc'
        rcases a2.tops x hc' with h1 | h1
        · exact find_none.1 hf (tops_sub_names h1)
        · exact h1 (by simp)
      have hcon : construct s1.nodes x d is = (s1.nodes ++ d.subs.map subNode ++ [⟨x, false, some d, is, true⟩], .ok (s1.nodes ++ d.subs.map subNode).length) := by
        unfold construct
        rw [if_pos hacc, addSubs_ok _ _ hsub]
        simp only [if_neg hself]
      rw [hcon]
      refine ⟨⟨_, rfl⟩, a2.begun, fun y hy => a2.sub y (by simp [hy]), ?_, ?_, ?_⟩
      · have := a2.len
        simp only [List.length_cons] at this
        simp only
        omega
      · intro y hy
        rcases a2.found y hy with h1 | h1
        · left
          simp only [List.map_append, List.mem_append]
          exact Or.inl (Or.inl h1)
        · rcases List.mem_cons.1 h1 with rfl | h1
          · left; simp
          · exact Or.inr h1
      · intro y hy
        simp only at hy
        rw [tops_append, tops_append, tops_subs, List.append_nil] at hy
        rcases List.mem_append.1 hy with h1 | h1
        · rcases a2.tops y h1 with h1 | h1
          · exact Or.inl h1
          · exact Or.inr fun hc' => h1 (by simp [hc'])
        · simp [tops] at h1
          subst h1
          exact Or.inr hx
    · exact ⟨⟨i, rfl⟩, Post.refl h⟩

end Verif.Document

import Mathlib.Data.List.Perm.Basic
import Verif.Proof.Document
/-!
C98: loading a document gives a model with exactly the nodes and edges of the document, or an exception, and what it depends on.
-/

namespace Verif.Document

private theorem dictSet_new (x : String) (v : Def) : ∀ d : List (String × Def), x ∉ d.map Prod.fst → dictSet d x v = d ++ [(x, v)] := by
  intro d
  induction d with
  | nil => intro _; rfl
  | cons e d ih =>
    intro h
    rw [List.map_cons, List.mem_cons, not_or] at h
    unfold dictSet
    rw [if_neg (fun hc => h.1 hc.symm), ih h.2]
    rfl

private theorem collect_from : ∀ (ns d : List (String × Def)), ((d ++ ns).map Prod.fst).Nodup → ns.foldl (fun d e => dictSet d e.1 e.2) d = d ++ ns := by
  intro ns
  induction ns with
  | nil => intro d _; simp
  | cons e ns ih =>
    intro d h
    rw [List.foldl_cons, dictSet_new, ih]
    · simp
    · simpa using h
    · rw [List.map_append, List.nodup_append] at h
      intro hc
      exact h.2.2 _ hc _ (by simp) rfl

private theorem collect_nodup {ns : List (String × Def)} (h : (ns.map Prod.fst).Nodup) : collect ns = ns := by
  have := collect_from ns [] (by simpa using h)
  simpa [collect] using this

private theorem dictSet_twice (x : String) (v w : Def) : ∀ d : List (String × Def), dictSet (dictSet d x v) x w = dictSet d x w := by
  intro d
  induction d with
  | nil => simp [dictSet]
  | cons e d ih =>
    by_cases h : e.1 = x
    · simp [dictSet, h]
    · simp [dictSet, h, ih]

private theorem start_inv (base : List Node) (todo : List (String × Def)) : Inv base todo base := by
  refine ⟨List.prefix_refl _, ?_, ?_⟩ <;>
  · intro k n hk hn
    rw [List.getElem?_eq_none hk] at hn
    cases hn

/-- The three stages of a successful load. -/
private theorem stages {accepts : Edge → Bool} {g g' : Graph} {doc : Doc} (h : load accepts g doc = (g', none)) :
    ∃ l l', Inv g.nodes (collect doc.nodes) l ∧ doc.components = true ∧ (∀ x ∈ (collect doc.nodes).map Prod.fst, x ∈ l.map Node.name) ∧
      finaliseAll l ((collect doc.nodes).map Prod.fst) = (l', none) ∧ connectAll accepts ⟨l', g.calls⟩ doc.edges = (g', none) := by
  unfold load at h
  simp only at h
  have hi := each_inv (preLoad_inv ((collect doc.nodes).length + 1)) ((collect doc.nodes).map Prod.fst) ⟨g.nodes, []⟩ (start_inv g.nodes (collect doc.nodes))
  rcases he : each (preLoad (collect doc.nodes) ((collect doc.nodes).length + 1)) ⟨g.nodes, []⟩ ((collect doc.nodes).map Prod.fst) with ⟨s, r⟩
  rw [he] at h hi
  cases r with
  | error e => cases h
  | ok is =>
    simp only at h
    split at h
    · rename_i hc
      rcases hf : finaliseAll s.nodes ((collect doc.nodes).map Prod.fst) with ⟨l', e⟩
      rw [hf] at h
      cases e with
      | some e => cases h
      | none =>
        refine ⟨s.nodes, l', hi.1, hc, ?_, hf, h⟩
        intro x hx
        obtain ⟨i, _, hg⟩ := forall₂_mem_left (hi.2.2 is rfl) hx
        obtain ⟨n, hn, hnx⟩ := hg.lt
        exact List.mem_map.2 ⟨n, List.mem_of_getElem? hn, hnx⟩
    · cases h

/-- The node of an entry, once the second stage has gone through. -/
private theorem entry_node {base l l' : List Node} {todo : List (String × Def)} (hi : Inv base todo l) (hb : ∀ n ∈ base, n.pending = false)
    (hf : finaliseAll l (todo.map Prod.fst) = (l', none)) {x : String} (hx : x ∈ todo.map Prod.fst) :
    ∃ k n d, base.length ≤ k ∧ find l x = some k ∧ l[k]? = some n ∧ n.name = x ∧ n.sub = false ∧ n.entry = some d ∧ todo.lookup x = some d ∧ d.params = true ∧ l'[k]? = some (strip n) := by
  obtain ⟨k, n, a1, a2, a3, a4, a5⟩ := (finaliseAll_spec _ _ _ _ hf).2.2 rfl x hx
  have hname : n.name = x := by
    obtain ⟨m, h1, h2⟩ := find_get a1
    rw [a2] at h1
    cases h1
    exact h2
  have hk : base.length ≤ k := by
    by_contra hc
    obtain ⟨e, rfl⟩ := hi.pre
    rw [List.getElem?_append_left (by omega)] at a2
    rw [hb n (List.mem_of_getElem? a2)] at a3
    cases a3
  have hs : n.sub = false := by
    rcases hs : n.sub with _ | _
    · rfl
    · obtain ⟨h1, _⟩ := hi.sub k n hk a2 hs
      rw [h1] at a3
      cases a3
  obtain ⟨d, e1, e2, _⟩ := hi.top k n hk a2 hs
  rw [e1] at a4
  exact ⟨k, n, d, hk, a1, a2, hname, hs, e1, by rw [← hname]; exact e2, by simpa using a4, a5⟩

private theorem top_unique {base l : List Node} {todo : List (String × Def)} (hi : Inv base todo l) {j k : Nat} {m n : Node} (hj : l[j]? = some m) (hk : l[k]? = some n)
    (hm : m.sub = false) (hn : n.sub = false) (hbj : base.length ≤ j) (hbk : base.length ≤ k) (he : m.name = n.name) : j = k := by
  rcases Nat.lt_trichotomy j k with h | h | h
  · obtain ⟨d, _, _, _, _, _, _, _, _, h9⟩ := hi.top k n hbk hk hn
    exact absurd (mem_tops.2 ⟨m, List.mem_of_getElem? (i := j) (by rw [List.getElem?_take_of_lt h]; exact hj), hm, he⟩) h9
  · exact h
  · obtain ⟨d, _, _, _, _, _, _, _, _, h9⟩ := hi.top j m hbj hj hm
    exact absurd (mem_tops.2 ⟨n, List.mem_of_getElem? (i := k) (by rw [List.getElem?_take_of_lt h]; exact hk), hn, he.symm⟩) h9

/-- Sub-nodes never have the name of an entry. -/
private theorem sub_name {base l l' : List Node} {todo : List (String × Def)} (hi : Inv base todo l) (hb : ∀ n ∈ base, n.pending = false)
    (hf : finaliseAll l (todo.map Prod.fst) = (l', none)) {k : Nat} {n : Node} (hk : base.length ≤ k) (hn : l[k]? = some n) (hs : n.sub = true) :
    n.name ∉ todo.map Prod.fst := by
  intro hx
  obtain ⟨j, m, d, b1, b2, b3, b4, b5, _⟩ := entry_node hi hb hf hx
  obtain ⟨_, h2, _⟩ := hi.sub k n hk hn hs
  rcases Nat.lt_trichotomy j k with h | h | h
  · exact h2 (mem_tops.2 ⟨m, List.mem_of_getElem? (i := j) (by rw [List.getElem?_take_of_lt h]; exact b3), b5, b4⟩)
  · subst h
    rw [b3] at hn
    cases hn
    rw [b5] at hs
    cases hs
  · refine (find_named.1 b2).2 k h ?_
    rw [hn]
    rfl

private theorem base_name {base l l' : List Node} {todo : List (String × Def)} (hi : Inv base todo l) (hb : ∀ n ∈ base, n.pending = false)
    (hf : finaliseAll l (todo.map Prod.fst) = (l', none)) {n : Node} (hn : n ∈ base) : n.name ∉ todo.map Prod.fst := by
  intro hx
  obtain ⟨j, m, d, b1, b2, b3, b4, b5, _⟩ := entry_node hi hb hf hx
  obtain ⟨k, hk, hk'⟩ := List.mem_iff_getElem.1 hn
  refine (find_named.1 b2).2 k (by omega) ?_
  rw [get_prefix hi.pre (i := k) (n := n) (by rw [List.getElem?_eq_getElem hk, hk'])]
  rfl

/-- A successful load gives exactly what the document says. -/
theorem C98_nodes (accepts : Edge → Bool) (g g' : Graph) (doc : Doc) (hn : doc.names.Nodup) (hb : ∀ n ∈ g.nodes, n.pending = false)
    (h : load accepts g doc = (g', none)) : Loaded g g' doc := by
  obtain ⟨l, l', hi, hcomp, hall, hf, hc⟩ := stages h
  rw [collect_nodup hn] at hi hall hf
  obtain ⟨f1, f2, f3⟩ := finaliseAll_spec _ _ _ _ hf
  obtain ⟨c1, done, calls, c2, c3, c4, c5⟩ := connectAll_spec _ _ _ _ _ hc
  simp only at c1 c3 c4
  have hlen : l'.length = l.length := by simpa using congrArg List.length f1
  have hold : g.nodes <+: l' := by
    rw [List.prefix_iff_getElem?]
    intro i hil
    refine f2 i _ ?_ (hb _ (List.getElem_mem hil))
    exact get_prefix hi.pre (List.getElem?_eq_getElem hil)
  -- nodes of `l'` are those of `l` without what is to be loaded
  have hback : ∀ (k : Nat) (n' : Node), l'[k]? = some n' → ∃ n, l[k]? = some n ∧ strip n = strip n' := by
    intro k n' hk
    have := get_same f1 k
    rw [hk] at this
    rcases hl : l[k]? with _ | n
    · rw [hl] at this; cases this
    · rw [hl] at this
      simp only [Option.map_some, Option.some.injEq] at this
      exact ⟨n, rfl, this.symm⟩
  have hdone : ∀ (k : Nat) (n' : Node), l'[k]? = some n' → n'.pending = false := by
    intro k n' hk
    obtain ⟨n, hn1, hn2⟩ := hback k n' hk
    rcases hp : n.pending with _ | _
    · rw [f2 k n hn1 hp] at hk
      cases hk
      exact hp
    · rcases Nat.lt_or_ge k g.nodes.length with hkb | hkb
      · obtain ⟨e, rfl⟩ := hi.pre
        rw [List.getElem?_append_left hkb] at hn1
        rw [hb n (List.mem_of_getElem? hn1)] at hp
        cases hp
      · have hs : n.sub = false := by
          rcases hs : n.sub with _ | _
          · rfl
          · obtain ⟨h1, _⟩ := hi.sub k n hkb hn1 hs
            rw [h1] at hp
            cases hp
        obtain ⟨d, _, d2, _⟩ := hi.top k n hkb hn1 hs
        obtain ⟨j, m, d', b1, b2, b3, b4, b5, b6, b7, b8, b9⟩ := entry_node hi hb hf (mem_keys.1 ⟨d, d2⟩)
        have hjk := top_unique hi b3 hn1 b5 hs b1 hkb b4
        subst hjk
        rw [b9] at hk
        cases hk
        rfl
  refine ⟨by rw [c1]; exact hold, ?_, ?_, ?_, ?_⟩
  · rw [c1]
    have hdrop : ∀ n', n' ∈ l'.drop g.nodes.length ↔ ∃ k, g.nodes.length ≤ k ∧ l'[k]? = some n' := by
      intro n'
      rw [List.mem_iff_getElem?]
      constructor
      · rintro ⟨i, hi'⟩
        rw [List.getElem?_drop] at hi'
        exact ⟨_, by omega, hi'⟩
      · rintro ⟨k, hk, hk'⟩
        refine ⟨k - g.nodes.length, ?_⟩
        rw [List.getElem?_drop]
        rw [show g.nodes.length + (k - g.nodes.length) = k by omega]
        exact hk'
    refine (List.perm_ext_iff_of_nodup ?_ ?_).2 ?_
    · rw [List.Nodup, List.pairwise_map]
      refine List.Pairwise.imp ?_ (?_ : List.Pairwise (fun a b : Node => a.name ≠ b.name) _)
      · intro a b hab hc
        exact hab (Prod.mk.inj hc).1
      rw [List.pairwise_filter, List.pairwise_iff_getElem]
      intro a b ha hb' hab hsa hsb heq
      rw [List.length_drop] at ha hb'
      rw [List.getElem_drop] at heq hsa
      rw [List.getElem_drop] at heq hsb
      obtain ⟨na, na1, na2⟩ := hback _ _ (List.getElem?_eq_getElem (l := l') (i := g.nodes.length + a) (by omega))
      obtain ⟨nb, nb1, nb2⟩ := hback _ _ (List.getElem?_eq_getElem (l := l') (i := g.nodes.length + b) (by omega))
      have ea := congrArg Node.name na2
      have eb := congrArg Node.name nb2
      have sa := congrArg Node.sub na2
      have sb := congrArg Node.sub nb2
      simp only [strip] at ea eb sa sb
      have := top_unique hi na1 nb1 (by rw [sa]; simpa using hsa) (by rw [sb]; simpa using hsb) (by omega) (by omega) (by rw [ea, eb]; exact heq)
      omega
    · rw [List.Nodup, List.pairwise_map]
      refine List.Pairwise.imp ?_ (?_ : List.Pairwise (fun a b : String × Def => a.1 ≠ b.1) _)
      · intro a b hab hc
        exact hab (Prod.mk.inj hc).1
      have := hn
      unfold Doc.names at this
      rwa [List.Nodup, List.pairwise_map] at this
    · rintro ⟨x, e⟩
      simp only [List.mem_map, List.mem_filter, hdrop]
      constructor
      · rintro ⟨n', ⟨⟨k, hk, hk'⟩, hs⟩, heq⟩
        obtain ⟨n, n1, n2⟩ := hback k n' hk'
        have en := congrArg Node.name n2
        have es := congrArg Node.sub n2
        have ee := congrArg Node.entry n2
        simp only [strip] at en es ee
        obtain ⟨d, d1, d2, _⟩ := hi.top k n hk n1 (by rw [es]; simpa using hs)
        refine ⟨(n.name, d), lookup_mem d2, ?_⟩
        rw [← heq, en, ← ee, d1]
      · rintro ⟨⟨y, d⟩, hmem, heq⟩
        simp only [Prod.mk.injEq] at heq
        obtain ⟨rfl, rfl⟩ := heq
        obtain ⟨k, n, d', b1, b2, b3, b4, b5, b6, b7, b8, b9⟩ := entry_node hi hb hf (List.mem_map.2 ⟨_, hmem, rfl⟩ : y ∈ doc.nodes.map Prod.fst)
        rw [mem_lookup hn hmem] at b7
        cases b7
        exact ⟨strip n, ⟨⟨k, b1, b9⟩, by simp [strip, b5]⟩, by simp [strip, b4, b6]⟩
  · rw [c1]
    intro n' hn' d hd
    rw [List.mem_iff_getElem?] at hn'
    obtain ⟨i, hi'⟩ := hn'
    rw [List.getElem?_drop] at hi'
    obtain ⟨n, n1, n2⟩ := hback _ n' hi'
    have er := congrArg Node.refs n2
    have ee := congrArg Node.entry n2
    simp only [strip] at er ee
    have hs : n.sub = false := by
      rcases hs : n.sub with _ | _
      · rfl
      · obtain ⟨h1, _⟩ := hi.sub _ n (by omega) n1 hs
        rw [h1] at ee
        rw [← ee] at hd
        cases hd
    obtain ⟨d', d1, d2, _, d4, _⟩ := hi.top _ n (by omega) n1 hs
    rw [← ee, d1] at hd
    cases hd
    rw [← er]
    refine d4.imp ?_
    intro x j hg
    rw [← find_named, find_same f1]
    rcases hg with hg | ⟨⟨dx, hdx⟩, hbj, m, hm, hmx, hms⟩
    · exact hg
    · obtain ⟨k, n', d', b1, b2, b3, b4, b5, _⟩ := entry_node hi hb hf (mem_keys.1 ⟨dx, hdx⟩)
      have := top_unique hi hm b3 hms b5 hbj b1 (by rw [hmx, b4])
      rw [this]
      exact b2
  · rw [c1]
    intro n' hn'
    obtain ⟨k, hk⟩ := List.mem_iff_getElem?.1 hn'
    exact hdone k n' hk
  · refine ⟨calls, c3, ?_⟩
    rw [c1]
    have := (c5 rfl).1
    rw [← this]
    exact c4

/-- A document that fits is loaded. -/
theorem C98_loads (accepts : Edge → Bool) (g : Graph) (doc : Doc) (hn : doc.names.Nodup) (h : Fits accepts g doc) : (load accepts g doc).2 = none := by
  obtain ⟨rank, hrank⟩ := h.order
  have hn' : (doc.nodes.map Prod.fst).Nodup := hn
  have hready : Ready g.nodes doc.nodes rank := by
    refine ⟨hn', ?_, ?_, ?_⟩
    · intro x d hd
      have := h.entries _ (lookup_mem hd)
      exact ⟨this.1, this.2.1⟩
    · intro x d hd y hy
      obtain ⟨a1, a2⟩ := h.subs _ (lookup_mem hd) y hy
      refine ⟨a1, ?_⟩
      intro hc
      obtain ⟨n, n1, n2, n3⟩ := mem_tops.1 hc
      exact a2 n n1 n2 n3
    · intro x d hd r hr
      rcases h.refs _ (lookup_mem hd) r hr with h1 | h1
      · exact Or.inr ⟨h1, hrank _ (lookup_mem hd) r hr h1⟩
      · exact Or.inl h1
  unfold load
  rw [collect_nodup hn']
  simp only
  have hbeg : Begun doc.nodes ([] : List String) := ⟨List.nodup_nil, fun x hx => by cases hx⟩
  obtain ⟨⟨is, a1⟩, a2⟩ := each_ok (base := g.nodes) (rank := rank) (b := 0) (preLoad_inv (doc.nodes.length + 1))
    (fun s x b1 b2 b3 b4 => preLoad_ok hready (doc.nodes.length + 1) s x b1 b2 (by omega) b4) (doc.nodes.map Prod.fst) ⟨g.nodes, []⟩ (start_inv _ _) hbeg (Nat.zero_le _)
    (fun x hx => Or.inr ⟨hx, fun y hy => by cases hy⟩)
  obtain ⟨c1, c2, c3⟩ := each_inv (preLoad_inv (doc.nodes.length + 1)) (doc.nodes.map Prod.fst) ⟨g.nodes, []⟩ (start_inv g.nodes doc.nodes)
  rcases he : each (preLoad doc.nodes (doc.nodes.length + 1)) ⟨g.nodes, []⟩ (doc.nodes.map Prod.fst) with ⟨s, r⟩
  rw [he] at a1 a2 c1 c2 c3
  simp only at a1 c1 c2
  subst a1
  simp only [h.components, if_true]
  have hnode : ∀ x ∈ doc.nodes.map Prod.fst, ∃ k n d, find s.nodes x = some k ∧ s.nodes[k]? = some n ∧ g.nodes.length ≤ k ∧ n.sub = false ∧ n.entry = some d ∧ (x, d) ∈ doc.nodes ∧ n.pending = true := by
    intro x hx
    obtain ⟨i, _, hg⟩ := forall₂_mem_left (c3 is rfl) hx
    obtain ⟨m, m1, m2⟩ := hg.lt
    obtain ⟨k, hk⟩ := (find_isSome (l := s.nodes) (x := x)).2 (List.mem_map.2 ⟨m, List.mem_of_getElem? m1, m2⟩)
    obtain ⟨n, n1, n2⟩ := find_get hk
    have hkb : g.nodes.length ≤ k := by
      by_contra hc
      obtain ⟨e, he'⟩ := c1.pre
      rw [← he', List.getElem?_append_left (by omega)] at n1
      exact h.fresh n (List.mem_of_getElem? n1) (by rw [n2]; exact hx)
    have hs : n.sub = false := by
      rcases hs : n.sub with _ | _
      · rfl
      · obtain ⟨_, _, y, d, hd, hy⟩ := c1.sub k n hkb n1 hs
        exact absurd (by rw [n2]; exact hx) (h.subs _ (lookup_mem hd) _ hy).1
    obtain ⟨d, d1, d2, d3, _⟩ := c1.top k n hkb n1 hs
    rw [n2] at d2
    exact ⟨k, n, d, hk, n1, hkb, hs, d1, lookup_mem d2, d3⟩
  have hfin := finaliseAll_ok (doc.nodes.map Prod.fst) s.nodes hn' (by
    intro x hx
    obtain ⟨k, n, d, b1, b2, _, _, b5, b6, b7⟩ := hnode x hx
    refine ⟨k, n, b1, b2, b7, ?_⟩
    rw [b5]
    exact (h.entries _ b6).2.2)
  rcases hf : finaliseAll s.nodes (doc.nodes.map Prod.fst) with ⟨l', e⟩
  rw [hf] at hfin
  simp only at hfin
  subst hfin
  simp only
  have hst := (finaliseAll_spec _ _ _ _ hf).1
  have hnames : ∀ x, x ∈ l'.map Node.name ↔ x ∈ s.nodes.map Node.name := by
    intro x
    rw [← find_isSome, ← find_isSome]
    simp only [find_same hst]
  refine connectAll_ok accepts doc.edges _ ?_
  intro e he'
  obtain ⟨e1, e2, e3⟩ := h.edges e he'
  refine ⟨e1, e2, ?_⟩
  intro x hx
  rw [hnames]
  rcases e3 x hx with h1 | h1 | ⟨d, h1, h2⟩
  · obtain ⟨k, n, d, b1, _⟩ := hnode x h1
    exact find_isSome.1 ⟨k, b1⟩
  · exact names_prefix c1.pre h1
  · obtain ⟨k, n, d', _, b2, b3, b4, b5, b6, _⟩ := hnode d.1 (List.mem_map.2 ⟨d, h1, rfl⟩)
    have hd' : d.2 = d' := by
      have := mem_lookup hn' b6
      rw [mem_lookup hn' (x := d.1) (d := d.2) h1] at this
      exact Option.some.inj this
    obtain ⟨d'', d1, _, _, _, _, _, _, d8, _⟩ := c1.top k n b3 b2 b4
    rw [b5] at d1
    cases d1
    rw [hd'] at h2
    obtain ⟨j, _, hj⟩ := d8 x h2
    exact List.mem_map.2 ⟨_, List.mem_of_getElem? hj, rfl⟩

/-- Conversely a document that is loaded fits, unless an entry refers to a sub-node of another. -/
theorem C98_fits (accepts : Edge → Bool) (g : Graph) (doc : Doc) (hn : doc.names.Nodup) (hb : ∀ n ∈ g.nodes, n.pending = false) (hp : doc.Plain)
    (h : (load accepts g doc).2 = none) : Fits accepts g doc := by
  rcases hg : load accepts g doc with ⟨g', r⟩
  rw [hg] at h
  simp only at h
  subst h
  have hn' : (doc.nodes.map Prod.fst).Nodup := hn
  obtain ⟨l, l', hi, hcomp, hall, hf, hc⟩ := stages hg
  rw [collect_nodup hn] at hi hall hf
  obtain ⟨f1, f2, f3⟩ := finaliseAll_spec _ _ _ _ hf
  obtain ⟨c1, done, calls, c2, c3, c4, c5⟩ := connectAll_spec _ _ _ _ _ hc
  have hent : ∀ e ∈ doc.nodes, ∃ k n, g.nodes.length ≤ k ∧ find l e.1 = some k ∧ l[k]? = some n ∧ n.name = e.1 ∧ n.sub = false ∧ n.entry = some e.2 ∧ e.2.params = true := by
    intro e he
    obtain ⟨k, n, d, b1, b2, b3, b4, b5, b6, b7, b8, b9⟩ := entry_node hi hb hf (List.mem_map.2 ⟨e, he, rfl⟩ : e.1 ∈ doc.nodes.map Prod.fst)
    rw [mem_lookup hn' (x := e.1) (d := e.2) he] at b7
    cases b7
    exact ⟨k, n, b1, b2, b3, b4, b5, b6, b8⟩
  have hname : ∀ x ∈ l.map Node.name, x ∈ doc.names ∨ x ∈ g.nodes.map Node.name ∨ ∃ d ∈ doc.nodes, x ∈ d.2.subs := by
    intro x hx
    obtain ⟨n, hnl, rfl⟩ := List.mem_map.1 hx
    obtain ⟨k, hk⟩ := List.mem_iff_getElem?.1 hnl
    rcases Nat.lt_or_ge k g.nodes.length with hkb | hkb
    · obtain ⟨e, rfl⟩ := hi.pre
      rw [List.getElem?_append_left hkb] at hk
      exact Or.inr (Or.inl (List.mem_map.2 ⟨n, List.mem_of_getElem? hk, rfl⟩))
    · rcases hs : n.sub with _ | _
      · obtain ⟨d, _, d2, _⟩ := hi.top k n hkb hk hs
        exact Or.inl (mem_keys.1 ⟨d, d2⟩)
      · obtain ⟨_, _, y, d, d1, d2⟩ := hi.sub k n hkb hk hs
        exact Or.inr (Or.inr ⟨(y, d), lookup_mem d1, d2⟩)
  refine ⟨fun n hn1 => base_name hi hb hf hn1, ?_, ?_, ?_, ?_, hcomp, ?_⟩
  · intro e he
    obtain ⟨k, n, b1, b2, b3, b4, b5, b6, b7⟩ := hent e he
    obtain ⟨d, d1, _, _, _, _, d6, d7, _⟩ := hi.top k n b1 b3 b5
    rw [b6] at d1
    cases d1
    exact ⟨d6, d7, b7⟩
  · intro e he x hx
    obtain ⟨k, n, b1, b2, b3, b4, b5, b6, b7⟩ := hent e he
    obtain ⟨d, d1, _, _, _, _, _, _, d8, _⟩ := hi.top k n b1 b3 b5
    rw [b6] at d1
    cases d1
    obtain ⟨j, hj, hj'⟩ := d8 x hx
    refine ⟨sub_name hi hb hf hj hj' rfl, ?_⟩
    intro m hm hms hmx
    obtain ⟨_, h2, _⟩ := hi.sub j _ hj hj' rfl
    refine h2 (mem_tops.2 ⟨m, ?_, hms, hmx⟩)
    obtain ⟨i, hil, hi'⟩ := List.mem_iff_getElem.1 hm
    refine List.mem_of_getElem? (i := i) ?_
    rw [List.getElem?_take_of_lt (by omega)]
    exact get_prefix hi.pre (by rw [List.getElem?_eq_getElem hil, hi'])
  · intro e he r hr
    obtain ⟨k, n, b1, b2, b3, b4, b5, b6, b7⟩ := hent e he
    obtain ⟨d, d1, _, _, d4, _⟩ := hi.top k n b1 b3 b5
    rw [b6] at d1
    cases d1
    obtain ⟨i, _, hgi⟩ := forall₂_mem_left d4 hr
    obtain ⟨m, m1, m2⟩ := hgi.lt
    rcases hname r (List.mem_map.2 ⟨m, List.mem_of_getElem? m1, m2⟩) with h1 | h1 | ⟨d, h1, h2⟩
    · exact Or.inl h1
    · exact Or.inr h1
    · exact absurd h2 (hp e he r hr d h1)
  · refine ⟨fun x => (find l x).getD 0, ?_⟩
    intro e he r hr hrn
    obtain ⟨k, n, b1, b2, b3, b4, b5, b6, b7⟩ := hent e he
    obtain ⟨d, d1, _, _, d4, d5, _⟩ := hi.top k n b1 b3 b5
    rw [b6] at d1
    cases d1
    obtain ⟨i, hin, hgi⟩ := forall₂_mem_left d4 hr
    obtain ⟨j, m, _, a1, a2, a3, a4, a5, _⟩ := entry_node hi hb hf hrn
    have hij : find l r = some i := by
      rcases hgi with hgi | ⟨_, h1, m', h2, h3, h4⟩
      · exact hgi
      · have := top_unique hi h2 a3 h4 a5 h1 a1 (by rw [h3, a4])
        rw [this]
        exact a2
    simp only [b2, hij, Option.getD_some]
    exact d5 i hin
  · intro e he
    obtain ⟨h1, h2⟩ := c5 rfl
    rw [h1] at c4
    obtain ⟨c, _, k1, k2, k3⟩ := forall₂_mem_left c4 he
    simp only at k1 k2
    refine ⟨h2 e he, ?_, ?_⟩
    · rcases k3 with ⟨k3, _⟩ | ⟨a, b, k3, _⟩
      · rw [k3]; exact Or.inl rfl
      · rw [k3]; exact Or.inr rfl
    · intro x hx
      refine hname x ?_
      rw [← find_isSome]
      rcases hx with rfl | rfl
      · exact ⟨_, by rw [← find_same f1]; exact find_named.2 k1⟩
      · exact ⟨_, by rw [← find_same f1]; exact find_named.2 k2⟩

/-- The order in which a document lists its nodes does not matter. -/
theorem C98_order_partial (accepts : Edge → Bool) (g : Graph) (doc : Doc) (nodes : List (String × Def)) (hperm : nodes.Perm doc.nodes) (hn : doc.names.Nodup)
    (hb : ∀ n ∈ g.nodes, n.pending = false) (hp : doc.Plain) :
    (load accepts g { doc with nodes := nodes }).2 = none ↔ (load accepts g doc).2 = none := by
  have hmem : ∀ e, e ∈ nodes ↔ e ∈ doc.nodes := fun e => hperm.mem_iff
  have hnm : ∀ x, x ∈ ({ doc with nodes := nodes } : Doc).names ↔ x ∈ doc.names := fun x => (hperm.map Prod.fst).mem_iff
  have hn2 : ({ doc with nodes := nodes } : Doc).names.Nodup := (hperm.map Prod.fst).nodup_iff.2 hn
  have hp2 : ({ doc with nodes := nodes } : Doc).Plain := fun e he r hr e' he' => hp e ((hmem e).1 he) r hr e' ((hmem e').1 he')
  have key : Fits accepts g { doc with nodes := nodes } ↔ Fits accepts g doc := by
    constructor
    · rintro ⟨a1, a2, a3, a4, ⟨rank, a5⟩, a6, a7⟩
      refine ⟨fun n h1 h2 => a1 n h1 ((hnm _).2 h2), fun e he => a2 e ((hmem e).2 he), fun e he x hx => ?_, fun e he r hr => ?_, ⟨rank, fun e he r hr hrn => a5 e ((hmem e).2 he) r hr ((hnm r).2 hrn)⟩, a6, fun e he => ?_⟩
      · obtain ⟨b1, b2⟩ := a3 e ((hmem e).2 he) x hx
        exact ⟨fun h => b1 ((hnm x).2 h), b2⟩
      · exact (a4 e ((hmem e).2 he) r hr).imp (hnm r).1 id
      · obtain ⟨b1, b2, b3⟩ := a7 e he
        refine ⟨b1, b2, fun x hx => ?_⟩
        rcases b3 x hx with h | h | ⟨d, h1, h2⟩
        · exact Or.inl ((hnm x).1 h)
        · exact Or.inr (Or.inl h)
        · exact Or.inr (Or.inr ⟨d, (hmem d).1 h1, h2⟩)
    · rintro ⟨a1, a2, a3, a4, ⟨rank, a5⟩, a6, a7⟩
      refine ⟨fun n h1 h2 => a1 n h1 ((hnm _).1 h2), fun e he => a2 e ((hmem e).1 he), fun e he x hx => ?_, fun e he r hr => ?_, ⟨rank, fun e he r hr hrn => a5 e ((hmem e).1 he) r hr ((hnm r).1 hrn)⟩, a6, fun e he => ?_⟩
      · obtain ⟨b1, b2⟩ := a3 e ((hmem e).1 he) x hx
        exact ⟨fun h => b1 ((hnm x).1 h), b2⟩
      · exact (a4 e ((hmem e).1 he) r hr).imp (hnm r).2 id
      · obtain ⟨b1, b2, b3⟩ := a7 e he
        refine ⟨b1, b2, fun x hx => ?_⟩
        rcases b3 x hx with h | h | ⟨d, h1, h2⟩
        · exact Or.inl ((hnm x).2 h)
        · exact Or.inr (Or.inl h)
        · exact Or.inr (Or.inr ⟨d, (hmem d).2 h1, h2⟩)
  constructor
  · intro h
    exact C98_loads _ _ _ hn (key.1 (C98_fits _ _ _ hn2 hb hp2 h))
  · intro h
    exact C98_loads _ _ _ hn2 (key.2 (C98_fits _ _ _ hn hb hp h))

/-- Loading always comes to an end: also circles of references lead to an exception. -/
theorem C98_ends (accepts : Edge → Bool) (g : Graph) (doc : Doc) : (load accepts g doc).2 ≠ some .running := by
  unfold load
  simp only
  have hbeg : Begun (collect doc.nodes) ([] : List String) := ⟨List.nodup_nil, fun x hx => by cases hx⟩
  have he := each_fuel (todo := collect doc.nodes) (b := 0) (f := preLoad (collect doc.nodes) ((collect doc.nodes).length + 1))
    (fun s x h _ => preLoad_fuel _ s x h (by omega)) ((collect doc.nodes).map Prod.fst) ⟨g.nodes, []⟩ hbeg (Nat.zero_le _)
  rcases hh : each (preLoad (collect doc.nodes) ((collect doc.nodes).length + 1)) ⟨g.nodes, []⟩ ((collect doc.nodes).map Prod.fst) with ⟨s, r⟩
  rw [hh] at he
  cases r with
  | error e =>
    simp only
    intro hc
    cases hc
    exact he.1 rfl
  | ok is =>
    simp only
    split
    · rcases hf : finaliseAll s.nodes ((collect doc.nodes).map Prod.fst) with ⟨l', e⟩
      have hfr : ∀ (xs : List String) (l l' : List Node) (e : Option Error), finaliseAll l xs = (l', e) → e ≠ some .running := by
        intro xs
        induction xs with
        | nil => intro l l' e h; unfold finaliseAll at h; cases h; simp
        | cons x xs ih =>
          intro l l' e h
          unfold finaliseAll at h
          have h1 : (finalise l x).2 ≠ some .running := by
            unfold finalise
            repeat' split
            all_goals simp
          rcases hx : finalise l x with ⟨l1, e1⟩
          rw [hx] at h h1
          cases e1 with
          | some e1 => cases h; exact h1
          | none => exact ih _ _ _ h
      cases e with
      | some e =>
        simp only
        exact hfr _ _ _ _ hf
      | none =>
        simp only
        have hcr : ∀ (es : List Edge) (g : Graph), (connectAll accepts g es).2 ≠ some .running := by
          intro es
          induction es with
          | nil => intro g; unfold connectAll; simp
          | cons e es ih =>
            intro g
            unfold connectAll
            repeat' split
            all_goals first | exact ih _ | simp
        exact hcr _ _
    · simp

/-- A circle of references leads to an exception. -/
theorem C98_circles (accepts : Edge → Bool) (g : Graph) (doc : Doc) (hn : doc.names.Nodup) (hb : ∀ n ∈ g.nodes, n.pending = false) (hp : doc.Plain)
    (circle : Nat → String × Def) (hc : ∀ i, circle i ∈ doc.nodes ∧ (circle (i + 1)).1 ∈ (circle i).2.refs) : (load accepts g doc).2 ≠ none := by
  intro h
  obtain ⟨rank, hr⟩ := (C98_fits accepts g doc hn hb hp h).order
  have hlt : ∀ i, rank (circle (i + 1)).1 < rank (circle i).1 := fun i =>
    hr _ (hc i).1 _ (hc i).2 (List.mem_map.2 ⟨_, (hc (i + 1)).1, rfl⟩)
  have : ∀ i, rank (circle i).1 + i ≤ rank (circle 0).1 := by
    intro i
    induction i with
    | zero => omega
    | succ i ih => have := hlt i; omega
  have := this (rank (circle 0).1 + 1)
  omega

/-- Whatever happens, what was in the model stays there. -/
theorem C98_kept (accepts : Edge → Bool) (g : Graph) (doc : Doc) (hb : ∀ n ∈ g.nodes, n.pending = false) :
    g.nodes <+: (load accepts g doc).1.nodes ∧ g.calls <+: (load accepts g doc).1.calls := by
  unfold load
  simp only
  have hi := each_inv (preLoad_inv ((collect doc.nodes).length + 1)) ((collect doc.nodes).map Prod.fst) ⟨g.nodes, []⟩ (start_inv g.nodes (collect doc.nodes))
  rcases he : each (preLoad (collect doc.nodes) ((collect doc.nodes).length + 1)) ⟨g.nodes, []⟩ ((collect doc.nodes).map Prod.fst) with ⟨s, r⟩
  rw [he] at hi
  cases r with
  | error e => exact ⟨hi.2.1, List.prefix_refl _⟩
  | ok is =>
    simp only
    split
    · rcases hf : finaliseAll s.nodes ((collect doc.nodes).map Prod.fst) with ⟨l', e⟩
      have hp : g.nodes <+: l' := by
        rw [List.prefix_iff_getElem?]
        intro i hil
        exact (finaliseAll_spec _ _ _ _ hf).2.1 i _ (get_prefix hi.1.pre (List.getElem?_eq_getElem hil)) (hb _ (List.getElem_mem hil))
      cases e with
      | some e => exact ⟨hp, List.prefix_refl _⟩
      | none =>
        simp only
        rcases hc : connectAll accepts ⟨l', g.calls⟩ doc.edges with ⟨g', r⟩
        obtain ⟨c1, done, calls, _, c3, _⟩ := connectAll_spec _ _ _ _ _ hc
        simp only at c1 c3 ⊢
        rw [c1, c3]
        exact ⟨hp, List.prefix_append _ _⟩
    · exact ⟨hi.2.1, List.prefix_refl _⟩

/-- An entry that refers to a sub-node can be loaded only if it comes after the entry the sub-node belongs to. -/
theorem C98_order_fails : ∃ (doc : Doc) (nodes : List (String × Def)), nodes.Perm doc.nodes ∧ doc.names.Nodup ∧ (load (fun _ => true) ⟨[], []⟩ doc).2 = none ∧
    (load (fun _ => true) ⟨[], []⟩ { doc with nodes := nodes }).2 = some (.unknownNode "link Sublink 0") := by
  refine ⟨⟨[("link", ⟨0, true, [], ["link Sublink 0"], true, true⟩), ("total", ⟨1, true, ["link Sublink 0"], [], true, true⟩)], true, []⟩,
    [("total", ⟨1, true, ["link Sublink 0"], [], true, true⟩), ("link", ⟨0, true, [], ["link Sublink 0"], true, true⟩)], List.Perm.swap _ _ _, ?_, ?_, ?_⟩ <;> decide +kernel

/-- Of two entries with the same name only the second counts: nothing is made of the first, and nobody is told. -/
theorem C98_twice_fails (accepts : Edge → Bool) (g : Graph) (a b : List (String × Def)) (x : String) (d d' : Def) (components : Bool) (edges : List Edge) :
    load accepts g ⟨a ++ (x, d) :: (x, d') :: b, components, edges⟩ = load accepts g ⟨a ++ (x, d') :: b, components, edges⟩ := by
  have : collect (a ++ (x, d) :: (x, d') :: b) = collect (a ++ (x, d') :: b) := by
    unfold collect
    rw [List.foldl_append, List.foldl_append, List.foldl_cons, List.foldl_cons, List.foldl_cons]
    simp only [dictSet_twice]
  unfold load
  simp only [this]

/-- Loading a document into a model that has a node of the same name raises an exception, and leaves the other nodes of the document in the model, without parameters or connections. -/
theorem C98_existing_fails : ∃ (g : Graph) (doc : Doc), (∀ n ∈ g.nodes, n.pending = false) ∧ doc.names.Nodup ∧ (load (fun _ => true) g doc).2 = some .attribute ∧
    tops (load (fun _ => true) g doc).1.nodes = tops g.nodes ++ ["b"] ∧ (load (fun _ => true) g doc).1.calls = g.calls ∧ doc.edges ≠ [] := by
  refine ⟨⟨[⟨"a", false, none, [], false⟩], []⟩, ⟨[("a", ⟨0, true, [], [], true, true⟩), ("b", ⟨1, true, [], [], true, true⟩)], true, [⟨"a", "b", []⟩]⟩, ?_, ?_, ?_, ?_, ?_, ?_⟩ <;>
  decide +kernel

/-- A reference to an aggregated node that comes later, and a connection to slots. -/
private def sampleDoc : Doc :=
  ⟨[("both", ⟨0, true, ["in", "all"], [], true, true⟩), ("all", ⟨1, true, ["in", "link"], [], true, true⟩), ("link", ⟨2, true, [], ["link Sublink 0"], true, true⟩),
    ("in", ⟨3, true, [], [], true, true⟩)], true, [⟨"in", "link", []⟩, ⟨"link", "in", ["0", "1"]⟩]⟩

example : (load (fun _ => true) ⟨[], []⟩ sampleDoc).2 = none ∧ tops (load (fun _ => true) ⟨[], []⟩ sampleDoc).1.nodes = ["in", "link", "all", "both"] ∧ sampleDoc.names.Nodup := by
  refine ⟨?_, ?_, ?_⟩ <;> decide +kernel

example : sampleDoc.Plain := by unfold Doc.Plain; decide +kernel

example : Fits (fun _ => true) ⟨[], []⟩ sampleDoc :=
  C98_fits _ _ _ (by decide +kernel) (by simp) (by unfold Doc.Plain; decide +kernel) (by decide +kernel)

example : (load (fun _ => true) ⟨[], []⟩ ⟨[("a", ⟨0, true, ["b"], [], true, true⟩), ("b", ⟨0, true, ["a"], [], true, true⟩)], true, []⟩).2 = some .noType := by decide +kernel

/-- A model that is made by loading has the settings that the arguments and the document ask for, provided that arguments for the solver are given only together with its name. -/
theorem C98_settings_partial (path solver solverArgs : Option String) (h : Head) (hs : solverArgs.isSome → solver.isSome ∨ h.solver = none) (s : Settings)
    (hr : settings none path solver solverArgs h = .ok s) : Chosen path solver solverArgs h s := by
  unfold settings at hr
  rcases hm : h.metadata with _ | md
  · rw [hm] at hr; cases hr
  · rw [hm] at hr
    cases hr
    refine ⟨?_, ?_, rfl, rfl, hm.symm⟩
    · cases solver <;> simp
    · intro a ha
      subst ha
      rcases hs rfl with h1 | h1
      · cases solver with
        | none => cases h1
        | some n => rfl
      · rw [h1]
        cases solver <;> rfl

/-- Arguments for the solver are ignored when the document names a solver. -/
theorem C98_solver_args_fails (path : Option String) (a name args : String) (ts : Option (String × String × String)) (md : String) (hne : a ≠ args) :
    ∃ s, settings none path none (some a) ⟨some md, some (name, args), ts⟩ = .ok s ∧ s.solverArgs = args ∧ ¬ Chosen path none (some a) ⟨some md, some (name, args), ts⟩ s :=
  ⟨_, rfl, rfl, fun h => hne (h.args a rfl).symm⟩

/-- When a document is added to a model, the model keeps its settings, except that it loses its metadata. -/
theorem C98_added_fails (m : Settings) (path solver solverArgs : Option String) (h : Head) (md : String) (hm : h.metadata = some md) :
    ∃ s, settings (some m) path solver solverArgs h = .ok s ∧ s.solver = m.solver ∧ s.solverArgs = m.solverArgs ∧ s.stepper = m.stepper ∧ s.path = m.path ∧ s.metadata = md := by
  refine ⟨{ m with metadata := md }, ?_, rfl, rfl, rfl, rfl, rfl⟩
  unfold settings
  rw [hm]

/-- A document without metadata cannot be loaded. -/
theorem C98_metadata (given : Option Settings) (path solver solverArgs : Option String) (h : Head) :
    settings given path solver solverArgs h = .error .noMetadata ↔ h.metadata = none := by
  unfold settings
  rcases h.metadata with _ | md
  · simp
  · cases given <;> simp

example : (settings none (some "model.json") (some "glpk") none ⟨some "title", some ("lpsolve", "args"), none⟩).toOption = some ⟨some "glpk", "", none, some "model.json", "title"⟩ := by
  decide +kernel

end Verif.Document

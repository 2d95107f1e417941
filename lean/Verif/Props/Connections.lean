import Verif.Proof.NetworkReach
/-!
# C55: connecting and disconnecting nodes
-/

namespace Verif.Network

/-- The element of a list at a position which, if negative, counts from the end. -/
def At (l : List Nat) (i : Int) (x : Nat) : Prop :=
  (∃ k : Nat, i = k ∧ l[k]? = some x) ∨ ∃ k : Nat, i = -(k + 1 : Nat) ∧ l.reverse[k]? = some x

/-- Where a connection from a node starts, for the slot given. -/
inductive Exit (self : Nat) : Slots → Option Slot → Nat → Prop
  | plain : Exit self .plain none self
  | only (os : List Nat) (i : Nat) : Exit self (.storage os [i]) none i
  | nth (os is : List Nat) (k : Int) (i : Nat) : At is k i → Exit self (.storage os is) (some (.int k)) i
  | compound (o i : Nat) (slot : Option Slot) : Exit self (.compound o i) slot o
  | split (ns : List Slot) (outs : List Nat) (i : Nat) (pre post : List Slot) (x : Slot) (o : Nat) :
      ns = pre ++ x :: post → x ∉ pre → outs[pre.length]? = some o → Exit self (.split ns outs i) (some x) o

/-- Where a connection to a node ends, for the slot given. -/
inductive Entry (self : Nat) : Slots → Option Slot → Nat → Prop
  | plain : Entry self .plain none self
  | only (o : Nat) (is : List Nat) : Entry self (.storage [o] is) none o
  | nth (os is : List Nat) (k : Int) (o : Nat) : At os k o → Entry self (.storage os is) (some (.int k)) o
  | compound (o i : Nat) (slot : Option Slot) : Entry self (.compound o i) slot i
  | split (ns : List Slot) (outs : List Nat) (i : Nat) (slot : Option Slot) : Entry self (.split ns outs i) slot i

private theorem pyGet_at {l : List Nat} {i : Int} {x : Nat} : pyGet l i = some x ↔ At l i x := by
  unfold pyGet At
  by_cases h : 0 ≤ i
  · rw [if_pos h]
    constructor
    · intro hx; exact Or.inl ⟨i.toNat, by omega, hx⟩
    · rintro (⟨k, rfl, hx⟩ | ⟨k, rfl, -⟩)
      · simpa using hx
      · omega
  · rw [if_neg h]
    constructor
    · intro hx
      split at hx
      · rename_i hle
        right
        refine ⟨(-i).toNat - 1, by omega, ?_⟩
        rw [List.getElem?_reverse (by omega)]
        rw [← hx]
        congr 1
        omega
      · cases hx
    · rintro (⟨k, rfl, -⟩ | ⟨k, rfl, hx⟩)
      · omega
      · have hk : k < l.length := by
          by_contra hc
          rw [List.getElem?_eq_none (by simp; omega)] at hx; cases hx
        rw [if_pos (by omega), ← hx, List.getElem?_reverse hk]
        congr 1
        omega

private theorem storageSlots_iff {l : List Nat} {slot : Option Slot} {u : Nat} :
    storageSlots l slot false = .ok [u] ↔ (slot = none ∧ l = [u]) ∨ ∃ k, slot = some (.int k) ∧ At l k u := by
  unfold storageSlots
  by_cases hl : l = []
  · subst hl
    simp only [if_true]
    constructor
    · intro h; cases h
    · rintro (⟨-, h⟩ | ⟨k, -, h⟩)
      · cases h
      · rcases h with ⟨k', -, h⟩ | ⟨k', -, h⟩ <;> simp at h
  · rw [if_neg hl]
    cases slot with
    | none =>
      simp only [Bool.false_or, beq_iff_eq]
      constructor
      · intro h
        split at h
        · cases h; exact Or.inl (by simp)
        · cases h
      · rintro (⟨-, rfl⟩ | ⟨k, h, -⟩)
        · simp
        · cases h
    | some sl =>
      cases sl with
      | int i =>
        constructor
        · intro h
          simp only at h
          cases hg : pyGet l i with
          | none => rw [hg] at h; cases h
          | some x => rw [hg] at h; cases h; exact Or.inr ⟨i, rfl, pyGet_at.1 hg⟩
        · rintro (⟨h, -⟩ | ⟨k, h, hat⟩)
          · cases h
          · cases h; simp only [pyGet_at.2 hat]
      | str t =>
        constructor
        · intro h; cases h
        · rintro (⟨h, -⟩ | ⟨k, h, -⟩) <;> cases h

private theorem idxOf_split {ns : List Slot} {x : Slot} (h : x ∈ ns) : ∃ pre post, ns = pre ++ x :: post ∧ x ∉ pre ∧ ns.idxOf x = pre.length := by
  induction ns with
  | nil => cases h
  | cons n ns ih =>
    by_cases hn : n = x
    · subst hn; exact ⟨[], ns, rfl, by simp, by simp⟩
    · obtain ⟨pre, post, rfl, h2, h3⟩ := ih ((List.mem_cons.1 h).resolve_left (fun e => hn e.symm))
      refine ⟨n :: pre, post, rfl, ?_, ?_⟩
      · simp only [List.mem_cons, not_or]; exact ⟨fun e => hn e.symm, h2⟩
      · rw [List.idxOf_cons_ne _ hn, h3]; rfl

private theorem idxOf_of_split {pre post : List Slot} {x : Slot} (h : x ∉ pre) : (pre ++ x :: post).idxOf x = pre.length := by
  rw [List.idxOf_append_of_notMem h]; simp

private theorem exits_iff {a u : Nat} {sl : Slots} {slot : Option Slot} : exits a sl slot = .ok [u] ↔ Exit a sl slot u := by
  cases sl with
  | plain =>
    cases slot with
    | none => simp only [exits]; constructor
              · intro h; cases h; exact .plain
              · intro h; cases h; rfl
    | some x => simp only [exits]; constructor
                · intro h; cases h
                · intro h; cases h
  | storage os is =>
    simp only [exits]
    rw [storageSlots_iff]
    constructor
    · rintro (⟨rfl, rfl⟩ | ⟨k, rfl, h⟩)
      · exact .only os u
      · exact .nth os is k u h
    · intro h
      cases h with
      | only => exact Or.inl ⟨rfl, rfl⟩
      | nth _ _ k _ hk => exact Or.inr ⟨k, rfl, hk⟩
  | compound o i =>
    constructor
    · intro h; cases h; exact .compound _ _ _
    · intro h; cases h; rfl
  | split ns outs i =>
    cases slot with
    | none => constructor
              · intro h; cases h
              · intro h; cases h
    | some x =>
      simp only [exits]
      constructor
      · intro h
        split at h
        · rename_i hx
          obtain ⟨pre, post, h1, h2, h3⟩ := idxOf_split hx
          rw [h3] at h
          cases ho : outs[pre.length]? with
          | none => rw [ho] at h; cases h
          | some o => rw [ho] at h; cases h; exact .split ns outs i pre post x _ h1 h2 ho
        · cases h
      · intro h
        cases h with
        | split _ _ _ pre post _ _ h1 h2 h3 => subst h1; rw [if_pos (by simp), idxOf_of_split h2, h3]
  | none => constructor
            · intro h; cases h
            · intro h; cases h

private theorem entries_iff {b v : Nat} {sl : Slots} {slot : Option Slot} : entries b sl slot = .ok [v] ↔ Entry b sl slot v := by
  cases sl with
  | plain =>
    cases slot with
    | none => simp only [entries]; constructor
              · intro h; cases h; exact .plain
              · intro h; cases h; rfl
    | some x => simp only [entries]; constructor
                · intro h; cases h
                · intro h; cases h
  | storage os is =>
    simp only [entries]
    rw [storageSlots_iff]
    constructor
    · rintro (⟨rfl, rfl⟩ | ⟨k, rfl, h⟩)
      · exact .only v is
      · exact .nth os is k v h
    · intro h
      cases h with
      | only => exact Or.inl ⟨rfl, rfl⟩
      | nth _ _ k _ hk => exact Or.inr ⟨k, rfl, hk⟩
  | compound o i =>
    constructor
    · intro h; cases h; exact .compound _ _ _
    · intro h; cases h; rfl
  | split ns outs i =>
    constructor
    · intro h; cases h; exact .split _ _ _ _
    · intro h; cases h; rfl
  | none => constructor
            · intro h; cases h
            · intro h; cases h

private theorem exit_ne_none {a u : Nat} {slot : Option Slot} {sl : Slots} (h : Exit a sl slot u) : sl ≠ .none := by rintro rfl; cases h
private theorem entry_ne_none {a u : Nat} {slot : Option Slot} {sl : Slots} (h : Entry a sl slot u) : sl ≠ .none := by rintro rfl; cases h

/-- **C55 (connect).** A connection is made exactly when both nodes belong to the same model and the slots given exist; it then adds the edge between
these slots and nothing else. Otherwise an exception is raised and the graph is as before. -/
theorem C55_connect (s : St) (a b : Nat) (x y : Obj) (hx : s.heap[a]? = some x) (hy : s.heap[b]? = some y) (f t : Option Slot) :
    (∀ u v, x.owner = y.owner → Exit a x.slots f u → Entry b y.slots t v → ∃ s', (Op.connect a b f t).run s = (s', none) ∧ s'.heap = s.heap ∧
      (∀ e, e ∈ s'.edges ↔ e ∈ s.edges ∨ e = (u, v)) ∧ (∀ i, i ∈ s'.nodes ↔ i ∈ s.nodes ∨ i = u ∨ i = v)) ∧
    ((x.owner ≠ y.owner ∨ (¬∃ u, Exit a x.slots f u) ∨ ¬∃ v, Entry b y.slots t v) → ∃ e, (Op.connect a b f t).run s = (s, some e)) := by
  constructor
  · intro u v ho hu hv
    refine ⟨s.addEdge u v, ?_, addEdge_heap s u v, ?_, ?_⟩
    · simp only [Op.run, connect, hx, hy, if_neg (exit_ne_none hu), ho, ne_eq, not_true, if_false, if_neg (entry_ne_none hv), exits_iff.2 hu,
        entries_iff.2 hv]
      rfl
    · intro e
      rw [addEdge_edges]
      split
      · rename_i hm
        constructor
        · exact Or.inl
        · rintro (h | rfl)
          · exact h
          · exact hm
      · simp
    · intro i
      rw [addEdge_nodes, mem_addNode, mem_addNode, or_assoc]
  · intro h
    rcases connect_cases s a b f t with he | ⟨x', y', u, v, hx', hy', ho, hu, hv, -⟩
    · exact he
    · rw [hx] at hx'; rw [hy] at hy'
      cases hx'; cases hy'
      rcases h with h | h | h
      · exact absurd ho h
      · exact absurd ⟨u, exits_iff.1 hu⟩ h
      · exact absurd ⟨v, entries_iff.1 hv⟩ h

private theorem removeEach_spec (a : Nat) (vs : List Nat) : ∀ (s : St) (d : Bool),
    (∀ e, e ∈ (removeEach a vs (s, d)).1.edges ↔ e ∈ s.edges ∧ ¬∃ v ∈ vs, e = (a, v)) ∧
    ((removeEach a vs (s, d)).2 = true ↔ d = true ∨ ∃ v ∈ vs, (a, v) ∈ s.edges) ∧
    ((∀ v ∈ vs, (a, v) ∉ s.edges) → (removeEach a vs (s, d)).1 = s) := by
  induction vs with
  | nil => intro s d; simp [removeEach]
  | cons v vs ih =>
    intro s d
    unfold removeEach
    by_cases hv : (a, v) ∈ s.edges
    · have hr : s.removeEdge a v = some { s with edges := s.edges.filter (· != (a, v)) } := by unfold St.removeEdge; rw [if_pos hv]
      rw [hr]
      obtain ⟨h1, h2, h3⟩ := ih { s with edges := s.edges.filter (· != (a, v)) } true
      refine ⟨?_, ?_, ?_⟩
      · intro e
        rw [h1 e]
        simp only [List.mem_filter, bne_iff_ne, ne_eq, List.mem_cons, exists_eq_or_imp, not_or]
        constructor
        · rintro ⟨⟨k1, k2⟩, k3⟩; exact ⟨k1, k2, k3⟩
        · rintro ⟨k1, k2, k3⟩; exact ⟨⟨k1, k2⟩, k3⟩
      · rw [h2]
        simp only [true_or, true_iff]
        exact Or.inr ⟨v, by simp, hv⟩
      · intro hall; exact absurd hv (hall v (by simp))
    · have hr : s.removeEdge a v = none := by unfold St.removeEdge; rw [if_neg hv]
      rw [hr]
      obtain ⟨h1, h2, h3⟩ := ih s d
      refine ⟨?_, ?_, fun hall => h3 (fun w hw => hall w (by simp [hw]))⟩
      · intro e
        simp only
        rw [h1 e]
        simp only [List.mem_cons, exists_eq_or_imp, not_or]
        constructor
        · rintro ⟨k1, k2⟩; exact ⟨k1, fun hc => hv (hc ▸ k1), k2⟩
        · rintro ⟨k1, -, k2⟩; exact ⟨k1, k2⟩
      · simp only
        rw [h2]
        simp only [List.mem_cons, exists_eq_or_imp, hv, false_or]

/-- The slots of a storage which a disconnection names. -/
def Named (os : List Nat) (slot : Option Slot) (o : Nat) : Prop := match slot with
  | none => o ∈ os
  | some (.int k) => At os k o
  | some (.str _) => False

private theorem storageSlots_named {os vs : List Nat} {slot : Option Slot} {all : Bool} (h : storageSlots os slot all = .ok vs) (o : Nat) :
    o ∈ vs ↔ Named os slot o := by
  unfold storageSlots at h
  split at h
  · cases h
  · cases slot with
    | none =>
      simp only at h
      split at h
      · cases h; rfl
      · cases h
    | some sl =>
      cases sl with
      | int k =>
        simp only at h
        cases hg : pyGet os k with
        | none => rw [hg] at h; cases h
        | some x =>
          rw [hg] at h; cases h
          have hx := hg
          simp only [Named, List.mem_singleton]
          constructor
          · rintro rfl; exact pyGet_at.1 hg
          · intro ho; rw [pyGet_at.2 ho] at hx; exact Option.some.inj hx
      | str t => cases h

/-- **C55 (disconnect).** A disconnection from a node `b` removes the edge from `a` to `b` if there is one, and otherwise, for a storage `b`, exactly
the edges from `a` to the slots named, at least one of which existed. If it raises an exception, the graph is as before. -/
theorem C55_disconnect (s : St) (a b : Nat) (slot : Option Slot) (all : Bool) :
    (∀ s', (Op.disconnect a (some b) slot all).run s = (s', none) → s'.heap = s.heap ∧ s'.nodes = s.nodes ∧
      (((a, b) ∈ s.edges ∧ ∀ e, e ∈ s'.edges ↔ e ∈ s.edges ∧ e ≠ (a, b)) ∨
       ((a, b) ∉ s.edges ∧ ∃ y os is, s.heap[b]? = some y ∧ y.slots = .storage os is ∧ (∃ o, Named os slot o ∧ (a, o) ∈ s.edges) ∧
          ∀ e, e ∈ s'.edges ↔ e ∈ s.edges ∧ ¬∃ o, Named os slot o ∧ e = (a, o)))) ∧
    (∀ s' e, (Op.disconnect a (some b) slot all).run s = (s', some e) → s' = s) := by
  have hfew := disconnect_fewer s a (some b) slot all
  constructor
  · intro s' h
    simp only [Op.run] at h
    rw [h] at hfew
    refine ⟨hfew.heap, hfew.nodes, ?_⟩
    unfold disconnect at h
    have h' : disconnectFrom s a b slot all = (s', none) := by
      cases hsl : (s.heap[a]?).map Obj.slots with
      | none => rw [hsl] at h; simp at h
      | some sl => rw [hsl] at h; cases sl <;> first | exact h | (simp at h)
    unfold disconnectFrom at h'
    by_cases he : (a, b) ∈ s.edges
    · left
      have hr : s.removeEdge a b = some { s with edges := s.edges.filter (· != (a, b)) } := by unfold St.removeEdge; rw [if_pos he]
      rw [hr] at h'
      simp only [Prod.mk.injEq, and_true] at h'
      subst h'
      exact ⟨he, fun e => by simp⟩
    · right
      refine ⟨he, ?_⟩
      have hr : s.removeEdge a b = none := by unfold St.removeEdge; rw [if_neg he]
      rw [hr] at h'
      simp only at h'
      cases hb : s.heap[b]? with
      | none => rw [hb] at h'; simp at h'
      | some y =>
        rw [hb] at h'
        simp only [Option.map_some] at h'
        cases hy : y.slots with
        | storage os is =>
          rw [hy] at h'
          simp only at h'
          cases hs : storageSlots os slot all with
          | error e => rw [hs] at h'; simp at h'
          | ok vs =>
            rw [hs] at h'
            simp only at h'
            obtain ⟨h1, h2, -⟩ := removeEach_spec a vs s false
            have hn := storageSlots_named hs
            rcases hre : removeEach a vs (s, false) with ⟨s1, _ | _⟩
            · rw [hre] at h'; simp at h'
            · rw [hre] at h' h1 h2
              simp only [Prod.mk.injEq, and_true] at h'
              subst h'
              refine ⟨y, os, is, rfl, hy, ?_, ?_⟩
              · obtain ⟨v, hv, hve⟩ := (h2.1 rfl).resolve_left (by simp)
                exact ⟨v, (hn v).1 hv, hve⟩
              · intro e
                rw [h1 e]
                simp only [hn]
        | _ => rw [hy] at h'; simp at h'
  · intro s' e h
    simp only [Op.run] at h
    unfold disconnect at h
    have hcases : s' = s ∨ disconnectFrom s a b slot all = (s', some e) := by
      cases hsl : (s.heap[a]?).map Obj.slots with
      | none => rw [hsl] at h; simp only [Prod.mk.injEq] at h; exact Or.inl h.1.symm
      | some sl =>
        rw [hsl] at h
        cases sl with
        | none => simp only [Prod.mk.injEq] at h; exact Or.inl h.1.symm
        | _ => exact Or.inr h
    rcases hcases with h | h'
    · exact h
    unfold disconnectFrom at h'
    by_cases he : (a, b) ∈ s.edges
    · have hr : s.removeEdge a b = some { s with edges := s.edges.filter (· != (a, b)) } := by unfold St.removeEdge; rw [if_pos he]
      rw [hr] at h'; simp at h'
    · have hr : s.removeEdge a b = none := by unfold St.removeEdge; rw [if_neg he]
      rw [hr] at h'
      simp only at h'
      cases hb : (s.heap[b]?).map Obj.slots with
      | none => rw [hb] at h'; simp only [Prod.mk.injEq] at h'; exact h'.1.symm
      | some sl =>
        rw [hb] at h'
        cases sl with
        | storage os is =>
          simp only at h'
          cases hs : storageSlots os slot all with
          | error e => rw [hs] at h'; simp only [Prod.mk.injEq] at h'; exact h'.1.symm
          | ok vs =>
            rw [hs] at h'
            simp only at h'
            obtain ⟨-, h2, h3⟩ := removeEach_spec a vs s false
            rcases hre : removeEach a vs (s, false) with ⟨s1, _ | _⟩
            · rw [hre] at h' h2 h3
              simp only [Prod.mk.injEq] at h'
              rw [← h'.1]
              exact h3 (fun v hv hc => by have := h2.2 (Or.inr ⟨v, hv, hc⟩); simp at this)
            · rw [hre] at h'; simp at h'
        | _ => simp only [Prod.mk.injEq] at h'; exact h'.1.symm

/-- **C55 (disconnect everything).** Without a node, a node of the model which can be connected loses all edges which start at it, whatever slot is
given; nothing else changes. -/
theorem C55_disconnect_all (s : St) (h : Reach s) (a : Nat) (ha : a ∈ s.nodes) (x : Obj) (hx : s.heap[a]? = some x) (hc : x.slots ≠ .none)
    (slot : Option Slot) (all : Bool) : ∃ s', (Op.disconnect a none slot all).run s = (s', none) ∧ s'.heap = s.heap ∧ s'.nodes = s.nodes ∧
      ∀ e, e ∈ s'.edges ↔ e ∈ s.edges ∧ e.1 ≠ a := by
  have key : ∀ (vs : List Nat) (s : St), vs.Nodup → (∀ v ∈ vs, (a, v) ∈ s.edges) → ∃ s', disconnectEach a slot all vs s = (s', none) ∧
      s'.heap = s.heap ∧ s'.nodes = s.nodes ∧ ∀ e, e ∈ s'.edges ↔ e ∈ s.edges ∧ ¬∃ v ∈ vs, e = (a, v) := by
    intro vs
    induction vs with
    | nil => intro s _ _; exact ⟨s, rfl, rfl, rfl, by simp⟩
    | cons v vs ih =>
      intro s hnd hall
      have hv := hall v (by simp)
      have hd : disconnectFrom s a v slot all = ({ s with edges := s.edges.filter (· != (a, v)) }, none) := by
        unfold disconnectFrom St.removeEdge; rw [if_pos hv]
      obtain ⟨s', h1, h2, h3, h4⟩ := ih { s with edges := s.edges.filter (· != (a, v)) } (List.nodup_cons.1 hnd).2 (by
        intro w hw
        simp only [List.mem_filter, bne_iff_ne, ne_eq, Prod.mk.injEq, true_and]
        exact ⟨hall w (by simp [hw]), fun e => (List.nodup_cons.1 hnd).1 (e ▸ hw)⟩)
      refine ⟨s', by rw [disconnectEach, hd]; exact h1, h2, h3, ?_⟩
      intro e
      rw [h4 e]
      simp only [List.mem_filter, bne_iff_ne, ne_eq, List.mem_cons, exists_eq_or_imp, not_or, and_assoc]
  have hedges := (reach_inv h).edgesNodup
  obtain ⟨s', h1, h2, h3, h4⟩ := key ((s.edges.filter (·.1 == a)).map Prod.snd) s (by
      refine (List.nodup_map_iff_inj_on (hedges.filter _)).2 ?_
      intro p hp q hq hpq
      simp only [List.mem_filter, beq_iff_eq] at hp hq
      exact Prod.ext (hp.2.trans hq.2.symm) hpq) (by
      intro v hv
      simp only [List.mem_map, List.mem_filter, beq_iff_eq, Prod.exists] at hv
      obtain ⟨p, q, ⟨hpq, rfl⟩, rfl⟩ := hv
      exact hpq)
  refine ⟨s', ?_, h2, h3, ?_⟩
  · simp only [Op.run, disconnect, hx, Option.map_some]
    cases hs : x.slots <;> first | exact absurd hs hc | (simp only [if_pos ha]; exact h1)
  · intro e
    rw [h4 e]
    refine and_congr_right fun he => not_congr ?_
    constructor
    · rintro ⟨v, -, rfl⟩; rfl
    · intro hea
      exact ⟨e.2, by simp only [List.mem_map, List.mem_filter, beq_iff_eq]; exact ⟨e, ⟨he, hea⟩, rfl⟩, Prod.ext hea rfl⟩

/-- **C55 (round trip), partial.** A connection which was not there before, from a node without slots to a node without slots or to a storage, is
undone by `disconnect` with the same slot: the graph is the same as before. Missing: nodes with slots at the start of the connection and other
compound nodes at its end (`C55_from_storage_fails`, `C55_compound_fails`). -/
theorem C55_round_trip_partial (s : St) (a b : Nat) (x y : Obj) (hx : s.heap[a]? = some x) (hy : s.heap[b]? = some y) (hxp : x.slots = .plain)
    (hyp : y.slots = .plain ∨ ∃ os is, y.slots = .storage os is) (t : Option Slot) (v : Nat) (ho : x.owner = y.owner) (ht : Entry b y.slots t v)
    (ha : a ∈ s.nodes) (hv : v ∈ s.nodes) (hnew : (a, v) ∉ s.edges) (hdirect : (a, b) ∉ s.edges) (all : Bool) :
    (Op.disconnect a (some b) t all).run ((Op.connect a b none t).run s).1 = (s, none) := by
  have hconn : (Op.connect a b none t).run s = ({ s with edges := s.edges ++ [(a, v)] }, none) := by
    have hu : Exit a x.slots none a := by rw [hxp]; exact .plain
    have e : s.addEdge a v = { s with edges := s.edges ++ [(a, v)] } := by
      unfold St.addEdge
      simp only [addNode_of_mem ha, addNode_of_mem hv, if_neg hnew]
    simp only [Op.run, connect, hx, hy, if_neg (exit_ne_none hu), ho, ne_eq, not_true, if_false, if_neg (entry_ne_none ht), exits_iff.2 hu,
      entries_iff.2 ht, List.foldl_cons, List.foldl_nil, e]
  rw [hconn]
  have hrem : ∀ w, w = v → ({ s with edges := s.edges ++ [(a, v)] } : St).removeEdge a w = some s := by
    rintro w rfl
    unfold St.removeEdge
    simp only [List.mem_append, List.mem_singleton, or_true, if_true]
    have : (s.edges ++ [(a, w)]).filter (· != (a, w)) = s.edges := by
      rw [List.filter_append, List.filter_eq_self.2 (fun e he => by simp only [bne_iff_ne]; rintro rfl; exact hnew he)]
      simp
    rw [this]
  simp only [Op.run, disconnect, hx, Option.map_some, hxp]
  unfold disconnectFrom
  rcases hyp with hyp | ⟨os, is, hyp⟩
  · rw [hyp] at ht
    cases ht
    rw [hrem b rfl]
  · have hb : b ≠ v ∨ b = v := by omega
    rcases hb with hb | hb
    · have hn : ({ s with edges := s.edges ++ [(a, v)] } : St).removeEdge a b = none := by
        unfold St.removeEdge
        rw [if_neg]
        simp only [List.mem_append, List.mem_singleton, Prod.mk.injEq, true_and, not_or]
        exact ⟨hdirect, hb⟩
      rw [hn]
      simp only [hy, Option.map_some, hyp]
      have hs : storageSlots os t all = .ok [v] := by
        rw [hyp] at ht
        cases ht with
        | only => simp [storageSlots]
        | nth _ _ k _ hk =>
          have hne : os ≠ [] := by rintro rfl; rcases hk with ⟨_, _, hk⟩ | ⟨_, _, hk⟩ <;> simp at hk
          simp only [storageSlots, if_neg hne, pyGet_at.2 hk]
      rw [hs]
      simp only [removeEach, hrem v rfl]
    · subst hb; rw [hrem b rfl]

private def never : Nat → Bool := fun _ => false

private def build (ops : List Op) : St := runAll ops St.empty

private theorem reach_build (ops : List Op) (h : ∀ op ∈ ops, ∀ s, op.live s) : Reach (build ops) := by
  have : ∀ s, Reach s → (∀ op ∈ ops, ∀ s, op.live s) → Reach (runAll ops s) := by
    induction ops with
    | nil => intro s hs _; exact hs
    | cons o os ih =>
      intro s hs hl
      exact ih (fun op hop => h op (by simp [hop])) _ (.step s o hs (hl o (by simp) s)) (fun op hop => hl op (by simp [hop]))
  exact this _ .empty h

/-- The hypotheses of the theorems are met: a link connected to the second output of a storage. -/
example : ∃ s x y, Reach s ∧ s.heap[0]? = some x ∧ s.heap[1]? = some y ∧ x.slots = .plain ∧ y.slots = .storage [2, 3] [4] ∧
    x.owner = y.owner ∧ Entry 1 y.slots (some (.int 1)) 3 ∧ 0 ∈ s.nodes ∧ 3 ∈ s.nodes ∧ (0, 3) ∉ s.edges ∧ (0, 1) ∉ s.edges ∧
    ((Op.connect 0 1 none (some (.int 1))).run s).1.edges = [(0, 3)] :=
  ⟨build [.create .plain "L" never, .create (.storage 2 1) "S" never], _, _, reach_build _ (by simp [Op.live]), rfl, rfl, rfl, rfl, rfl,
    .nth _ _ _ _ (Or.inl ⟨1, rfl, rfl⟩), by decide +kernel, by decide +kernel, by decide +kernel, by decide +kernel, by decide +kernel⟩

/-- **C55 fails for connections from a storage.** They start at a sub-node: `storage.disconnect(node)` raises a `TypeError`, and
`storage.disconnect()` leaves them without a word. -/
theorem C55_from_storage_fails : ∃ s s', Reach s ∧ (Op.connect 0 3 none none).run s = (s', none) ∧ s'.edges = [(2, 3)] ∧
    (Op.disconnect 0 (some 3) none true).run s' = (s', some .type) ∧ (Op.disconnect 0 none none true).run s' = (s', none) :=
  ⟨build [.create (.storage 1 1) "S" never, .create .plain "L" never], _, reach_build _ (by simp [Op.live]), rfl, rfl, rfl, rfl⟩

/-- **C55 fails for connections to compound nodes.** `node.disconnect(loss_link)` raises a `TypeError`. -/
theorem C55_compound_fails : ∃ s s', Reach s ∧ (Op.connect 0 1 none none).run s = (s', none) ∧ (0, 3) ∈ s'.edges ∧
    (Op.disconnect 0 (some 1) none true).run s' = (s', some .type) :=
  ⟨build [.create .plain "A" never, .create .loss "L" never], _, reach_build _ (by simp [Op.live]), rfl, by decide +kernel, by decide +kernel⟩

/-- Which exception tells that there is no such connection: `NetworkXError` for storages that are asked for all slots, `AttributeError` for nodes that cannot be connected (virtual and aggregated ones, on either side), and
`TypeError` for all others. -/
theorem C55_not_connected (s : St) (a b : Nat) (x y : Obj) (hx : s.heap[a]? = some x) (hy : s.heap[b]? = some y) (hno : (a, b) ∉ s.edges) (slot : Option Slot) :
    (x.slots = .none ∨ y.slots = .none → ∀ all, (Op.disconnect a (some b) slot all).run s = (s, some .attribute)) ∧
    (x.slots ≠ .none → y.slots ≠ .none → (∀ os is, y.slots ≠ .storage os is) → ∀ all, (Op.disconnect a (some b) slot all).run s = (s, some .type)) ∧
    (x.slots ≠ .none → ∀ os is, y.slots = .storage os is → os ≠ [] → (∀ o ∈ os, (a, o) ∉ s.edges) →
      (Op.disconnect a (some b) none true).run s = (s, some .network)) := by
  have hr : s.removeEdge a b = none := by unfold St.removeEdge; rw [if_neg hno]
  have hd : ∀ all, (Op.disconnect a (some b) slot all).run s = if x.slots = .none then (s, some .attribute) else disconnectFrom s a b slot all := by
    intro all
    simp only [Op.run, disconnect, hx, Option.map_some]
    cases x.slots <;> simp
  refine ⟨?_, ?_, ?_⟩
  · intro h all
    rw [hd]
    split
    · rfl
    · rename_i hn
      unfold disconnectFrom
      rw [hr]
      simp only [hy, Option.map_some, h.resolve_left hn]
  · intro h1 h2 h3 all
    rw [hd, if_neg h1]
    unfold disconnectFrom
    rw [hr]
    simp only [hy, Option.map_some]
  · intro h1 os is h2 h3 h4
    have hrem : ∀ vs : List Nat, (∀ o ∈ vs, (a, o) ∉ s.edges) → removeEach a vs (s, false) = (s, false) := by
      intro vs
      induction vs with
      | nil => intro _; rfl
      | cons v vs ih =>
        intro hv
        have : s.removeEdge a v = none := by unfold St.removeEdge; rw [if_neg (hv v (by simp))]
        simp only [removeEach, this]
        exact ih fun o ho => hv o (by simp [ho])
    have hs : storageSlots os none true = .ok os := by simp [storageSlots, h3]
    have hd' : (Op.disconnect a (some b) none true).run s = disconnectFrom s a b none true := by
      simp only [Op.run, disconnect, hx, Option.map_some]
    rw [hd']
    unfold disconnectFrom
    rw [hr]
    simp only [hy, Option.map_some, h2, hs, hrem os h4]

/-- Not connected: a link and a storage with two outputs. -/
example : ∃ s x y, Reach s ∧ s.heap[0]? = some x ∧ s.heap[1]? = some y ∧ (0, 1) ∉ s.edges ∧ x.slots ≠ .none ∧ y.slots = .storage [2, 3] [4] ∧ ∀ o ∈ [2, 3], (0, o) ∉ s.edges :=
  ⟨build [.create .plain "L" never, .create (.storage 2 1) "S" never], _, _, reach_build _ (by simp [Op.live]), rfl, rfl, by decide +kernel, by decide +kernel, rfl, by decide +kernel⟩

end Verif.Network

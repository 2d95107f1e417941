import Verif.Proof.NetworkScripts
import Verif.Proof.NetworkDelete
/-!
# The invariant of the graph of nodes holds over every history
-/

namespace Verif.Network

theorem storageSlots_one {l us : List Nat} {slot : Option Slot} (h : storageSlots l slot false = .ok us) : ∃ u ∈ l, us = [u] := by
  unfold storageSlots at h
  split at h
  · cases h
  · cases slot with
    | none =>
      simp only [Bool.false_or, beq_iff_eq] at h
      split at h
      · rename_i hl
        cases h
        obtain ⟨x, rfl⟩ := List.length_eq_one_iff.1 hl
        exact ⟨x, by simp, rfl⟩
      · cases h
    | some sl =>
      cases sl with
      | int i =>
        simp only at h
        cases hg : pyGet l i with
        | none => rw [hg] at h; cases h
        | some x =>
          rw [hg] at h
          cases h
          refine ⟨x, ?_, rfl⟩
          unfold pyGet at hg
          split at hg
          · exact List.mem_of_getElem? hg
          · split at hg
            · exact List.mem_of_getElem? hg
            · cases hg
      | str t => cases h

theorem exits_one {a : Nat} {sl : Slots} {slot : Option Slot} {us : List Nat} (h : exits a sl slot = .ok us) : ∃ u, us = [u] := by
  cases sl with
  | plain => simp only [exits] at h; split at h <;> cases h; exact ⟨a, rfl⟩
  | storage os is => obtain ⟨u, -, hu⟩ := storageSlots_one h; exact ⟨u, hu⟩
  | compound o i => cases h; exact ⟨o, rfl⟩
  | split ns os i =>
    cases slot with
    | none => cases h
    | some x =>
      simp only [exits] at h
      split at h
      · cases hg : os[ns.idxOf x]? with
        | none => rw [hg] at h; cases h
        | some o => rw [hg] at h; cases h; exact ⟨o, rfl⟩
      · cases h
  | none => cases h

theorem entries_one {b : Nat} {sl : Slots} {slot : Option Slot} {vs : List Nat} (h : entries b sl slot = .ok vs) : ∃ v, vs = [v] := by
  cases sl with
  | plain => simp only [entries] at h; split at h <;> cases h; exact ⟨b, rfl⟩
  | storage os is => obtain ⟨u, -, hu⟩ := storageSlots_one h; exact ⟨u, hu⟩
  | compound o i => cases h; exact ⟨i, rfl⟩
  | split ns os i => cases h; exact ⟨i, rfl⟩
  | none => cases h

/-- What a connection does: nothing, or one edge. -/
theorem connect_cases (s : St) (a b : Nat) (f t : Option Slot) :
    (∃ e, connect s a b f t = (s, some e)) ∨
    ∃ x y u v, s.heap[a]? = some x ∧ s.heap[b]? = some y ∧ x.owner = y.owner ∧ exits a x.slots f = .ok [u] ∧ entries b y.slots t = .ok [v] ∧
      connect s a b f t = (s.addEdge u v, none) := by
  unfold connect
  cases ha : s.heap[a]? with
  | none => exact Or.inl ⟨_, rfl⟩
  | some x =>
    cases hb : s.heap[b]? with
    | none => exact Or.inl ⟨_, rfl⟩
    | some y =>
      simp only
      split
      · exact Or.inl ⟨_, rfl⟩
      split
      · exact Or.inl ⟨_, rfl⟩
      split
      · exact Or.inl ⟨_, rfl⟩
      cases hu : exits a x.slots f with
      | error e => exact Or.inl ⟨_, rfl⟩
      | ok us =>
        cases hv : entries b y.slots t with
        | error e => exact Or.inl ⟨_, rfl⟩
        | ok vs =>
          obtain ⟨u, rfl⟩ := exits_one hu
          obtain ⟨v, rfl⟩ := entries_one hv
          right
          refine ⟨x, y, u, v, rfl, rfl, ?_, hu, hv, rfl⟩
          rename_i h _
          exact not_not.1 h

theorem connect_inv {s : St} (h : Inv s) (a b : Nat) (f t : Option Slot) (hl : (Op.connect a b f t).live s) : Inv (connect s a b f t).1 := by
  rcases connect_cases s a b f t with ⟨e, he⟩ | ⟨x, y, u, v, hx, hy, -, hu, hv, he⟩
  · rw [he]; exact h
  · obtain ⟨h1, h2⟩ := hl x y [u] [v] hx hy hu hv
    have h1 := h1 u (by simp)
    have h2 := h2 v (by simp)
    rw [he]
    refine addEdge_inv ?_
    rw [addNode_of_mem h1, addNode_of_mem h2]
    exact h

/-- A graph with fewer edges. -/
structure Fewer (s s' : St) : Prop where
  heap : s'.heap = s.heap
  nodes : s'.nodes = s.nodes
  edges : s'.edges.Sublist s.edges

theorem Fewer.refl (s : St) : Fewer s s := ⟨rfl, rfl, List.Sublist.refl _⟩

theorem Fewer.trans {a b c : St} (h : Fewer a b) (k : Fewer b c) : Fewer a c :=
  ⟨k.heap.trans h.heap, k.nodes.trans h.nodes, k.edges.trans h.edges⟩

theorem Fewer.inv {s s' : St} (h : Fewer s s') (hi : Inv s) : Inv s' := by
  have hp : s'.parent = s.parent := by funext i; unfold St.parent; rw [h.heap]
  have hn : s'.name = s.name := by funext i; unfold St.name; rw [h.heap]
  refine ⟨by rw [h.nodes]; exact hi.nodup, by rw [h.nodes, h.heap]; exact hi.bound, by rw [hp]; exact hi.older, ?_, hi.edgesNodup.sublist h.edges, ?_⟩
  · intro e he; rw [h.nodes]; exact hi.ends e (h.edges.subset he)
  · unfold St.keys St.top; rw [hn, hp, h.nodes]; exact hi.keys

theorem removeEdge_fewer {s s' : St} {a b : Nat} (h : s.removeEdge a b = some s') : Fewer s s' := by
  unfold St.removeEdge at h
  split at h
  · cases h; exact ⟨rfl, rfl, List.filter_sublist⟩
  · cases h

theorem removeEach_fewer (a : Nat) (vs : List Nat) : ∀ (s : St) (d : Bool), Fewer s (removeEach a vs (s, d)).1 := by
  induction vs with
  | nil => intro s d; exact Fewer.refl s
  | cons v vs ih =>
    intro s d
    unfold removeEach
    cases hr : s.removeEdge a v with
    | none => exact ih s d
    | some s' => exact (removeEdge_fewer hr).trans (ih s' true)

theorem disconnectFrom_fewer (s : St) (a b : Nat) (slot : Option Slot) (all : Bool) : Fewer s (disconnectFrom s a b slot all).1 := by
  unfold disconnectFrom
  cases hr : s.removeEdge a b with
  | some s' => exact removeEdge_fewer hr
  | none =>
    simp only
    cases (s.heap[b]?).map Obj.slots with
    | none => exact Fewer.refl s
    | some sl =>
      cases sl with
      | storage os is =>
        simp only
        cases storageSlots os slot all with
        | error e => exact Fewer.refl s
        | ok vs =>
          simp only
          have := removeEach_fewer a vs s false
          rcases hre : removeEach a vs (s, false) with ⟨s', _ | _⟩ <;> rw [hre] at this <;> exact this
      | _ => exact Fewer.refl s

theorem disconnectEach_fewer (a : Nat) (slot : Option Slot) (all : Bool) (vs : List Nat) : ∀ s : St, Fewer s (disconnectEach a slot all vs s).1 := by
  induction vs with
  | nil => intro s; exact Fewer.refl s
  | cons v vs ih =>
    intro s
    unfold disconnectEach
    have := disconnectFrom_fewer s a v slot all
    rcases hd : disconnectFrom s a v slot all with ⟨s', _ | e⟩
    · rw [hd] at this; exact this.trans (ih s')
    · rw [hd] at this; exact this

theorem disconnect_fewer (s : St) (a : Nat) (node : Option Nat) (slot : Option Slot) (all : Bool) : Fewer s (disconnect s a node slot all).1 := by
  unfold disconnect
  cases (s.heap[a]?).map Obj.slots with
  | none => exact Fewer.refl s
  | some sl =>
    cases sl with
    | none => exact Fewer.refl s
    | _ =>
      simp only
      cases node with
      | some b => exact disconnectFrom_fewer s a b slot all
      | none =>
        simp only
        split
        · exact disconnectEach_fewer a slot all _ s
        · exact Fewer.refl s

theorem run_inv {s : St} (h : Inv s) (op : Op) (hl : op.live s) : Inv (op.run s).1 := by
  cases op with
  | create k n r => exact create_inv h r k n
  | rename i n =>
    simp only [Op.run]
    split
    · rename_i hi; exact setName_inv h i hi n
    · exact h
  | delete i => exact deleteNode_inv h i
  | deleteName n =>
    simp only [Op.run, deleteName]
    cases lookup s n with
    | ok i => exact deleteNode_inv h i
    | error e => exact h
  | connect a b f t => exact connect_inv h a b f t hl
  | disconnect a n sl all => exact (disconnect_fewer s a n sl all).inv h

theorem reach_inv {s : St} (h : Reach s) : Inv s := by
  induction h with
  | empty => exact ⟨by simp [St.empty], by simp [St.empty], by intro i p hp; simp [St.empty, St.parent] at hp, by simp [St.empty], by simp [St.empty],
      by simp [St.empty, St.keys, St.top]⟩
  | step s op _ hl ih => exact run_inv ih op hl

/-! ### What a constructor leaves alone -/

/-- Nodes older than `base` and the connections between them are the same. -/
structure Frame (base : Nat) (s s' : St) : Prop where
  nodes : ∀ i < base, i ∈ s'.nodes ↔ i ∈ s.nodes
  name : ∀ i < base, s'.name i = s.name i
  parent : s'.parent = s.parent
  edges : ∀ a b, a < base ∨ b < base → ((a, b) ∈ s'.edges ↔ (a, b) ∈ s.edges)

theorem Frame.refl (base : Nat) (s : St) : Frame base s s := ⟨fun _ _ => Iff.rfl, fun _ _ => rfl, rfl, fun _ _ _ => Iff.rfl⟩

theorem Frame.trans {base : Nat} {a b c : St} (h : Frame base a b) (k : Frame base b c) : Frame base a c :=
  ⟨fun i hi => (k.nodes i hi).trans (h.nodes i hi), fun i hi => (k.name i hi).trans (h.name i hi), k.parent.trans h.parent,
    fun x y hxy => (k.edges x y hxy).trans (h.edges x y hxy)⟩

theorem setName_frame (base : Nat) (s : St) (r : Nat) (n : String) : Frame base s (s.setName (base + r) n).1 := by
  rcases hs : s.setName (base + r) n with ⟨s', _ | e⟩
  · have h1 := setName_nodes s (base + r) n
    have h2 := setName_parent s (base + r) n
    have h3 := setName_edges s (base + r) n
    rw [hs] at h1 h2 h3
    simp only at h1 h2 h3 ⊢
    refine ⟨fun i _ => by rw [h1], fun i hi => ?_, h2, fun a b _ => by rw [h3]⟩
    exact (setName_ok hs).2.2 i (by omega)
  · rw [(setName_err hs).1]; exact Frame.refl base s

theorem addNode_frame (base : Nat) (s : St) (r : Nat) : Frame base s (s.addNode (base + r)) := by
  refine ⟨fun i hi => ?_, fun i _ => by rw [addNode_name], addNode_parent _ _, fun a b _ => by rw [addNode_edges]⟩
  rw [mem_addNode]
  constructor
  · rintro (h | h)
    · exact h
    · omega
  · exact Or.inl

theorem addEdge_frame (base : Nat) (s : St) (a b : Nat) : Frame base s (s.addEdge (base + a) (base + b)) := by
  refine ⟨fun i hi => ?_, fun i _ => by rw [addEdge_name], addEdge_parent _ _ _, fun x y hxy => ?_⟩
  · rw [addEdge_nodes, mem_addNode, mem_addNode]
    constructor
    · rintro ((h | h) | h)
      · exact h
      · omega
      · omega
    · exact fun h => Or.inl (Or.inl h)
  · rw [addEdge_edges]
    split
    · exact Iff.rfl
    · rw [List.mem_append, List.mem_singleton, Prod.mk.injEq]
      constructor
      · rintro (h | ⟨h1, h2⟩)
        · exact h
        · omega
      · exact Or.inl

theorem exec_frame (raises : Nat → Bool) (base : Nat) (l : List Act) : ∀ s : St, Frame base s (exec raises base l s).1 := by
  induction l with
  | nil => intro s; exact Frame.refl base s
  | cons a l ih =>
    intro s
    cases a with
    | absent n => simp only [exec]; split; exacts [Frame.refl base s, ih s]
    | may k => simp only [exec]; split; exacts [Frame.refl base s, ih s]
    | init r n =>
      simp only [exec]
      have := setName_frame base s r n
      rcases hs : s.setName (base + r) n with ⟨s', _ | e⟩
      · rw [hs] at this; exact this.trans (ih s')
      · rw [hs] at this; exact this
    | add r => exact (addNode_frame base s r).trans (ih _)
    | edge a b => exact (addEdge_frame base s a b).trans (ih _)

/-- A name which an older node has is refused. -/
theorem exec_refuses (raises : Nat → Bool) (base : Nat) (l : List Act) (r : Nat) (n : String) (hl : Act.init r n ∈ l) : ∀ s : St,
    (∃ i ∈ s.nodes, i < base ∧ s.parent i = none ∧ s.name i = n) → (exec raises base l s).2 ≠ none := by
  induction l with
  | nil => cases hl
  | cons a l ih =>
    rintro s ⟨i, hi, hib, hip, hin⟩
    have next : ∀ s', Frame base s s' → Act.init r n ∈ l → (exec raises base l s').2 ≠ none := fun s' hf hm =>
      ih hm s' ⟨i, (hf.nodes i hib).2 hi, hib, by rw [hf.parent]; exact hip, by rw [hf.name i hib]; exact hin⟩
    cases a with
    | absent m =>
      have hm : Act.init r n ∈ l := by simpa using hl
      simp only [exec]; split
      · simp
      · exact next s (Frame.refl base s) hm
    | may k =>
      have hm : Act.init r n ∈ l := by simpa using hl
      simp only [exec]; split
      · simp
      · exact next s (Frame.refl base s) hm
    | init r' n' =>
      simp only [exec]
      have hf := setName_frame base s r' n'
      rcases hs : s.setName (base + r') n' with ⟨s', _ | e⟩
      · rw [hs] at hf
        rcases List.mem_cons.1 hl with h | h
        · simp only [Act.init.injEq] at h
          obtain ⟨-, rfl⟩ := h
          exact absurd (mem_keys.2 ⟨i, hi, hip, hin⟩) (setName_ok hs).1
        · exact next s' hf h
      · simp
    | add r' => exact next _ (addNode_frame base s r') (by simpa using hl)
    | edge a b => exact next _ (addEdge_frame base s a b) (by simpa using hl)

/-- After a constructor has run to its end: the nodes it adds are in the graph, the last name given holds. -/
theorem exec_ends {raises : Nat → Bool} {base : Nat} (l : List Act) : ∀ s s' : St, exec raises base l s = (s', none) →
    (∀ i ∈ s.nodes, i ∈ s'.nodes) ∧ (∀ r, Act.add r ∈ l → base + r ∈ s'.nodes) ∧ s'.heap.length = s.heap.length ∧
    (∀ r, (∀ n, Act.init r n ∉ l) → s'.name (base + r) = s.name (base + r)) := by
  induction l with
  | nil => intro s s' h; simp only [exec, Prod.mk.injEq, and_true] at h; subst h; exact ⟨fun _ h => h, fun r h => (by cases h), rfl, fun _ _ => rfl⟩
  | cons a l ih =>
    intro s s' h
    cases a with
    | absent m =>
      simp only [exec] at h; split at h
      · simp at h
      · obtain ⟨h1, h2, h3, h4⟩ := ih s s' h
        exact ⟨h1, fun r hr => h2 r (by simpa using hr), h3, fun r hr => h4 r (by simpa using hr)⟩
    | may k =>
      simp only [exec] at h; split at h
      · simp at h
      · obtain ⟨h1, h2, h3, h4⟩ := ih s s' h
        exact ⟨h1, fun r hr => h2 r (by simpa using hr), h3, fun r hr => h4 r (by simpa using hr)⟩
    | init r n =>
      simp only [exec] at h
      have hn := setName_nodes s (base + r) n
      have hlen := setName_length s (base + r) n
      rcases hs : s.setName (base + r) n with ⟨s1, _ | e⟩
      · rw [hs] at h hn hlen
        simp only at h hn hlen
        obtain ⟨h1, h2, h3, h4⟩ := ih s1 s' h
        refine ⟨by rw [← hn]; exact h1, fun r hr => h2 r (by simpa using hr), h3.trans hlen, fun r' hr => ?_⟩
        have hne : r' ≠ r := by rintro rfl; exact hr n (by simp)
        rw [h4 r' (fun m hm => hr m (by simp [hm])), (setName_ok hs).2.2 _ (by omega)]
      · rw [hs] at h; simp at h
    | add r =>
      simp only [exec] at h
      obtain ⟨h1, h2, h3, h4⟩ := ih _ s' h
      refine ⟨fun i hi => h1 i ((mem_addNode _ _ _).2 (Or.inl hi)), fun r' hr => ?_, by rw [h3, addNode_heap], fun r' hr => ?_⟩
      · rcases List.mem_cons.1 hr with hc | hc
        · cases hc; exact h1 _ ((mem_addNode _ _ _).2 (Or.inr rfl))
        · exact h2 r' hc
      · rw [h4 r' (fun m hm => hr m (by simp [hm])), addNode_name]
    | edge a b =>
      simp only [exec] at h
      obtain ⟨h1, h2, h3, h4⟩ := ih _ s' h
      refine ⟨fun i hi => h1 i (by rw [addEdge_nodes, mem_addNode, mem_addNode]; exact Or.inl (Or.inl hi)), fun r' hr => h2 r' (by simpa using hr),
        by rw [h3, addEdge_heap], fun r' hr => ?_⟩
      rw [h4 r' (fun m hm => hr m (by simp [hm])), addEdge_name]

theorem exec_append {raises : Nat → Bool} {base : Nat} (l l' : List Act) : ∀ s, exec raises base (l ++ l') s =
    match exec raises base l s with
    | (s', none) => exec raises base l' s'
    | (s', some e) => (s', some e) := by
  induction l with
  | nil => intro s; simp [exec]
  | cons a l ih =>
    intro s
    cases a with
    | absent m => simp only [List.cons_append, exec]; split; rfl; exact ih s
    | may k => simp only [List.cons_append, exec]; split; rfl; exact ih s
    | init r n =>
      simp only [List.cons_append, exec]
      rcases hs : s.setName (base + r) n with ⟨s1, _ | e⟩
      · exact ih s1
      · rfl
    | add r => simp only [List.cons_append, exec]; exact ih _
    | edge a b => simp only [List.cons_append, exec]; exact ih _

theorem piecewise_no_self (name : String) (n : Nat) (m : String) : Act.init 0 m ∉ piecewiseSubs name n := by
  intro h
  simp [piecewiseSubs, sub] at h
  try omega

/-- Every constructor gives the node its name, once, and adds it to the graph at the end. -/
theorem script_shape (k : Kind) (name : String) : ∃ pre post, (script k name).acts = pre ++ .init 0 name :: (post ++ [.add 0]) ∧
    (∀ m, Act.init 0 m ∉ post) ∧ ∃ sl rest, (script k name).objs = (none, sl) :: rest := by
  cases k with
  | plain => exact ⟨[.may 0], [.may 1], rfl, by simp, _, _, rfl⟩
  | virtual => exact ⟨[.may 0], [.may 1], rfl, by simp, _, _, rfl⟩
  | storage o i =>
    refine ⟨[.may 0], (List.range o).map (fun n => .init (1 + n) ("[output" ++ toString n ++ "]")) ++
      (List.range i).map (fun n => .init (1 + o + n) ("[input" ++ toString n ++ "]")) ++
      [.may 1] ++ (List.range (o + i)).map (fun n => .add (1 + n)) ++ [.may 2], by simp [script], ?_, _, _, rfl⟩
    intro m hm
    simp only [List.mem_append, List.mem_map, List.mem_range, Act.init.injEq, List.mem_cons, List.not_mem_nil, or_false, reduceCtorEq, and_false,
      exists_false] at hm
    rcases hm with ⟨_, _, h, _⟩ | ⟨_, _, h, _⟩ <;> omega
  | piecewise n => exact ⟨[.may 0] ++ piecewiseSubs name n ++ [.may 1], [.may 2], by simp [script], by simp, _, _, rfl⟩
  | split n e names f =>
    refine ⟨[.may 0] ++ piecewiseSubs name (n + e) ++ [.may 1], [.may 2] ++
      ((List.range e).flatMap fun i =>
        sub (4 + (n + e) + 2 * i) (name ++ " Extra Output " ++ toString i) ++ sub (4 + (n + e) + 2 * i + 1) (name ++ " Extra Input " ++ toString i) ++
        [.edge (4 + (n + e) + 2 * i) (4 + (n + e) + 2 * i + 1), .edge (4 + n + i) (4 + (n + e) + 2 * i)]) ++
      [.may 3] ++ (if f then sub (4 + (n + e) + 2 * e) (name ++ " Agg") else []) ++ [.may 4], by simp [script], ?_, _, _, rfl⟩
    intro m hm
    cases f <;> simp [sub] at hm <;> omega
  | breakLink =>
    exact ⟨[.absent (name ++ " (storage)"), .absent (name ++ " (link)"), .init 1 (name ++ " (storage)"), .init 2 "[output0]", .init 3 "[input0]",
      .add 2, .add 3, .add 1] ++ sub 4 (name ++ " (link)") ++ [.edge 3 4, .may 0], [.may 1], rfl, by simp, _, _, rfl⟩
  | delay =>
    exact ⟨[.absent (name ++ " Output"), .absent (name ++ " Input"), .may 0] ++ sub 1 (name ++ " Output") ++ [.may 1] ++ sub 2 (name ++ " Input") ++
      [.may 2], [.may 3], rfl, by simp, _, _, rfl⟩
  | loss =>
    exact ⟨[.absent (name ++ " Output"), .absent (name ++ " Gross"), .absent (name ++ " Net"), .absent (name ++ " Aggregated")] ++
      sub 1 (name ++ " Output") ++ sub 2 (name ++ " Gross") ++ sub 3 (name ++ " Net") ++ [.edge 2 1, .edge 2 3] ++
      sub 4 (name ++ " Aggregated") ++ [.may 0], [.may 1], rfl, by simp, _, _, rfl⟩

end Verif.Network

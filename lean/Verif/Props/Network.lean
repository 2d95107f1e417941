import Verif.Proof.NetworkReach
import Mathlib.Tactic.Tauto
/-!
# C48, C55: names, deletion and connections of nodes
-/

namespace Verif.Network

/-- **C48 (names).** Over every history of creations (also those which end in an exception), renamings, deletions, connections of nodes in the model
and disconnections, no two nodes without a parent have the same name. -/
theorem C48_unique (s : St) (h : Reach s) (i j : Nat) (hi : i ∈ s.nodes) (hj : j ∈ s.nodes) (hpi : s.parent i = none) (hpj : s.parent j = none)
    (hn : s.name i = s.name j) : i = j := by
  have hinv := reach_inv h
  have htop : ∀ x, x ∈ s.nodes → s.parent x = none → x ∈ s.top := fun x h1 h2 => by simp [St.top, List.mem_filter, h1, h2]
  exact (List.nodup_map_iff_inj_on (hinv.nodup.filter _)).1 hinv.keys i (htop i hi hpi) j (htop j hj hpj) hn

/-- **C48 (creation).** A node is created under a name only if no node without a parent has that name; it then is in the model under that name, and
other nodes and the connections between them are as before. If the name is used, an exception is raised. -/
theorem C48_create (s : St) (h : Reach s) (k : Kind) (name : String) (raises : Nat → Bool) :
    ((∃ i ∈ s.nodes, s.parent i = none ∧ s.name i = name) → ((Op.create k name raises).run s).2 ≠ none) ∧
    (∀ s', (Op.create k name raises).run s = (s', none) →
      s.heap.length ∈ s'.nodes ∧ s'.parent s.heap.length = none ∧ s'.name s.heap.length = name) ∧
    (∀ s' e, (Op.create k name raises).run s = (s', e) →
      (∀ i < s.heap.length, (i ∈ s'.nodes ↔ i ∈ s.nodes) ∧ s'.name i = s.name i ∧ s'.parent i = s.parent i) ∧
      (∀ a b, a < s.heap.length ∨ b < s.heap.length → ((a, b) ∈ s'.edges ↔ (a, b) ∈ s.edges))) := by
  have hinv := reach_inv h
  obtain ⟨pre, post, hacts, hpost, sl, rest, hobjs⟩ := script_shape k name
  have hrun : (Op.create k name raises).run s = exec raises s.heap.length (script k name).acts (begun (script k name).objs s) := rfl
  refine ⟨?_, ?_, ?_⟩
  · rintro ⟨i, hi, hip, hin⟩
    have hb := hinv.bound i hi
    rw [hrun]
    refine exec_refuses raises _ _ 0 name (by rw [hacts]; simp) _ ⟨i, hi, hb, ?_, ?_⟩
    · rw [begun_parent_old _ hb]; exact hip
    · rw [begun_name_old _ hb]; exact hin
  · intro s' hs
    rw [hrun] at hs
    have hpar := (exec_frame raises s.heap.length (script k name).acts (begun (script k name).objs s)).parent
    rw [hs] at hpar
    obtain ⟨-, hadd, -, -⟩ := exec_ends _ _ _ hs
    refine ⟨hadd 0 (by rw [hacts]; simp), ?_, ?_⟩
    · simp only at hpar
      have := begun_parent_new (script k name).objs s 0
      rw [hpar]
      rw [Nat.add_zero] at this
      rw [this, hobjs]
      rfl
    · rw [hacts, exec_append] at hs
      rcases h1 : exec raises s.heap.length pre (begun (script k name).objs s) with ⟨s1, _ | e⟩
      · rw [h1] at hs
        simp only [exec, Nat.add_zero] at hs
        obtain ⟨-, -, hlen, -⟩ := exec_ends _ _ _ h1
        rcases h2 : s1.setName s.heap.length name with ⟨s2, _ | e⟩
        · rw [h2] at hs
          simp only at hs
          obtain ⟨-, -, -, h4⟩ := exec_ends _ _ _ hs
          have := h4 0 (by intro m hm; simp only [List.mem_append, List.mem_singleton, reduceCtorEq, or_false] at hm; exact hpost m hm)
          rw [Nat.add_zero] at this
          rw [this]
          refine (setName_ok h2).2.1 ?_
          rw [hlen, begun, hobjs]
          simp
        · rw [h2] at hs; simp at hs
      · rw [h1] at hs; simp at hs
  · intro s' e hs
    rw [hrun] at hs
    have hf := exec_frame raises s.heap.length (script k name).acts (begun (script k name).objs s)
    rw [hs] at hf
    refine ⟨fun i hi => ⟨hf.nodes i hi, ?_, ?_⟩, hf.edges⟩
    · rw [hf.name i hi]; exact begun_name_old _ hi
    · rw [hf.parent]; exact begun_parent_old _ hi

/-- **C48 (renaming).** A node gets a new name unless a node without a parent, itself included, has it. -/
theorem C48_rename (s : St) (i : Nat) (hi : i < s.heap.length) (name : String) :
    ((∃ j ∈ s.nodes, s.parent j = none ∧ s.name j = name) → (Op.rename i name).run s = (s, some .nameUsed)) ∧
    (¬(∃ j ∈ s.nodes, s.parent j = none ∧ s.name j = name) → ∃ s', (Op.rename i name).run s = (s', none) ∧ s'.name i = name ∧
      (∀ j, j ≠ i → s'.name j = s.name j) ∧ s'.parent = s.parent ∧ s'.nodes = s.nodes ∧ s'.edges = s.edges) := by
  simp only [Op.run, if_pos hi]
  rw [← mem_keys]
  constructor
  · intro h; unfold St.setName; rw [if_pos h]
  · intro h
    rcases hs : s.setName i name with ⟨s', _ | e⟩
    · have h1 := setName_nodes s i name
      have h2 := setName_parent s i name
      have h3 := setName_edges s i name
      rw [hs] at h1 h2 h3
      obtain ⟨-, h4, h5⟩ := setName_ok hs
      exact ⟨s', rfl, h4 hi, h5, h2, h1, h3⟩
    · exact absurd (setName_err hs).2.2 h

/-- **C48 (look-up), partial.** A look-up finds a node with the name, or there is none; if no sub-node has the name, the node found is the one without
a parent. Missing: sub-nodes with the name (`C48_lookup_fails`). -/
theorem C48_lookup_partial (s : St) (h : Reach s) (name : String) :
    (∀ i, lookup s name = .ok i → i ∈ s.nodes ∧ s.name i = name) ∧
    ((∃ e, lookup s name = .error e) ↔ ∀ i ∈ s.nodes, s.name i ≠ name) ∧
    (∀ i ∈ s.nodes, s.name i = name → (∀ j ∈ s.nodes, s.name j = name → s.parent j = none) → lookup s name = .ok i) := by
  unfold lookup
  cases hf : s.nodes.find? fun i => s.name i == name with
  | none =>
    have hnone : ∀ i ∈ s.nodes, s.name i ≠ name := by
      intro i hi; have := List.find?_eq_none.1 hf i hi; simpa using this
    refine ⟨fun i hi => (by cases hi), ⟨fun _ => hnone, fun _ => ⟨_, rfl⟩⟩, fun i hi hn _ => absurd hn (hnone i hi)⟩
  | some j =>
    have hj := List.mem_of_find?_eq_some hf
    have hn : s.name j = name := by have := List.find?_some hf; simpa using this
    refine ⟨?_, ⟨fun ⟨e, he⟩ => (by cases he), fun hall => absurd hn (hall j hj)⟩, ?_⟩
    · intro i hi; simp only [Except.ok.injEq] at hi; subst hi; exact ⟨hj, hn⟩
    · intro i hi hni hall
      rw [C48_unique s h i j hi hj (hall i hi hni) (hall j hj hn) (hni.trans hn.symm)]

/-- **C48 (deletion).** Deleting a node of the model removes exactly the node and its sub-nodes at every depth, and exactly the connections from or to
one of these. -/
theorem C48_delete (s : St) (h : Reach s) (i : Nat) (hi : i ∈ s.nodes) : ∃ s', (Op.delete i).run s = (s', none) ∧
    (∀ x, x ∈ s'.nodes ↔ x ∈ s.nodes ∧ ¬Under s i x) ∧
    (∀ a b, (a, b) ∈ s'.edges ↔ (a, b) ∈ s.edges ∧ ¬Under s i a ∧ ¬Under s i b) ∧
    s'.nodes.Sublist s.nodes ∧ s'.edges.Sublist s.edges ∧ s'.heap = s.heap := by
  refine ⟨Without s (Under s i), delete_spec _ i s (reach_inv h) hi (by omega), fun x => mem_without, fun a b => mem_without_edges,
    List.filter_sublist, List.filter_sublist, rfl⟩

/-- **C48 (deletion by name).** -/
theorem C48_delete_name (s : St) (h : Reach s) (name : String) :
    (∀ i, lookup s name = .ok i → (Op.deleteName name).run s = (Op.delete i).run s ∧ ((Op.deleteName name).run s).2 = none) ∧
    ((∀ i ∈ s.nodes, s.name i ≠ name) → (Op.deleteName name).run s = (s, some .key)) := by
  constructor
  · intro i hi
    have hrun : (Op.deleteName name).run s = (Op.delete i).run s := by simp only [Op.run, deleteName, hi]
    obtain ⟨s', hs', -⟩ := C48_delete s h i ((C48_lookup_partial s h name).1 i hi).1
    exact ⟨hrun, by rw [hrun, hs']⟩
  · intro hall
    have : lookup s name = .error .key := by
      unfold lookup
      rw [List.find?_eq_none.2 (fun i hi => by simpa using hall i hi)]
    simp only [Op.run, deleteName, this]

private theorem exec_slots (raises : Nat → Bool) (base : Nat) (l : List Act) : ∀ s : St, (exec raises base l s).1.heap.map Obj.slots = s.heap.map Obj.slots := by
  have hset : ∀ (s : St) (i : Nat) (n : String), (s.setName i n).1.heap.map Obj.slots = s.heap.map Obj.slots := by
    intro s i n
    unfold St.setName
    split
    · rfl
    · refine List.ext_getElem? fun k => ?_
      simp only [List.getElem?_map, List.getElem?_modify]
      split <;> simp [Option.map_map, Function.comp_def]
  have hadd : ∀ (s : St) (i : Nat), (s.addNode i).heap = s.heap := by
    intro s i; unfold St.addNode; split <;> rfl
  have hedge : ∀ (s : St) (a b : Nat), (s.addEdge a b).heap = s.heap := by
    intro s a b; unfold St.addEdge; simp only; split <;> simp only [hadd]
  induction l with
  | nil => intro s; rfl
  | cons a l ih =>
    intro s
    cases a with
    | absent n => simp only [exec]; split; exacts [rfl, ih s]
    | may k => simp only [exec]; split; exacts [rfl, ih s]
    | init r n =>
      simp only [exec]
      have := hset s (base + r) n
      rcases hs : s.setName (base + r) n with ⟨s', _ | e⟩
      · rw [hs] at this; exact (ih s').trans this
      · rw [hs] at this; exact this
    | add r => simp only [exec]; rw [ih, hadd]
    | edge a b => simp only [exec]; rw [ih, hedge]

/-- The slots of a created node. -/
private theorem created_slots (raises : Nat → Bool) (k : Kind) (name : String) (s : St) :
    ((((Op.create k name raises).run s).1.heap[s.heap.length]?).map Obj.slots) = ((script k name).objs[0]?).map fun o => o.2.shift s.heap.length := by
  have hrun : (Op.create k name raises).run s = exec raises s.heap.length (script k name).acts (begun (script k name).objs s) := rfl
  rw [hrun, ← List.getElem?_map, exec_slots, List.getElem?_map]
  unfold begun
  simp only [List.getElem?_append_right (Nat.le_refl _), Nat.sub_self, List.getElem?_map, Option.map_map]
  rfl

private theorem created_parent (raises : Nat → Bool) (k : Kind) (name : String) (s : St) (r : Nat) :
    ((Op.create k name raises).run s).1.parent (s.heap.length + r) = (script k name).objs[r]?.bind fun o => o.1.map (s.heap.length + ·) := by
  have hrun : (Op.create k name raises).run s = exec raises s.heap.length (script k name).acts (begun (script k name).objs s) := rfl
  rw [hrun, (exec_frame raises s.heap.length (script k name).acts _).parent, begun_parent_new]

/-- **C48 (ends).** The places at which a new compound node is connected are different sub-nodes of its own: as many for a storage as it has outputs and inputs, one more for a split than it
has additional slots, and one at either end of the other ones; those of a break link are new nodes. -/
theorem C48_ends (s : St) (k : Kind) (name : String) (raises : Nat → Bool) (s' : St) (e : Option Error) (h : (Op.create k name raises).run s = (s', e)) :
    ∃ o, s'.heap[s.heap.length]? = some o ∧
      match k with
      | .plain => o.slots = .plain
      | .virtual => o.slots = .none
      | .storage nout nin => ∃ outs ins, o.slots = .storage outs ins ∧ outs.length = nout ∧ ins.length = nin ∧ (outs ++ ins).Nodup ∧ ∀ x ∈ outs ++ ins, s'.parent x = some s.heap.length
      | .split _ extra names _ => ∃ outs into, o.slots = .split names outs into ∧ outs.length = extra + 1 ∧ (into :: outs).Nodup ∧ ∀ x ∈ into :: outs, s'.parent x = some s.heap.length
      | .breakLink => ∃ out into, o.slots = .compound out into ∧ out ≠ into ∧ s.heap.length < out ∧ s.heap.length < into
      | _ => ∃ out into, o.slots = .compound out into ∧ out ≠ into ∧ s'.parent out = some s.heap.length ∧ s'.parent into = some s.heap.length := by
  have hs := created_slots raises k name s
  have hp := created_parent raises k name s
  rw [h] at hs hp
  simp only at hs hp
  rcases ho : s'.heap[s.heap.length]? with _ | o
  · rw [ho] at hs
    cases k <;> simp [script] at hs
  · rw [ho] at hs
    refine ⟨o, rfl, ?_⟩
    cases k with
    | plain => simpa [script, Slots.shift] using hs
    | virtual => simpa [script, Slots.shift] using hs
    | storage nout nin =>
      simp only [script, List.getElem?_cons_zero, Option.map_some, Slots.shift, Option.some.injEq] at hs
      refine ⟨_, _, hs, by simp, by simp, ?_, ?_⟩
      · rw [← List.map_append, List.nodup_map_iff (fun a b h => by simpa using h)]
        rw [List.nodup_append]
        refine ⟨List.nodup_range', List.nodup_range', ?_⟩
        intro a ha b hb
        simp only [List.mem_range'_1] at ha hb
        omega
      · intro x hx
        rw [← List.map_append] at hx
        obtain ⟨r, hr, rfl⟩ := List.mem_map.1 hx
        rw [hp]
        simp only [List.mem_append, List.mem_range'_1] at hr
        obtain ⟨q, rfl⟩ : ∃ q, r = q + 1 := ⟨r - 1, by omega⟩
        simp only [script, List.getElem?_cons_succ, List.getElem?_replicate]
        rw [if_pos (by omega)]; rfl
    | piecewise n =>
      simp only [script, List.getElem?_cons_zero, Option.map_some, Slots.shift, Option.some.injEq] at hs
      refine ⟨_, _, hs, by omega, ?_, ?_⟩
      · rw [hp]; simp only [script, List.getElem?_cons_succ, List.getElem?_replicate]; rw [if_pos (by omega)]; rfl
      · rw [hp]; simp only [script, List.getElem?_cons_succ, List.getElem?_replicate]; rw [if_pos (by omega)]; rfl
    | split n extra names factors =>
      simp only [script, List.getElem?_cons_zero, Option.map_some, Slots.shift, Option.some.injEq] at hs
      refine ⟨_, _, hs, by simp, ?_, ?_⟩
      · rw [← List.map_cons (f := (s.heap.length + ·)), List.nodup_map_iff (fun a b h => by simpa using h)]
        simp only [List.nodup_cons, List.mem_cons, List.mem_map, List.mem_range, not_or, not_exists, not_and]
        refine ⟨⟨by omega, fun x _ => by omega⟩, fun x _ => by omega, ?_⟩
        exact (List.nodup_map_iff (fun a b h => by omega)).2 List.nodup_range
      · intro x hx
        rw [← List.map_cons (f := (s.heap.length + ·))] at hx
        obtain ⟨r, hr, rfl⟩ := List.mem_map.1 hx
        have hr : 1 ≤ r ∧ r < 4 + (n + extra) + 2 * extra := by
          simp only [List.mem_cons, List.mem_map, List.mem_range] at hr
          rcases hr with rfl | rfl | ⟨q, hq, rfl⟩ <;> omega
        obtain ⟨q, rfl⟩ : ∃ q, r = q + 1 := ⟨r - 1, by omega⟩
        rw [hp]
        simp only [script, List.getElem?_cons_succ]
        rw [List.getElem?_append_left (by simp; omega), List.getElem?_replicate, if_pos (by omega)]; rfl
    | breakLink =>
      simp only [script, List.getElem?_cons_zero, Option.map_some, Slots.shift, Option.some.injEq] at hs
      exact ⟨_, _, hs, by omega, by omega, by omega⟩
    | delay =>
      simp only [script, List.getElem?_cons_zero, Option.map_some, Slots.shift, Option.some.injEq] at hs
      refine ⟨_, _, hs, by omega, ?_, ?_⟩ <;> rw [hp] <;> simp [script]
    | loss =>
      simp only [script, List.getElem?_cons_zero, Option.map_some, Slots.shift, Option.some.injEq] at hs
      refine ⟨_, _, hs, by omega, ?_, ?_⟩ <;> rw [hp] <;> simp [script]

/-- **C48 (whole graph).** Over every history connections join nodes of the model, and sub-nodes were created after their parents. -/
theorem C48_whole (s : St) (h : Reach s) : (∀ a b, (a, b) ∈ s.edges → a ∈ s.nodes ∧ b ∈ s.nodes) ∧ s.nodes.Nodup ∧ s.edges.Nodup ∧
    (∀ i p, s.parent i = some p → p < i) :=
  ⟨fun a b he => (reach_inv h).ends (a, b) he, (reach_inv h).nodup, (reach_inv h).edgesNodup, (reach_inv h).older⟩

private def liveB (s : St) : Op → Bool
  | .connect a b f t => match s.heap[a]?, s.heap[b]? with
    | some x, some y => match exits a x.slots f, entries b y.slots t with
      | .ok us, .ok vs => us.all (· ∈ s.nodes) && vs.all (· ∈ s.nodes)
      | _, _ => true
    | _, _ => true
  | _ => true

private theorem live_of (s : St) (op : Op) (h : liveB s op = true) : op.live s := by
  cases op with
  | connect a b f t =>
    intro x y us vs hx hy hu hv
    simp only [liveB, hx, hy, hu, hv, Bool.and_eq_true, List.all_eq_true, decide_eq_true_eq] at h
    exact h
  | _ => trivial

private def liveAll : List Op → St → Bool
  | [], _ => true
  | o :: os, s => liveB s o && liveAll os (o.run s).1

private theorem reach_all (ops : List Op) (s : St) (h : Reach s) (hl : liveAll ops s = true) : Reach (runAll ops s) := by
  induction ops generalizing s with
  | nil => exact h
  | cons o os ih =>
    rw [liveAll, Bool.and_eq_true] at hl
    exact ih _ (.step s o h (live_of s o hl.1)) hl.2

private def never : Nat → Bool := fun _ => false

/-- A history with compound nodes, a refused creation, a renaming, connections and a deletion: the hypotheses of the theorems are met. -/
example : ∃ s, Reach s ∧ s.keys = ["A", "B", "C"] ∧ s.edges = [(3, 1), (2, 4)] ∧ 0 ∈ s.nodes ∧ s.parent 1 = some 0 ∧
    ((Op.delete 0).run s).1.nodes = [3, 4] ∧ ((Op.delete 0).run s).1.edges = [] :=
  ⟨_, reach_all [.create (.storage 1 1) "A" never, .create .plain "B" never, .create .plain "D" never, .create .plain "B" never, .rename 4 "C",
    .create (.piecewise 1) "P" never, .connect 3 0 none none, .connect 0 4 none none, .deleteName "P"] _ .empty (by decide +kernel),
    by decide +kernel, by decide +kernel, by decide +kernel, by decide +kernel, by decide +kernel, by decide +kernel⟩

/-- **C48 fails for names of sub-nodes.** The name of a sub-node may be given to a node; a look-up then finds the sub-node, and a deletion by name
removes it. -/
theorem C48_lookup_fails : ∃ s i j, Reach s ∧ i ∈ s.nodes ∧ s.parent i = none ∧ s.name i = "A Input" ∧ lookup s "A Input" = .ok j ∧ j ≠ i ∧
    s.parent j ≠ none ∧ i ∈ ((Op.deleteName "A Input").run s).1.nodes ∧ j ∉ ((Op.deleteName "A Input").run s).1.nodes :=
  ⟨_, 5, 1, reach_all [.create (.piecewise 1) "A" never, .create .plain "A Input" never] _ .empty (by decide +kernel), by decide +kernel,
    by decide +kernel, by decide +kernel, by rfl, by decide, by decide +kernel, by decide +kernel, by decide +kernel⟩

/-- **C48 fails for sub-nodes of storages.** Every storage has sub-nodes of the same names. -/
theorem C48_children_fails : ∃ s i j, Reach s ∧ i ∈ s.nodes ∧ j ∈ s.nodes ∧ s.name i = s.name j ∧ i ≠ j :=
  ⟨_, 1, 4, reach_all [.create (.storage 1 1) "A" never, .create (.storage 1 1) "B" never] _ .empty (by decide +kernel), by decide +kernel,
    by decide +kernel, by decide +kernel, by decide⟩

/-- **C48 fails for nodes which have been deleted.** A connection from or to such a node puts it back into the model, without a check of its name: here
there are two nodes "A" afterwards. -/
theorem C48_reconnect_fails : ∃ s, Reach s ∧ ((Op.connect 0 1 none none).run s).2 = none ∧
    ((Op.connect 0 1 none none).run s).1.keys = ["B", "A", "A"] :=
  ⟨_, reach_all [.create .plain "A" never, .create .plain "B" never, .delete 0, .create .plain "A" never] _ .empty (by decide +kernel),
    by decide +kernel, by decide +kernel⟩

/-- **C48 fails for the parts of a `BreakLink`.** They have no parent and stay in the model when the node is deleted. -/
theorem C48_break_link_fails : ∃ s, Reach s ∧ s.keys = ["X (storage)", "X (link)", "X"] ∧
    ((Op.deleteName "X").run s).2 = none ∧ ((Op.deleteName "X").run s).1.keys = ["X (storage)", "X (link)"] ∧
    ((Op.deleteName "X").run s).1.edges = [(3, 4)] :=
  ⟨_, reach_all [.create .breakLink "X" never] _ .empty (by decide +kernel), by decide +kernel, by decide +kernel, by decide +kernel,
    by decide +kernel⟩

/-- **C48 fails for the aggregated node of a `LossLink`** (and of a `MultiSplitLink` with factors): it has no parent and stays in the model, although
the nodes it refers to are gone. -/
theorem C48_aggregated_fails : ∃ s s', Reach s ∧ Reach s' ∧
    ((Op.deleteName "X").run s).1.nodes = [4] ∧ ((Op.deleteName "X").run s).1.name 4 = "X Aggregated" ∧
    ((Op.deleteName "X").run s').1.nodes = [8] ∧ ((Op.deleteName "X").run s').1.name 8 = "X Agg" :=
  ⟨_, _, reach_all [.create .loss "X" never] _ .empty (by decide +kernel),
    reach_all [.create (.split 1 1 [.int 0, .int 1] true) "X" never] _ .empty (by decide +kernel), by decide +kernel, by decide +kernel,
    by decide +kernel, by decide +kernel⟩

/-- **C48 fails for creations which end in an exception.** The sub-nodes which exist by then stay in the model; their parent is not in the model. -/
theorem C48_failed_creation_fails : ∃ s s', Reach s ∧ s.nodes = [] ∧
    (Op.create (.piecewise 1) "A" (· == 2)).run s = (s', some .other) ∧ s'.nodes = [1, 2, 3, 4] ∧ s'.parent 1 = some 0 :=
  ⟨_, _, .empty, rfl, rfl, by decide +kernel, by decide +kernel⟩

/-- **C48 (failed creations), partial.** For classes without sub-nodes and for storages (without an exception of a subclass after `Storage.__init__`,
`hr`), a creation which ends in an exception changes neither the
nodes nor the connections. Missing: other compound nodes (`C48_failed_creation_fails`). -/
theorem C48_failed_creation_partial (s : St) (k : Kind) (hk : k = .plain ∨ k = .virtual ∨ ∃ o i, k = .storage o i) (name : String)
    (raises : Nat → Bool) (hr : raises 2 = false) (s' : St) (e : Error) (h : (Op.create k name raises).run s = (s', some e)) :
    s'.nodes = s.nodes ∧ s'.edges = s.edges := by
  have hinit : ∀ (base : Nat) (l : List Act), (∀ a ∈ l, (∃ r n, a = .init r n) ∨ ∃ k, a = .may k) → ∀ s : St,
      (exec raises base l s).1.nodes = s.nodes ∧ (exec raises base l s).1.edges = s.edges := by
    intro base l
    induction l with
    | nil => intro _ s; exact ⟨rfl, rfl⟩
    | cons a l ih =>
      intro hl s
      have ih := ih (fun b hb => hl b (by simp [hb]))
      rcases hl a (by simp) with ⟨r, n, rfl⟩ | ⟨k, rfl⟩
      · simp only [exec]
        have h1 := setName_nodes s (base + r) n
        have h2 := setName_edges s (base + r) n
        rcases hs : s.setName (base + r) n with ⟨s1, _ | e⟩
        · rw [hs] at h1 h2; rw [← h1, ← h2]; exact ih s1
        · rw [hs] at h1 h2; exact ⟨h1, h2⟩
      · simp only [exec]; split
        · exact ⟨rfl, rfl⟩
        · exact ih s
  have hadds : ∀ (base : Nat) (l : List Act), (∀ a ∈ l, (∃ r, a = .add r) ∨ a = .may 2) → ∀ s : St, (exec raises base l s).2 = none := by
    intro base l
    induction l with
    | nil => intro _ s; rfl
    | cons a l ih =>
      intro hl s
      have ih := ih (fun b hb => hl b (by simp [hb]))
      rcases hl a (by simp) with ⟨r, rfl⟩ | rfl
      · exact ih _
      · simp only [exec, hr]; exact ih s
  have key : ∀ pre post, (script k name).acts = pre ++ post → (∀ a ∈ pre, (∃ r n, a = .init r n) ∨ ∃ k, a = .may k) →
      (∀ a ∈ post, (∃ r, a = .add r) ∨ a = .may 2) → s'.nodes = s.nodes ∧ s'.edges = s.edges := by
    intro pre post hacts hpre hpost
    have hrun : (Op.create k name raises).run s = exec raises s.heap.length (script k name).acts (begun (script k name).objs s) := rfl
    rw [hrun, hacts, exec_append] at h
    have h1 := hinit s.heap.length pre hpre (begun (script k name).objs s)
    rcases hp : exec raises s.heap.length pre (begun (script k name).objs s) with ⟨s1, _ | e1⟩
    · rw [hp] at h
      simp only at h
      have := hadds s.heap.length post hpost s1
      rw [h] at this; cases this
    · rw [hp] at h h1
      simp only [Prod.mk.injEq, Option.some.injEq] at h
      rw [← h.1]; exact h1
  rcases hk with rfl | rfl | ⟨o, i, rfl⟩
  · exact key [.may 0, .init 0 name, .may 1] [.add 0] rfl (by simp) (by simp)
  · exact key [.may 0, .init 0 name, .may 1] [.add 0] rfl (by simp) (by simp)
  · refine key ([.may 0, .init 0 name] ++ (List.range o).map (fun n => .init (1 + n) ("[output" ++ toString n ++ "]")) ++
      (List.range i).map (fun n => .init (1 + o + n) ("[input" ++ toString n ++ "]")) ++ [.may 1])
      ((List.range (o + i)).map (fun n => .add (1 + n)) ++ [.may 2, .add 0]) (by simp [script]) ?_ ?_
    · intro a ha
      simp only [List.mem_append, List.mem_cons, List.mem_map, List.mem_range, List.not_mem_nil, or_false] at ha
      rcases ha with ((((rfl | rfl) | ⟨_, _, rfl⟩) | ⟨_, _, rfl⟩) | rfl)
      all_goals simp
    · intro a ha
      simp only [List.mem_append, List.mem_cons, List.mem_map, List.mem_range, List.not_mem_nil, or_false] at ha
      rcases ha with ⟨_, _, rfl⟩ | rfl | rfl
      all_goals simp

/-- Creations which fail: the name of the node is used, or the name of a sub-node of the storage is. -/
example : ∃ s s', Reach s ∧ s.keys = ["[input0]"] ∧ (Op.create (.storage 1 1) "A" never).run s = (s', some .nameUsed) ∧ s'.nodes = s.nodes :=
  ⟨_, _, reach_all [.create .plain "[input0]" never] _ .empty (by decide +kernel), by decide +kernel, rfl, by decide +kernel⟩

end Verif.Network

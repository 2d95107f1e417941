import Verif.Spec.Setters
import Mathlib.Data.List.Nodup
import Mathlib.Tactic.Tauto
/-!
C103: the dependencies of a component are those its attributes refer to.
-/

namespace Verif.Setters

private theorem mem_add {c : List Nat} {x y : Nat} : y ∈ add c x ↔ y ∈ c ∨ y = x := by
  unfold add
  split
  · constructor
    · exact .inl
    · rintro (h | rfl) <;> assumption
  · simp

private theorem nodup_add {c : List Nat} (h : c.Nodup) (x : Nat) : (add c x).Nodup := by
  unfold add
  split
  · exact h
  · rename_i hx
    rw [List.nodup_append]
    refine ⟨h, by simp, ?_⟩
    intro a ha b hb
    simp only [List.mem_singleton] at hb
    rintro rfl
    exact hx (hb ▸ ha)

private theorem removeAll_did : ∀ (cs c : List Nat), c.Nodup → (removeAll cs c).2.Nodup ∧ (∀ x ∈ (removeAll cs c).2, x ∈ c) ∧
    ((removeAll cs c).1 = .ok () → ∀ x, x ∈ (removeAll cs c).2 ↔ x ∈ c ∧ x ∉ cs) ∧ (cs.Nodup → (∀ x ∈ cs, x ∈ c) → (removeAll cs c).1 = .ok ()) := by
  intro cs
  induction cs with
  | nil => intro c h; exact ⟨h, fun x hx => hx, fun _ x => by simp [removeAll], fun _ _ => rfl⟩
  | cons a cs ih =>
    intro c h
    unfold removeAll
    by_cases ha : a ∈ c
    · rw [if_pos ha]
      obtain ⟨h1, h2, h3, h4⟩ := ih (c.erase a) (h.erase a)
      refine ⟨h1, fun x hx => List.mem_of_mem_erase (h2 x hx), fun hok x => ?_, fun hn hs => ?_⟩
      · rw [h3 hok x, h.mem_erase_iff]; simp; tauto
      · refine h4 (List.nodup_cons.1 hn).2 fun x hx => ?_
        rw [h.mem_erase_iff]
        exact ⟨fun e => (List.nodup_cons.1 hn).1 (e ▸ hx), hs x (List.mem_cons_of_mem _ hx)⟩
    · rw [if_neg ha]
      refine ⟨h, fun x hx => hx, fun hok => (by cases hok), fun _ hs => absurd (hs a (by simp)) ha⟩

private theorem addAll_did : ∀ (is : List Item) (c : List Nat), c.Nodup → (addAll is c).2.Nodup ∧ (∀ x ∈ c, x ∈ (addAll is c).2) ∧
    (∀ xs, (addAll is c).1 = .ok xs → is.map Item.id? = xs.map some ∧ ∀ x, x ∈ (addAll is c).2 ↔ x ∈ c ∨ x ∈ xs) ∧ ((∀ i ∈ is, i ≠ .other) → ∃ xs, (addAll is c).1 = .ok xs) := by
  intro is
  induction is with
  | nil =>
    intro c h
    refine ⟨h, fun x hx => hx, fun xs he => ?_, fun _ => ⟨[], rfl⟩⟩
    simp only [addAll, Except.ok.injEq] at he
    subst he
    exact ⟨rfl, fun x => by simp [addAll]⟩
  | cons i is ih =>
    intro c h
    have key : ∀ x, i.id? = some x → (addAll (i :: is) c) = (match addAll is (add c x) with | (.ok xs, c') => (.ok (x :: xs), c') | (.error e, c') => (.error e, c')) := by
      intro x hx
      cases i <;> simp only [Item.id?, Option.some.injEq, reduceCtorEq] at hx <;> subst hx <;> rfl
    rcases hi : i.id? with _ | x
    · cases i <;> simp [Item.id?] at hi
      refine ⟨h, fun x hx => hx, fun xs he => (by cases he), fun hv => absurd rfl (hv _ (by simp))⟩
    · rw [key x hi]
      obtain ⟨h1, h2, h3, h4⟩ := ih (add c x) (nodup_add h x)
      rcases he : addAll is (add c x) with ⟨e | xs, c'⟩
      · rw [he] at h1 h2 h4
        refine ⟨h1, fun y hy => h2 y (mem_add.2 (.inl hy)), fun xs hxs => (by cases hxs), fun hv => ?_⟩
        obtain ⟨xs, hxs⟩ := h4 fun j hj => hv j (List.mem_cons_of_mem _ hj)
        cases hxs
      · rw [he] at h1 h2 h3
        obtain ⟨h5, h6⟩ := h3 xs rfl
        refine ⟨h1, fun y hy => h2 y (mem_add.2 (.inl hy)), fun ys hys => ?_, fun _ => ⟨_, rfl⟩⟩
        cases hys
        refine ⟨by simp [hi, h5], fun y => ?_⟩
        rw [h6 y, mem_add]; simp; tauto

private theorem slot_of_mem {o : Obj} {x : Nat} (h : some x ∈ o.slots) : ∃ j : Nat, o.slots[j]? = some (some x) := List.mem_iff_getElem?.1 h

private theorem mem_set {l : List (Option Nat)} {i : Nat} {v : Option Nat} {x : Nat} (h : some x ∈ l.set i v) : v = some x ∨ ∃ j : Nat, j ≠ i ∧ l[j]? = some (some x) := by
  obtain ⟨j, hj⟩ := List.mem_iff_getElem?.1 h
  rw [List.getElem?_set] at hj
  split at hj
  · split at hj
    · left; simpa using hj
    · cases hj
  · exact .inr ⟨j, by omega, hj⟩

private theorem mem_set_of {l : List (Option Nat)} {i j : Nat} {v : Option Nat} {x : Nat} (hj : j ≠ i) (h : l[j]? = some (some x)) : some x ∈ l.set i v := by
  refine List.mem_iff_getElem?.2 ⟨j, ?_⟩
  rw [List.getElem?_set_ne (by omega)]; exact h

private theorem mem_set_self {l : List (Option Nat)} {i : Nat} {x : Nat} (hi : i < l.length) : some x ∈ l.set i (some x) :=
  List.mem_iff_getElem?.2 ⟨i, by rw [List.getElem?_set_self (by simpa using hi)]⟩

/-- The children after the assignment of an attribute. -/
private theorem setSlot_children {o : Obj} (hn : o.children.Nodup) (i : Nat) (v : Option Nat) :
    (o.setSlot i v = (.error .noEdge, o)) ∨ ∃ o', o.setSlot i v = (.ok (), o') ∧ o'.fixed = o.fixed ∧ o'.curves = o.curves ∧ o'.slots = o.slots.set i v ∧ o'.children.Nodup ∧
      ∀ x, x ∈ o'.children ↔ (x ∈ o.children ∧ o.slots[i]? ≠ some (some x)) ∨ v = some x := by
  unfold Obj.setSlot
  rcases h : o.slots[i]?.join with _ | old
  · right
    have hne : ∀ x, o.slots[i]? ≠ some (some x) := by intro x hx; rw [hx] at h; cases h
    refine ⟨_, rfl, rfl, rfl, rfl, ?_, ?_⟩
    · cases v with
      | none => exact hn
      | some y => exact nodup_add hn y
    · intro x
      cases v with
      | none => simp [hne]
      | some y => simp only [mem_add, Option.some.injEq]; have := hne x; tauto
  · have hs : o.slots[i]? = some (some old) := by
      rcases h2 : o.slots[i]? with _ | y
      · rw [h2] at h; cases h
      · rw [h2] at h; simp only [Option.join_some] at h; rw [h]
    simp only
    by_cases hc : old ∈ o.children
    · rw [if_pos hc]
      right
      refine ⟨_, rfl, rfl, rfl, rfl, ?_, ?_⟩
      · cases v with
        | none => exact hn.erase _
        | some y => exact nodup_add (hn.erase _) y
      · intro x
        have e : o.slots[i]? ≠ some (some x) ↔ x ≠ old := by rw [hs]; simp [eq_comm]
        rw [e]
        cases v with
        | none => simp only [hn.mem_erase_iff, reduceCtorEq, or_false]; tauto
        | some y => simp only [mem_add, hn.mem_erase_iff, Option.some.injEq]; tauto
    · rw [if_neg hc]; exact .inl rfl

private theorem fold_add (fs c : List Nat) (h : c.Nodup) : (fs.foldl add c).Nodup ∧ ∀ x, x ∈ fs.foldl add c ↔ x ∈ c ∨ x ∈ fs := by
  induction fs generalizing c with
  | nil => exact ⟨h, by simp⟩
  | cons f fs ih =>
    obtain ⟨h1, h2⟩ := ih (add c f) (nodup_add h f)
    refine ⟨h1, fun x => ?_⟩
    rw [List.foldl_cons, h2, mem_add]; simp; tauto

/-! ## No dependency too many -/

private theorem step_sound {o : Obj} (hn : o.children.Nodup) (hs : ∀ x ∈ o.children, o.Refers x) (op : Op) (hv : op.Valid o.slots.length) :
    (o.step op).2.children.Nodup ∧ ∀ x ∈ (o.step op).2.children, (o.step op).2.Refers x := by
  cases op with
  | slot i v =>
    simp only [Obj.step]
    rcases setSlot_children hn i v with h | ⟨o', h, h1, h2, h3, h4, h5⟩
    · rw [h]; exact ⟨hn, hs⟩
    · rw [h]
      refine ⟨h4, ?_⟩
      intro x hx
      simp only at hx ⊢
      unfold Obj.Refers
      rw [h1, h2, h3]
      rcases (h5 x).1 hx with ⟨h6, h7⟩ | h6
      · rcases hs x h6 with h8 | h8 | h8
        · exact .inl h8
        · obtain ⟨j, hj⟩ := slot_of_mem h8
          exact .inr (.inl (mem_set_of (fun e => h7 (e ▸ hj)) hj))
        · exact .inr (.inr h8)
      · subst h6; exact .inr (.inl (mem_set_self hv))
  | curves items =>
    simp only [Obj.step, Obj.setCurves]
    obtain ⟨r1, r2, r3, -⟩ := removeAll_did (o.curves.getD []) o.children hn
    rcases hr : removeAll (o.curves.getD []) o.children with ⟨e | u, c⟩
    · rw [hr] at r1 r2
      exact ⟨r1, fun x hx => hs x (r2 x hx)⟩
    · rw [hr] at r1 r2 r3
      obtain ⟨a1, a2, a3, a4⟩ := addAll_did items c r1
      obtain ⟨xs, hx⟩ := a4 hv
      rcases ha : addAll items c with ⟨e | ys, c'⟩
      · rw [ha] at hx; cases hx
      · rw [ha] at a1 a3
        simp only [ha]
        refine ⟨a1, ?_⟩
        intro x hx'
        rcases ((a3 ys rfl).2 x).1 hx' with h6 | h6
        · obtain ⟨h7, h8⟩ := (r3 rfl x).1 h6
          rcases hs x h7 with h9 | h9 | ⟨cs, h9, h10⟩
          · exact .inl h9
          · exact .inr (.inl h9)
          · rw [h9] at h8; exact absurd h10 h8
        · exact .inr (.inr ⟨ys, rfl, h6⟩)

private theorem step_length {o : Obj} (op : Op) : (o.step op).2.slots.length = o.slots.length ∧ (o.step op).2.fixed = o.fixed := by
  cases op with
  | slot i v =>
    simp only [Obj.step, Obj.setSlot]
    split
    · split <;> simp
    · simp
  | curves items =>
    simp only [Obj.step, Obj.setCurves]
    split
    · simp
    · split <;> simp

private theorem new_children (fixed : List Nat) (n : Nat) : (Obj.new fixed n).children.Nodup ∧ ∀ x, x ∈ (Obj.new fixed n).children ↔ (Obj.new fixed n).Refers x := by
  obtain ⟨h1, h2⟩ := fold_add fixed [] List.nodup_nil
  refine ⟨h1, fun x => ?_⟩
  unfold Obj.new Obj.Refers
  simp only
  rw [h2 x]
  constructor
  · rintro (h | h)
    · cases h
    · exact .inl h
  · rintro (h | h | ⟨cs, h, -⟩)
    · exact .inr h
    · rw [List.mem_replicate] at h; exact absurd h.2 (by simp)
    · cases h

/-- **C103.** Whatever is assigned, in whatever order, also the same parameter in several places, and whether or not exceptions were raised: a component depends only on components it refers to. -/
theorem C103_no_extra (fixed : List Nat) (n : Nat) (ops : List Op) (hv : ∀ op ∈ ops, op.Valid n) :
    ∀ x ∈ ((Obj.new fixed n).run ops).children, ((Obj.new fixed n).run ops).Refers x := by
  have key : ∀ (ops : List Op) (o : Obj), o.slots.length = n → (∀ op ∈ ops, op.Valid n) → o.children.Nodup → (∀ x ∈ o.children, o.Refers x) → ∀ x ∈ (o.run ops).children, (o.run ops).Refers x := by
    intro ops
    induction ops with
    | nil => intro o _ _ _ h; exact h
    | cons op ops ih =>
      intro o hl hv hn hs
      obtain ⟨h1, h2⟩ := step_sound hn hs op (hl ▸ hv op (by simp))
      exact ih _ ((step_length op).1.trans hl) (fun q hq => hv q (List.mem_cons_of_mem _ hq)) h1 h2
  exact key ops _ (by simp [Obj.new]) hv (new_children fixed n).1 fun x hx => ((new_children fixed n).2 x).1 hx

/-! ## No dependency too few -/

/-- No component is used in two places, and the dependencies are those referred to. -/
private structure Good (o : Obj) : Prop where
  nodup : o.children.Nodup
  refers : ∀ x, x ∈ o.children ↔ o.Refers x
  slots : ∀ (i j : Nat) (x : Nat), o.slots[i]? = some (some x) → o.slots[j]? = some (some x) → i = j
  curves : ∀ cs, o.curves = some cs → cs.Nodup ∧ ∀ x ∈ cs, x ∉ o.fixed ∧ some x ∉ o.slots
  fixed : ∀ x, some x ∈ o.slots → x ∉ o.fixed

private theorem step_good {o : Obj} (g : Good o) (op : Op) (hv : op.Valid o.slots.length) (ha : Apart o op) : (o.step op).1 = .ok () ∧ Good (o.step op).2 := by
  cases op with
  | slot i v =>
    simp only [Obj.step]
    rcases setSlot_children g.nodup i v with h | ⟨o', h, h1, h2, h3, h4, h5⟩
    · exfalso
      unfold Obj.setSlot at h
      rcases hj : o.slots[i]?.join with _ | old
      · rw [hj] at h; cases h
      · have hs : o.slots[i]? = some (some old) := by
          rcases h2 : o.slots[i]? with _ | y
          · rw [h2] at hj; cases hj
          · rw [h2] at hj; simp only [Option.join_some] at hj; rw [hj]
        rw [hj] at h
        simp only at h
        rw [if_pos ((g.refers old).2 (.inr (.inl (List.mem_iff_getElem?.2 ⟨i, hs⟩))))] at h
        cases h
    · rw [h]
      refine ⟨rfl, h4, ?_, ?_, ?_, ?_⟩
      · intro x
        simp only
        rw [h5 x]
        unfold Obj.Refers
        rw [h1, h2, h3]
        constructor
        · rintro (⟨h6, h7⟩ | rfl)
          · rcases (g.refers x).1 h6 with h8 | h8 | h8
            · exact .inl h8
            · obtain ⟨j, hj⟩ := slot_of_mem h8
              exact .inr (.inl (mem_set_of (fun e => h7 (e ▸ hj)) hj))
            · exact .inr (.inr h8)
          · exact .inr (.inl (mem_set_self hv))
        · rintro (h6 | h6 | ⟨cs, h6, h7⟩)
          · by_cases hx : o.slots[i]? = some (some x)
            · exact absurd h6 (g.fixed x (List.mem_iff_getElem?.2 ⟨i, hx⟩))
            · exact .inl ⟨(g.refers x).2 (.inl h6), hx⟩
          · rcases mem_set h6 with h7 | ⟨j, hj, h7⟩
            · exact .inr h7
            · exact .inl ⟨(g.refers x).2 (.inr (.inl (List.mem_iff_getElem?.2 ⟨j, h7⟩))), fun e => hj (g.slots j i x h7 e)⟩
          · refine .inl ⟨(g.refers x).2 (.inr (.inr ⟨cs, h6, h7⟩)), fun e => ?_⟩
            exact ((g.curves cs h6).2 x h7).2 (List.mem_iff_getElem?.2 ⟨i, e⟩)
      · intro a b x hx hy
        simp only at hx hy
        rw [h3] at hx hy
        rw [List.getElem?_set] at hx hy
        have hv : i < o.slots.length := hv
        by_cases h6 : i = a <;> by_cases h7 : i = b
        · omega
        · rw [if_pos h6, if_pos (by omega)] at hx
          rw [if_neg h7] at hy
          simp only [Option.some.injEq] at hx
          exact absurd hy ((ha x hx).2.1 b (by omega))
        · rw [if_neg h6] at hx
          rw [if_pos h7, if_pos (by omega)] at hy
          simp only [Option.some.injEq] at hy
          exact absurd hx ((ha x hy).2.1 a (by omega))
        · rw [if_neg h6] at hx
          rw [if_neg h7] at hy
          exact g.slots a b x hx hy
      · intro cs hcs
        simp only at hcs ⊢
        rw [h2] at hcs
        rw [h1, h3]
        refine ⟨(g.curves cs hcs).1, fun x hx => ⟨((g.curves cs hcs).2 x hx).1, fun h6 => ?_⟩⟩
        rcases mem_set h6 with h7 | ⟨j, hj, h7⟩
        · exact (ha x h7).2.2 cs hcs hx
        · exact ((g.curves cs hcs).2 x hx).2 (List.mem_iff_getElem?.2 ⟨j, h7⟩)
      · intro x hx
        simp only at hx ⊢
        rw [h3] at hx
        rw [h1]
        rcases mem_set hx with h7 | ⟨j, hj, h7⟩
        · exact (ha x h7).1
        · exact g.fixed x (List.mem_iff_getElem?.2 ⟨j, h7⟩)
  | curves items =>
    simp only [Obj.step, Obj.setCurves]
    obtain ⟨r1, r2, r3, r4⟩ := removeAll_did (o.curves.getD []) o.children g.nodup
    have hok : (removeAll (o.curves.getD []) o.children).1 = .ok () := by
      rcases hc : o.curves with _ | cs
      · rw [hc] at r4; exact r4 List.nodup_nil (by simp)
      · rw [hc] at r4
        exact r4 (g.curves cs hc).1 fun x hx => (g.refers x).2 (.inr (.inr ⟨cs, hc, hx⟩))
    rcases hr : removeAll (o.curves.getD []) o.children with ⟨e | u, c⟩
    · rw [hr] at hok; cases hok
    · rw [hr] at r1 r2 r3
      obtain ⟨a1, a2, a3, a4⟩ := addAll_did items c r1
      obtain ⟨xs, hx⟩ := a4 hv
      rcases hadd : addAll items c with ⟨e | ys, c'⟩
      · rw [hadd] at hx; cases hx
      · rw [hadd] at a1 a3
        obtain ⟨h5, h6⟩ := a3 ys rfl
        obtain ⟨k1, k2⟩ := ha
        rw [h5] at k1 k2
        have k1 : ys.Nodup := k1.of_map
        have k2 : ∀ x ∈ ys, x ∉ o.fixed ∧ some x ∉ o.slots := fun x hx => k2 x (List.mem_map.2 ⟨x, hx, rfl⟩)
        simp only [hadd]
        refine ⟨trivial, a1, ?_, g.slots, ?_, g.fixed⟩
        · intro x
          simp only
          have h6 := h6 x
          simp only at h6
          rw [h6]
          unfold Obj.Refers
          simp only [Option.some.injEq]
          have h7 := r3 rfl x
          simp only at h7
          rw [h7]
          constructor
          · rintro (⟨h8, h9⟩ | h8)
            · rcases (g.refers x).1 h8 with h10 | h10 | ⟨cs, h10, h11⟩
              · exact .inl h10
              · exact .inr (.inl h10)
              · rw [h10] at h9; exact absurd h11 h9
            · exact .inr (.inr ⟨ys, rfl, h8⟩)
          · have hnot : ∀ cs, o.curves = some cs → x ∈ cs → x ∉ o.fixed ∧ some x ∉ o.slots := fun cs hcs hx => (g.curves cs hcs).2 x hx
            rintro (h8 | h8 | ⟨cs, rfl, h8⟩)
            · refine .inl ⟨(g.refers x).2 (.inl h8), fun h9 => ?_⟩
              rcases hc : o.curves with _ | cs
              · rw [hc] at h9; cases h9
              · rw [hc] at h9; exact (hnot cs hc h9).1 h8
            · refine .inl ⟨(g.refers x).2 (.inr (.inl h8)), fun h9 => ?_⟩
              rcases hc : o.curves with _ | cs
              · rw [hc] at h9; cases h9
              · rw [hc] at h9; exact (hnot cs hc h9).2 h8
            · exact .inr h8
        · intro cs hcs
          simp only [Option.some.injEq] at hcs
          subst hcs
          exact ⟨k1, k2⟩

/-- **C103.** A component that never uses the same parameter in two places at a time depends exactly on the components it refers to, after any number of assignments, and none of them raises an exception.
Missing with respect to C103: `C103_shared_fails`, `C103_stuck_fails`, `C103_invalid_fails`. -/
theorem C103_exact_partial (fixed : List Nat) (n : Nat) (ops : List Op) (ha : AllApart (Obj.new fixed n) ops) :
    NeverRaises (Obj.new fixed n) ops ∧ ∀ x, x ∈ ((Obj.new fixed n).run ops).children ↔ ((Obj.new fixed n).run ops).Refers x := by
  have key : ∀ (ops : List Op) (o : Obj), Good o → AllApart o ops → NeverRaises o ops ∧ Good (o.run ops) := by
    intro ops
    induction ops with
    | nil => intro o g _; exact ⟨trivial, g⟩
    | cons op ops ih =>
      intro o g ⟨h1, h2, h3⟩
      obtain ⟨h4, h5⟩ := step_good g op h1 h2
      obtain ⟨h6, h7⟩ := ih _ h5 h3
      exact ⟨⟨h4, h6⟩, h7⟩
  have g0 : Good (Obj.new fixed n) := by
    refine ⟨(new_children fixed n).1, (new_children fixed n).2, ?_, ?_, ?_⟩
    · intro i j x hx
      exfalso
      have := List.mem_iff_getElem?.2 ⟨i, hx⟩
      simp [Obj.new, List.mem_replicate] at this
    · intro cs hcs; cases hcs
    · intro x hx; simp [Obj.new, List.mem_replicate] at hx
  obtain ⟨h1, h2⟩ := key ops _ g0 ha
  exact ⟨h1, h2.refers⟩

/-- **C103.** An assignment that succeeds makes the attribute refer to what was assigned, and leaves the other ones alone. -/
theorem C103_assigned (o : Obj) (i : Nat) (v : Option Nat) (hi : i < o.slots.length) (o' : Obj) (h : o.step (.slot i v) = (.ok (), o')) :
    o'.slots[i]? = some v ∧ (∀ j : Nat, j ≠ i → o'.slots[j]? = o.slots[j]?) ∧ o'.curves = o.curves ∧ ∀ x, v = some x → x ∈ o'.children := by
  simp only [Obj.step, Obj.setSlot] at h
  split at h
  · split at h
    · cases h
      refine ⟨by simp [hi], fun j hj => by simp only; rw [List.getElem?_set_ne (by omega)], rfl, ?_⟩
      rintro x rfl
      exact mem_add.2 (.inr rfl)
    · cases h
  · cases h
    refine ⟨by simp [hi], fun j hj => by simp only; rw [List.getElem?_set_ne (by omega)], rfl, ?_⟩
    rintro x rfl
    exact mem_add.2 (.inr rfl)

/-- **C103.** The same for a list of control curves: they are what was given, with new constants for the numbers, and the component depends on all of them. -/
theorem C103_assigned_curves (o : Obj) (hn : o.children.Nodup) (items : List Item) (o' : Obj) (h : o.step (.curves items) = (.ok (), o')) :
    o'.slots = o.slots ∧ ∃ xs, o'.curves = some xs ∧ items.map Item.id? = xs.map some ∧ ∀ x ∈ xs, x ∈ o'.children := by
  simp only [Obj.step, Obj.setCurves] at h
  obtain ⟨r1, -⟩ := removeAll_did (o.curves.getD []) o.children hn
  rcases hr : removeAll (o.curves.getD []) o.children with ⟨e | u, c⟩
  · rw [hr] at h; cases h
  · rw [hr] at h r1
    obtain ⟨-, -, a3, -⟩ := addAll_did items c r1
    rcases ha : addAll items c with ⟨e | ys, c'⟩
    · simp only [ha] at h; cases h
    · rw [ha] at a3
      simp only [ha] at h
      cases h
      exact ⟨rfl, ys, rfl, (a3 ys rfl).1, fun x hx => ((a3 ys rfl).2 x).2 (.inr hx)⟩

/-! ## Cases -/

example : AllApart (Obj.new [9] 2) [.slot 0 (some 1), .slot 1 (some 2), .slot 0 (some 3), .slot 1 (some 1), .curves [.component 4, .number 5], .curves [.component 5, .component 6], .slot 0 none] := by
  have two : ∀ (a b : Option Nat) (i : Nat) (x : Nat), (∀ j : Nat, j ≠ i → [a, b][j]? ≠ some (some x)) ↔ (i ≠ 0 → a ≠ some x) ∧ (i ≠ 1 → b ≠ some x) := by
    intro a b i x
    constructor
    · exact fun h => ⟨fun h0 ha => h 0 (Ne.symm h0) (by simp [ha]), fun h1 hb => h 1 (Ne.symm h1) (by simp [hb])⟩
    · rintro ⟨h1, h2⟩ j hj
      rcases j with _ | _ | j
      · simpa using h1 (Ne.symm hj)
      · simpa using h2 (Ne.symm hj)
      · simp
  simp [AllApart, Op.Valid, Apart, Obj.new, Obj.step, Obj.setSlot, Obj.setCurves, removeAll, addAll, add, Item.id?, two]

/-! ## What does not hold -/

/-- The same parameter as two attributes, such as the minimum and the maximum flow of a hydropower target: when one is replaced, the component no longer depends on the other one, and replacing that raises an exception. -/
theorem C103_shared_fails : ∃ ops : List Op, (∀ op ∈ ops, op.Valid 2) ∧ ((Obj.new [] 2).run ops).slots = [some 3, some 1] ∧ ((Obj.new [] 2).run ops).children = [3] ∧
    (((Obj.new [] 2).run ops).setSlot 1 (some 2)).1 = .error .noEdge :=
  ⟨[.slot 0 (some 1), .slot 1 (some 1), .slot 0 (some 3)], by simp [Op.Valid], rfl, rfl, rfl⟩

/-- The same parameter twice among the control curves: they can never be replaced again, and the parameter is no longer a dependency after the first attempt. -/
theorem C103_stuck_fails (x : Nat) (items : List Item) (attempts : List (List Item)) :
    let o := ((Obj.new [] 0).run [.curves [.component x, .component x]])
    o.curves = some [x, x] ∧ (o.setCurves items).1 = .error .noEdge ∧
      ((o.setCurves items).2.run (attempts.map .curves)).curves = some [x, x] ∧ ((o.setCurves items).2.run (attempts.map .curves)).children = [] := by
  have h0 : (Obj.new [] 0).run [.curves [.component x, .component x]] = ⟨[], [], some [x, x], [x]⟩ := by
    simp [Obj.run, Obj.step, Obj.new, Obj.setCurves, removeAll, addAll, add]
  have h1 : ∀ items, (⟨[], [], some [x, x], [x]⟩ : Obj).setCurves items = (.error .noEdge, ⟨[], [], some [x, x], []⟩) := by
    intro items; simp [Obj.setCurves, removeAll]
  have h2 : ∀ items, (⟨[], [], some [x, x], []⟩ : Obj).setCurves items = (.error .noEdge, ⟨[], [], some [x, x], []⟩) := by
    intro items; simp [Obj.setCurves, removeAll]
  have h3 : ∀ attempts : List (List Item), (⟨[], [], some [x, x], []⟩ : Obj).run (attempts.map .curves) = ⟨[], [], some [x, x], []⟩ := by
    intro l
    induction l with
    | nil => rfl
    | cons a l ih => simp only [List.map_cons, Obj.run, Obj.step, h2]; exact ih
  intro o
  have ho : o = ⟨[], [], some [x, x], [x]⟩ := h0
  rw [ho, h1]
  simp only [h3]
  exact ⟨trivial, trivial, trivial, trivial⟩

/-- A list with something that is neither a parameter nor a number is rejected, but the control curves that remain in use are no longer dependencies. -/
theorem C103_invalid_fails (x y : Nat) : let o := (Obj.new [] 0).run [.curves [.component x], .curves [.component y, .other]]
    o.curves = some [x] ∧ o.children = [y] := by
  simp [Obj.run, Obj.step, Obj.new, Obj.setCurves, removeAll, addAll, add]

end Verif.Setters

import Verif.Spec.ClassTrees
import Mathlib.Data.List.Nodup
import Mathlib.Data.List.Chain
/-! # C100, the classes of a box: what it looks like -/

namespace Verif.ClassTrees

private theorem derived_rank {h : Hierarchy} {c a : String} (d : Derived h c a) : a = c ∨ h.rank a < h.rank c := by
  induction d with
  | self c => exact Or.inl rfl
  | base hb _ ih =>
    have := h.earlier _ _ hb
    rcases ih with rfl | ih
    · exact Or.inr this
    · exact Or.inr (Nat.lt_trans ih this)

private theorem subNode_sound {h : Hierarchy} {n : Nat} {c : String} (hs : subNode h n c = true) : Derived h c "Node" := by
  induction n generalizing c with
  | zero =>
    have : c = "Node" := by simpa [subNode] using hs
    subst this
    exact .self _
  | succ n ih =>
    simp only [subNode, Bool.or_eq_true, beq_iff_eq, List.any_eq_true] at hs
    rcases hs with rfl | ⟨b, hb, hs⟩
    · exact .self _
    · exact .base hb (ih hs)

private theorem subNode_complete {h : Hierarchy} {n : Nat} {c : String} (hn : h.rank c ≤ n) (hd : Derived h c "Node") : subNode h n c = true := by
  induction n generalizing c with
  | zero =>
    cases hd with
    | self => simp [subNode]
    | base hb _ =>
      have := h.earlier _ _ hb
      omega
  | succ n ih =>
    cases hd with
    | self => simp [subNode]
    | base hb hd =>
      have := h.earlier _ _ hb
      simp only [subNode, Bool.or_eq_true, List.any_eq_true]
      exact Or.inr ⟨_, hb, ih (by omega) hd⟩

private theorem mem_listed {h : Hierarchy} {c b : String} : b ∈ listed h c ↔ b ∈ h.bases c ∧ Derived h b "Node" ∧ b ≠ "Node" := by
  simp only [listed, List.mem_filter, Bool.and_eq_true, bne_iff_ne]
  exact ⟨fun ⟨h1, h2, h3⟩ => ⟨h1, subNode_sound h2, h3⟩, fun ⟨h1, h2, h3⟩ => ⟨h1, subNode_complete (Nat.le_refl _) h2, h3⟩⟩

private theorem listed_single {h : Hierarchy} (hs : Single h) (hd : Distinct h) (c : String) : listed h c = [] ∨ ∃ b, listed h c = [b] := by
  have hnd : (listed h c).Nodup := (hd c).filter _
  cases hl : listed h c with
  | nil => exact Or.inl rfl
  | cons b l =>
    right
    cases l with
    | nil => exact ⟨b, rfl⟩
    | cons b' l =>
      exfalso
      have m1 := (mem_listed (h := h) (c := c) (b := b)).mp (by rw [hl]; simp)
      have m2 := (mem_listed (h := h) (c := c) (b := b')).mp (by rw [hl]; simp)
      have := hs c b b' m1.1 m2.1 m1.2.1 m2.2.1 m1.2.2 m2.2.2
      rw [hl] at hnd
      subst this
      simp at hnd

private theorem loop_sound {h : Hierarchy} {n : Nat} {c a : String} (ha : a ∈ loop h n c) : a ≠ "Node" ∧ Derived h a "Node" ∧ Derived h c a ∧ a ≠ c := by
  induction n generalizing c with
  | zero => cases ha
  | succ n ih =>
    unfold loop at ha
    split at ha
    · cases ha
    · rename_i last hl
      rw [List.mem_append] at ha
      rcases ha with ha | ha
      · obtain ⟨h1, h2, h3⟩ := mem_listed.mp ha
        refine ⟨h3, h2, .base h1 (.self _), ?_⟩
        rintro rfl
        exact absurd (h.earlier _ _ h1) (Nat.lt_irrefl _)
      · obtain ⟨h1, h2, h3, h4⟩ := ih ha
        have hm := mem_listed.mp (List.mem_of_getLast? hl)
        refine ⟨h1, h2, .base hm.1 h3, ?_⟩
        rintro rfl
        have := h.earlier _ _ hm.1
        rcases derived_rank h3 with e | e
        · subst e; omega
        · omega

private theorem loop_complete {h : Hierarchy} (hs : Single h) {n : Nat} {c a : String} (hn : h.rank c ≤ n) (hd : Derived h c a) (hN : Derived h a "Node") (hne : a ≠ "Node") (hc : a ≠ c) : a ∈ loop h n c := by
  induction n generalizing c with
  | zero =>
    cases hd with
    | self => exact absurd rfl hc
    | base hb _ =>
      have := h.earlier _ _ hb
      omega
  | succ n ih =>
    cases hd with
    | self => exact absurd rfl hc
    | base hb hd =>
      rename_i b
      have hbN : Derived h b "Node" := by
        clear ih hb hc hn
        induction hd with
        | self => exact hN
        | base hb _ ih => exact .base hb (ih hN hne)
      have hbn : b ≠ "Node" := by
        rintro rfl
        rcases derived_rank hd with e | e
        · exact hne e
        · rcases derived_rank hN with e' | e'
          · exact hne e'.symm
          · omega
      have hbl : b ∈ listed h c := mem_listed.mpr ⟨hb, hbN, hbn⟩
      unfold loop
      cases hl : (listed h c).getLast? with
      | none =>
        rw [List.getLast?_eq_none_iff] at hl
        rw [hl] at hbl
        cases hbl
      | some last =>
        have hm := mem_listed.mp (List.mem_of_getLast? hl)
        have : last = b := hs c last b hm.1 hb hm.2.1 hbN hm.2.2 hbn
        subst this
        simp only [List.mem_append]
        by_cases e : a = last
        · subst e; exact Or.inl hbl
        · exact Or.inr (ih (by have := h.earlier _ _ hb; omega) hd e)

/-- **C100, the classes of a box.** With one special kind of `Node` among the bases of each class, the classes of a box are that of the node and all from which this is derived that are special kinds of `Node`. -/
theorem C100_classes_partial {h : Hierarchy} (hs : Single h) (c a : String) : a ∈ classes h c ↔ a = c ∨ (Derived h c a ∧ Derived h a "Node" ∧ a ≠ "Node") := by
  unfold classes
  rw [List.mem_reverse, List.mem_cons]
  constructor
  · rintro (rfl | ha)
    · exact Or.inl rfl
    · obtain ⟨h1, h2, h3, -⟩ := loop_sound ha
      exact Or.inr ⟨h3, h2, h1⟩
  · rintro (rfl | ⟨h1, h2, h3⟩)
    · exact Or.inl rfl
    · by_cases e : a = c
      · exact Or.inl e
      · exact Or.inr (loop_complete hs (Nat.le_refl _) h1 h2 h3 e)

private theorem loop_chain {h : Hierarchy} (hs : Single h) (hd : Distinct h) (n : Nat) (c : String) : List.IsChain (fun x y => y ∈ h.bases x) (c :: loop h n c) := by
  induction n generalizing c with
  | zero => exact List.IsChain.singleton _
  | succ n ih =>
    unfold loop
    rcases listed_single hs hd c with e | ⟨b, e⟩
    · rw [e]
      exact List.IsChain.singleton _
    · have hm := (mem_listed (h := h) (c := c) (b := b)).mp (by rw [e]; simp)
      rw [e]
      exact List.IsChain.cons_cons hm.1 (ih b)

/-- The general comes before the special: each class is a base of the next, and the last is that of the node. So the rules for the special class are those that hold. -/
theorem C100_classes_order_partial {h : Hierarchy} (hs : Single h) (hd : Distinct h) (c : String) : List.IsChain (fun x y => x ∈ h.bases y) (classes h c) ∧ (classes h c).getLast? = some c := by
  constructor
  · unfold classes
    rw [List.isChain_reverse]
    exact loop_chain hs hd _ c
  · simp [classes]

private theorem pywr_single : Single pywr ∧ Distinct pywr := by
  have key : ∀ c, (listed pywr c).length ≤ 1 ∧ (pywr.bases c).Nodup := by
    intro c
    by_cases hc : (table.map (·.1)).contains c = true
    · have all : ((table.map (·.1)).all fun c => decide ((listed pywr c).length ≤ 1 ∧ (pywr.bases c).Nodup)) = true := by decide +kernel
      have := List.all_eq_true.mp all c (by simpa using hc)
      simpa using this
    · have : pywr.bases c = [] := by
        change tableBases c = []
        unfold tableBases
        cases h : table.lookup c with
        | none => rfl
        | some bs =>
          exfalso
          apply hc
          rw [List.lookup_eq_some_iff] at h
          obtain ⟨l1, l2, hl, -⟩ := h
          rw [hl]
          simp
      unfold listed
      rw [this]
      simp
  refine ⟨?_, fun c => (key c).2⟩
  intro c b b' hb hb' hN hN' hn hn'
  have m1 : b ∈ listed pywr c := mem_listed.mpr ⟨hb, hN, hn⟩
  have m2 : b' ∈ listed pywr c := mem_listed.mpr ⟨hb', hN', hn'⟩
  have := (key c).1
  match hl : listed pywr c, this with
  | [], _ => rw [hl] at m1; cases m1
  | [x], _ =>
    rw [hl, List.mem_singleton] at m1 m2
    rw [m1, m2]

/-- For the classes of `pywr` this is so. -/
theorem C100_classes_pywr (c : String) :
    (∀ a, a ∈ classes pywr c ↔ a = c ∨ (Derived pywr c a ∧ Derived pywr a "Node" ∧ a ≠ "Node")) ∧ List.IsChain (fun x y => x ∈ pywr.bases y) (classes pywr c) ∧ (classes pywr c).getLast? = some c :=
  ⟨C100_classes_partial pywr_single.1 c, C100_classes_order_partial pywr_single.1 pywr_single.2 c⟩

/-- A box in the diagram of a document has the classes of the node that is made from it. -/
theorem C100_classes_same (h : Hierarchy) (registry : List (String × String)) (t : String) : (trees h registry).lookup t = (registry.lookup t).map (ofNode h) := by
  unfold trees
  induction registry with
  | nil => rfl
  | cons p l ih =>
    obtain ⟨a, c⟩ := p
    simp only [List.map_cons, List.lookup_cons]
    split
    · rfl
    · exact ih

/-- Storages are no special kind of `Node`: a reservoir or an aquifer does not count as a storage in a diagram. -/
theorem C100_storage_fails : Derived pywr "Reservoir" "Storage" ∧ Derived pywr "KeatingAquifer" "Storage" ∧ classes pywr "Reservoir" = ["Reservoir"] ∧ classes pywr "KeatingAquifer" = ["KeatingAquifer"] ∧
    classes pywr "River" = ["Link", "River"] := by
  refine ⟨.base (b := "Storage") (by decide +kernel) (.self _), .base (b := "Storage") (by decide +kernel) (.self _), by decide +kernel, by decide +kernel, by decide +kernel⟩

/-- A link of one's own with two bases. -/
private def own : Hierarchy where
  bases c := if c = "Mine" then ["River", "Pipe"] else if c = "River" then ["Link"] else if c = "Pipe" ∨ c = "Link" then ["Node"] else []
  rank c := if c = "Mine" then 3 else if c = "River" then 2 else if c = "Pipe" ∨ c = "Link" then 1 else 0
  earlier := by
    intro c b hb
    by_cases h1 : c = "Mine"
    · subst h1
      simp at hb
      rcases hb with rfl | rfl <;> decide
    · by_cases h2 : c = "River"
      · subst h2
        simp at hb
        subst hb; decide
      · by_cases h3 : c = "Pipe" ∨ c = "Link"
        · rw [if_neg h1, if_neg h2, if_pos h3, List.mem_singleton] at hb
          subst hb
          simp [h1, h2, h3]
        · simp [h1, h2, h3] at hb

/-- With two such bases the bases of the first are missing. -/
theorem C100_classes_fails : ∃ h : Hierarchy, Derived h "Mine" "Link" ∧ Derived h "Link" "Node" ∧ "Link" ∉ classes h "Mine" ∧ classes h "Mine" = ["Pipe", "River", "Mine"] := by
  refine ⟨own, .base (b := "River") (by decide +kernel) (.base (b := "Link") (by decide +kernel) (.self _)), .base (b := "Node") (by decide +kernel) (.self _), by decide +kernel, by decide +kernel⟩

example : classes pywr "Discharge" = ["Input", "Catchment", "Discharge"] ∧ classes pywr "RiverSplitWithGauge" = ["PiecewiseLink", "MultiSplitLink", "RiverSplit", "RiverSplitWithGauge"] ∧ classes pywr "Node" = ["Node"] := by
  decide +kernel

end Verif.ClassTrees

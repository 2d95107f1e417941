import Verif.Proof.Network
import Mathlib.Tactic.Tauto
/-!
# Deletion of nodes
-/

namespace Verif.Network

open Classical in
/-- The graph without some nodes and their edges. -/
noncomputable def Without (s : St) (P : Nat → Prop) : St :=
  { s with nodes := s.nodes.filter (fun i => decide (¬P i)), edges := s.edges.filter fun e => decide (¬P e.1 ∧ ¬P e.2) }

theorem without_parent (s : St) (P : Nat → Prop) : (Without s P).parent = s.parent := rfl
theorem without_name (s : St) (P : Nat → Prop) : (Without s P).name = s.name := rfl

theorem mem_without {s : St} {P : Nat → Prop} {i : Nat} : i ∈ (Without s P).nodes ↔ i ∈ s.nodes ∧ ¬P i := by
  simp [Without, List.mem_filter]

theorem mem_without_edges {s : St} {P : Nat → Prop} {e : Nat × Nat} : e ∈ (Without s P).edges ↔ e ∈ s.edges ∧ ¬P e.1 ∧ ¬P e.2 := by
  simp [Without, List.mem_filter]

theorem without_inv {s : St} (h : Inv s) (P : Nat → Prop) : Inv (Without s P) := by
  refine ⟨h.nodup.filter _, ?_, h.older, ?_, h.edgesNodup.filter _, ?_⟩
  · intro i hi; exact h.bound i (mem_without.1 hi).1
  · intro e he
    obtain ⟨h1, h2, h3⟩ := mem_without_edges.1 he
    exact ⟨mem_without.2 ⟨(h.ends e h1).1, h2⟩, mem_without.2 ⟨(h.ends e h1).2, h3⟩⟩
  · refine h.keys.sublist ?_
    unfold St.keys St.top
    exact List.Sublist.map _ (List.Sublist.filter _ List.filter_sublist)

open Classical in
theorem without_false {s : St} {P : Nat → Prop} (hn : ∀ i, ¬P i) : Without s P = s := by
  unfold Without
  have h1 : s.nodes.filter (fun i => decide (¬P i)) = s.nodes := List.filter_eq_self.2 (fun a _ => by simp [hn a])
  have h2 : s.edges.filter (fun e => decide (¬P e.1 ∧ ¬P e.2)) = s.edges := List.filter_eq_self.2 (fun a _ => by simp [hn])
  rw [h1, h2]

open Classical in
theorem without_congr {s : St} (h : Inv s) {P Q : Nat → Prop} (hpq : ∀ i ∈ s.nodes, P i ↔ Q i) : Without s P = Without s Q := by
  unfold Without
  have h1 : s.nodes.filter (fun i => decide (¬P i)) = s.nodes.filter (fun i => decide (¬Q i)) :=
    List.filter_congr (fun a ha => by simp [hpq a ha])
  have h2 : s.edges.filter (fun e => decide (¬P e.1 ∧ ¬P e.2)) = s.edges.filter (fun e => decide (¬Q e.1 ∧ ¬Q e.2)) :=
    List.filter_congr (fun a ha => by simp [hpq _ (h.ends a ha).1, hpq _ (h.ends a ha).2])
  rw [h1, h2]

theorem without_without (s : St) (P Q : Nat → Prop) : Without (Without s P) Q = Without s (fun i => P i ∨ Q i) := by
  unfold Without
  simp only [List.filter_filter]
  congr 1
  · refine List.filter_congr ?_
    intro a _
    by_cases hp : P a <;> by_cases hq : Q a <;> simp [hp, hq]
  · refine List.filter_congr ?_
    intro a _
    by_cases hp : P a.1 <;> by_cases hq : Q a.1 <;> by_cases hp' : P a.2 <;> by_cases hq' : Q a.2 <;> simp [hp, hq, hp', hq']

theorem removeNode_eq {s : St} {i : Nat} (hi : i ∈ s.nodes) : s.removeNode i = (Without s (· = i), none) := by
  unfold St.removeNode Without
  rw [if_pos hi]
  simp only [Prod.mk.injEq, and_true]
  congr 1
  · exact List.filter_congr (fun a _ => by by_cases h : a = i <;> simp [h])
  · exact List.filter_congr (fun a _ => by by_cases h : a.1 = i <;> by_cases h' : a.2 = i <;> simp [h, h'])

theorem Under.le {s : St} (h : Inv s) {i x : Nat} (hu : Under s i x) : i ≤ x := by
  induction hu with
  | refl => exact Nat.le_refl _
  | child x y _ hp _ ih => have := h.older x y hp; omega

theorem Under.sibling {s : St} (h : Inv s) {i c d x : Nat} (hc : s.parent c = some i) (hd : s.parent d = some i) (h1 : Under s c x)
    (h2 : Under s d x) : c = d := by
  induction h1 with
  | refl =>
    cases h2 with
    | refl => rfl
    | child _ y _ hp hu =>
      have hy : y = i := by rw [hp] at hc; exact Option.some.inj hc
      have := hu.le h
      have := h.older d i hd
      omega
  | child x y hx hp hu ih =>
    cases h2 with
    | refl =>
      have hy : y = i := by rw [hp] at hd; exact Option.some.inj hd
      have := hu.le h
      have := h.older c i hc
      omega
    | child _ y' _ hp' hu' =>
      rw [hp] at hp'
      obtain rfl : y = y' := Option.some.inj hp'
      exact ih hu'

theorem Under.mono {s : St} {P : Nat → Prop} {i x : Nat} (h : Under (Without s P) i x) : Under s i x := by
  induction h with
  | refl => exact .refl
  | child x y hx hp _ ih => exact .child x y (mem_without.1 hx).1 hp ih

theorem Under.kept {s : St} {P : Nat → Prop} {i x : Nat} (hP : ∀ x, Under s i x → ¬P x) (h : Under s i x) : Under (Without s P) i x := by
  induction h with
  | refl => exact .refl
  | child x y hx hp hu ih => exact .child x y (mem_without.2 ⟨hx, hP x (.child x y hx hp hu)⟩) hp ih

theorem under_iff {s : St} {i x : Nat} : Under s i x ↔ x = i ∨ ∃ c ∈ s.nodes.filter (fun j => s.parent j == some i), Under s c x := by
  constructor
  · intro h
    induction h with
    | refl => exact Or.inl rfl
    | child x y hx hp hu ih =>
      right
      rcases ih with rfl | ⟨c, hc, hcy⟩
      · exact ⟨x, List.mem_filter.2 ⟨hx, by simp [hp]⟩, .refl⟩
      · exact ⟨c, hc, .child x y hx hp hcy⟩
  · rintro (rfl | ⟨c, hc, hu⟩)
    · exact .refl
    · obtain ⟨h1, h2⟩ := List.mem_filter.1 hc
      have hp : s.parent c = some i := by simpa using h2
      induction hu with
      | refl => exact .child c i h1 hp .refl
      | child x y hx hp' _ ih => exact .child x y hx hp' ih

theorem deleteAll_spec {del : Nat → St → St × Option Error} {s : St} (h : Inv s) (i : Nat)
    (hdel : ∀ c P, i < c → c ∈ (Without s P).nodes → del c (Without s P) = (Without (Without s P) (Under (Without s P) c), none))
    (cs : List Nat) : ∀ ds : List Nat, (∀ c ∈ ds ++ cs, c ∈ s.nodes ∧ s.parent c = some i) → (ds ++ cs).Nodup →
      deleteAll del cs (Without s fun x => ∃ d ∈ ds, Under s d x) = (Without s fun x => ∃ d ∈ ds ++ cs, Under s d x, none) := by
  induction cs with
  | nil => intro ds _ _; simp [deleteAll]
  | cons c cs ih =>
    intro ds hin hnd
    have hc := hin c (by simp)
    have hdisj : ∀ x, Under s c x → ¬∃ d ∈ ds, Under s d x := by
      rintro x hx ⟨d, hd, hdx⟩
      have := Under.sibling h hc.2 (hin d (by simp [hd])).2 hx hdx
      subst this
      rw [List.nodup_append] at hnd
      exact hnd.2.2 c hd c (by simp) rfl
    have hmem : c ∈ (Without s fun x => ∃ d ∈ ds, Under s d x).nodes := mem_without.2 ⟨hc.1, hdisj c .refl⟩
    rw [deleteAll, hdel c _ (h.older c i hc.2) hmem]
    simp only
    rw [without_without]
    have hcongr : Without s (fun x => (∃ d ∈ ds, Under s d x) ∨ Under (Without s fun x => ∃ d ∈ ds, Under s d x) c x) =
        Without s fun x => ∃ d ∈ ds ++ [c], Under s d x := by
      refine without_congr h ?_
      intro x _
      constructor
      · rintro (⟨d, hd, hdx⟩ | hx)
        · exact ⟨d, by simp [hd], hdx⟩
        · exact ⟨c, by simp, hx.mono⟩
      · rintro ⟨d, hd, hdx⟩
        rcases List.mem_append.1 hd with hd | hd
        · exact Or.inl ⟨d, hd, hdx⟩
        · simp only [List.mem_singleton] at hd
          subst hd
          exact Or.inr (hdx.kept hdisj)
    rw [hcongr]
    have := ih (ds ++ [c]) (by simpa using hin) (by simpa using hnd)
    rw [this]
    simp

theorem children_spec {s : St} (h : Inv s) (i : Nat) :
    (∀ c ∈ s.nodes.filter (fun j => s.parent j == some i), c ∈ s.nodes ∧ s.parent c = some i) ∧
    (s.nodes.filter (fun j => s.parent j == some i)).Nodup := by
  refine ⟨?_, h.nodup.filter _⟩
  intro c hc
  obtain ⟨h1, h2⟩ := List.mem_filter.1 hc
  exact ⟨h1, by simpa using h2⟩

/-- Deletion removes a node with everything under it. -/
theorem delete_spec (fuel : Nat) : ∀ (i : Nat) (s : St), Inv s → i ∈ s.nodes → s.heap.length ≤ fuel + i →
    delete fuel i s = (Without s (Under s i), none) := by
  induction fuel with
  | zero => intro i s h hi hf; have := h.bound i hi; omega
  | succ fuel ih =>
    intro i s h hi hf
    obtain ⟨hch, hnd⟩ := children_spec h i
    have hall := deleteAll_spec (del := delete fuel) h i
      (fun c P hic hc => ih c (Without s P) (without_inv h P) hc (by change s.heap.length ≤ _; omega))
      (s.nodes.filter fun j => s.parent j == some i) [] (by simpa only [List.nil_append] using hch) (by simpa using hnd)
    rw [without_false (by simp)] at hall
    rw [delete, hall]
    simp only
    have hnot : ¬∃ d ∈ [] ++ s.nodes.filter (fun j => s.parent j == some i), Under s d i := by
      rintro ⟨d, hd, hdi⟩
      rw [List.nil_append] at hd
      have := hdi.le h
      have := h.older d i (hch d hd).2
      omega
    rw [removeNode_eq (mem_without.2 ⟨hi, hnot⟩), without_without]
    congr 1
    refine without_congr h ?_
    intro x _
    rw [under_iff, List.nil_append]
    exact or_comm

/-- Deleting a node which is not in the graph: what is under it is removed, and an exception follows. -/
theorem delete_absent (fuel : Nat) (i : Nat) (s : St) (h : Inv s) (hi : i ∉ s.nodes) (hf : s.heap.length ≤ fuel + i) :
    delete (fuel + 1) i s = (Without s (Under s i), some .network) := by
  obtain ⟨hch, hnd⟩ := children_spec h i
  have hall := deleteAll_spec (del := delete fuel) h i
    (fun c P hic hc => delete_spec fuel c (Without s P) (without_inv h P) hc (by change s.heap.length ≤ _; omega))
    (s.nodes.filter fun j => s.parent j == some i) [] (by simpa only [List.nil_append] using hch) (by simpa using hnd)
  rw [without_false (by simp)] at hall
  rw [delete, hall]
  simp only
  unfold St.removeNode
  rw [if_neg (fun hc => hi (mem_without.1 hc).1)]
  congr 1
  refine without_congr h ?_
  intro x hx
  rw [under_iff, List.nil_append]
  constructor
  · exact Or.inr
  · rintro (rfl | hu)
    · exact absurd hx hi
    · exact hu

theorem deleteNode_inv {s : St} (h : Inv s) (i : Nat) : Inv (deleteNode i s).1 := by
  unfold deleteNode
  by_cases hi : i ∈ s.nodes
  · rw [delete_spec _ i s h hi (by omega)]; exact without_inv h _
  · rw [delete_absent _ i s h hi (by omega)]; exact without_inv h _

end Verif.Network

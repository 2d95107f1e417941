import Verif.Model.Memory
import Verif.Proof.Ring
import Mathlib.Data.List.Induction
/-! # Lemmas about parameters with memory -/

namespace Verif.Memory

theorem DelayCfg.steps_pos {c : DelayCfg} {delta : Option Int} {n : Nat} (hs : c.steps delta = .ok n) : 0 < n := by
  unfold DelayCfg.steps at hs
  simp only at hs
  split at hs
  · cases hs
  · split at hs
    · cases hs
    · injection hs with hs; omega

/-- A delay memory is a ring. -/
def Delay.ring (s : Delay) : Ring Vec := ⟨s.mem, s.ptr⟩

theorem Delay.ring_after {n : Nat} {s : Delay} (hl : s.mem.length = n) (hp : s.ptr < n) (f : Vec) :
    (s.after n f).ring = s.ring.push f := by
  unfold Delay.after Delay.ring Ring.push
  simp only [hl]
  congr 1
  split
  · rfl
  · rename_i h
    have : n = 1 := by omega
    subst this
    omega

theorem Delay.ring_run {n : Nat} {s : Delay} (hl : s.mem.length = n) (hp : s.ptr < n) (fs : List Vec) :
    (s.run n fs).ring = fs.foldl Ring.push s.ring ∧ (s.run n fs).mem.length = n ∧ (s.run n fs).ptr < n := by
  induction fs generalizing s with
  | nil => exact ⟨rfl, hl, hp⟩
  | cons f fs ih =>
    have h1 : (s.after n f).mem.length = n := by simp [Delay.after, hl]
    have h2 : (s.after n f).ptr < n := by
      unfold Delay.after
      simp only
      split
      · exact Nat.mod_lt _ (by omega)
      · exact hp
    obtain ⟨a, b, c⟩ := ih h1 h2
    refine ⟨?_, b, c⟩
    rw [Delay.ring_after hl hp f] at a
    exact a

theorem Delay.value_eq (s : Delay) (sc : Nat) : s.value sc = s.ring.read.map fun row => row sc := rfl

theorem Delay.value_run {n : Nat} (hn : 0 < n) {s : Delay} (hl : s.mem.length = n) (initial : Rat) (fs : List Vec) (sc : Nat) :
    ((s.reset initial).run n fs).value sc =
      (((List.replicate n (fun _ => initial) ++ fs)[fs.length]?).map fun row : Vec => row sc) := by
  have hm : (s.reset initial).mem = List.replicate n fun _ => initial := by
    simp only [Delay.reset]
    rw [List.map_const', hl]
  have hl' : (s.reset initial).mem.length = n := by rw [hm]; simp
  have hr : (s.reset initial).ring = Ring.full n fun _ => initial := by
    simp only [Delay.ring, hm]; rfl
  obtain ⟨h1, -, -⟩ := Delay.ring_run hl' (by simpa [Delay.reset] using hn) fs
  rw [Delay.value_eq, h1, hr]
  obtain ⟨h2, h3⟩ := Ring.toList_foldl_push (Ring.wf_full hn fun _ : Nat => initial) fs
  rw [← Ring.head_toList h3, h2, Ring.toList_full, List.head?_drop]

theorem DelayNode.runs_leaving {n : Nat} {s : Delay} (hl : s.mem.length = n) (hp : s.ptr < n) (ts : List DelayStep)
    (h : DelayNode.Runs n s ts) :
    ts.map DelayStep.leaving = ((s.ring.toList.map fun row => row 0) ++ ts.map DelayStep.arriving).take ts.length := by
  induction ts generalizing s with
  | nil => simp
  | cons t ts ih =>
    have hw : s.ring.WF := by unfold Ring.WF Delay.ring; simp only [hl]; exact hp
    obtain ⟨x, hx, rest, hr⟩ := Ring.read_eq hw
    have h1 : (s.after n fun _ => t.arriving).mem.length = n := by simp [Delay.after, hl]
    have h2 : (s.after n fun _ => t.arriving).ptr < n := by
      unfold Delay.after
      simp only
      split
      · exact Nat.mod_lt _ (by omega)
      · exact hp
    have hi := ih h1 h2 h.2
    rw [Delay.ring_after hl hp, Ring.toList_push hw, hr] at hi
    have hv : s.value 0 = some (x 0) := by rw [Delay.value_eq, hx]; rfl
    have := h.1 _ hv
    have he : t.leaving = x 0 := le_antisymm this.2 this.1
    rw [List.map_cons, hi, hr, he]
    simp

/-! ## Rolling mean -/

def Mean.ring (s : Mean) : Ring Vec := ⟨s.mem, s.pos⟩

theorem Mean.ring_after {n : Nat} {s : Mean} (hl : s.mem.length = n) (hp : s.pos < n) (f : Vec) :
    (s.after n f).ring = s.ring.push f := by
  unfold Mean.after Mean.ring Ring.push
  simp only [hl]
  congr 1
  split
  · rename_i h
    have : s.pos + 1 = n := by omega
    rw [this, Nat.mod_self]
  · rw [Nat.mod_eq_of_lt (by omega)]

theorem Mean.ring_run {n : Nat} {s : Mean} (hl : s.mem.length = n) (hp : s.pos < n) (fs : List Vec) :
    (s.run n fs).ring = fs.foldl Ring.push s.ring ∧ (s.run n fs).mem.length = n ∧ (s.run n fs).pos < n := by
  induction fs generalizing s with
  | nil => exact ⟨rfl, hl, hp⟩
  | cons f fs ih =>
    have h1 : (s.after n f).mem.length = n := by simp [Mean.after, hl]
    have h2 : (s.after n f).pos < n := by
      unfold Mean.after
      simp only
      split <;> omega
    obtain ⟨a, b, c⟩ := ih h1 h2
    refine ⟨?_, b, c⟩
    rw [Mean.ring_after hl hp f] at a
    exact a

/-- While the memory is filling up, its first entries are the flows so far. -/
theorem Mean.filling {n : Nat} {s : Mean} (hl : s.mem.length = n) (hn : 0 < n) (fs : List Vec) (hf : fs.length ≤ n) :
    ((s.reset).run n fs).mem.take fs.length = fs ∧
      ((s.reset).run n fs).pos = if fs.length = n then 0 else fs.length := by
  have hl0 : s.reset.mem.length = n := by simp [Mean.reset, hl]
  have hp0 : s.reset.pos < n := by simp [Mean.reset, hn]
  induction fs using List.reverseRecOn with
  | nil => exact ⟨by simp, by simp [Mean.run, Mean.reset]⟩
  | append_singleton fs f ih =>
    have hlt : fs.length < n := by simp at hf; omega
    obtain ⟨h1, h2⟩ := ih (by omega)
    obtain ⟨-, h3, -⟩ := Mean.ring_run hl0 hp0 fs
    rw [if_neg (by omega)] at h2
    have hrun : (s.reset).run n (fs ++ [f]) = ((s.reset).run n fs).after n f := by simp [Mean.run]
    rw [hrun]
    generalize (s.reset).run n fs = r at h1 h2 h3
    unfold Mean.after
    simp only [h2, List.length_append, List.length_singleton]
    refine ⟨?_, ?_⟩
    · rw [List.take_add_one, List.take_set_of_le (le_refl _), h1]
      simp [h3, hlt]
    · split
      · rw [if_pos (by omega)]
      · rw [if_neg (by omega)]

theorem Mean.full_sum {n : Nat} {s : Mean} (hl : s.mem.length = n) (hn : 0 < n) (fs : List Vec) (hf : n ≤ fs.length) (sc : Nat) :
    (((s.reset).run n fs).mem.map fun row => row sc).sum = ((fs.drop (fs.length - n)).map fun row => row sc).sum := by
  have hl0 : s.reset.mem.length = n := by simp [Mean.reset, hl]
  have hp0 : s.reset.pos < n := by simp [Mean.reset, hn]
  obtain ⟨h1, h2, h3⟩ := Mean.ring_run hl0 hp0 fs
  have hw : s.reset.ring.WF := by unfold Ring.WF Mean.ring; simp only [hl0]; exact hp0
  obtain ⟨h4, -⟩ := Ring.toList_foldl_push hw fs
  have hlen : s.reset.ring.toList.length = n := by rw [Ring.length_toList]; exact hl0
  rw [List.drop_append, hlen, List.drop_of_length_le (by omega), List.nil_append] at h4
  rw [← h4, ← h1]
  unfold Ring.toList Mean.ring
  simp only
  rw [List.map_append, List.sum_append, add_comm, ← List.sum_append, ← List.map_append, List.take_append_drop]

/-! ## Thresholds -/

/-- Calculation for a list of distinct scenarios. -/
theorem thresholdCalc_spec (c : ThresholdCfg) (index : Nat) (o : Observation) (scs : List Nat) (hnd : scs.Nodup)
    (tr : Triggered) (out : Nat → Int) (sc : Nat) :
    (sc ∈ scs → (thresholdCalc c index o scs (tr, out)).1 sc = (thresholdIndex c index tr o sc).2 sc ∧
      (thresholdCalc c index o scs (tr, out)).2 sc = (thresholdIndex c index tr o sc).1) ∧
    (sc ∉ scs → (thresholdCalc c index o scs (tr, out)).1 sc = tr sc ∧ (thresholdCalc c index o scs (tr, out)).2 sc = out sc) := by
  have other : ∀ (tr : Triggered) (a b : Nat), a ≠ b → (thresholdIndex c index tr o a).2 b = tr b := by
    intro tr a b hab
    have hb : (baseIndex c tr o a).2 b = tr b := by
      unfold baseIndex
      split
      · rfl
      · simp only; rw [if_neg (Ne.symm hab)]
    unfold thresholdIndex
    cases c.first with
    | none => exact hb
    | some v =>
      simp only
      split
      · rfl
      · exact hb
  have local_ : ∀ (tr tr' : Triggered) (a : Nat), tr a = tr' a → (thresholdIndex c index tr o a).1 = (thresholdIndex c index tr' o a).1 ∧
      (thresholdIndex c index tr o a).2 a = (thresholdIndex c index tr' o a).2 a := by
    intro tr tr' a h
    have hb : (baseIndex c tr o a).1 = (baseIndex c tr' o a).1 ∧ (baseIndex c tr o a).2 a = (baseIndex c tr' o a).2 a := by
      unfold baseIndex
      rw [h]
      split
      · exact ⟨rfl, h⟩
      · simp
    unfold thresholdIndex
    cases c.first with
    | none => exact hb
    | some v =>
      simp only
      split
      · exact ⟨rfl, h⟩
      · exact hb
  induction scs generalizing tr out with
  | nil => simp [thresholdCalc]
  | cons a scs ih =>
    rw [List.nodup_cons] at hnd
    obtain ⟨ha, hnd⟩ := hnd
    simp only [thresholdCalc]
    obtain ⟨i1, i2⟩ := ih hnd (thresholdIndex c index tr o a).2 (fun i => if i = a then (thresholdIndex c index tr o a).1 else out i)
    constructor
    · intro hm
      rcases List.mem_cons.1 hm with rfl | hm
      · obtain ⟨j1, j2⟩ := i2 ha
        rw [j1, j2]; simp
      · have hne : a ≠ sc := fun h => ha (h ▸ hm)
        obtain ⟨j1, j2⟩ := i1 hm
        obtain ⟨l1, l2⟩ := local_ _ tr sc (other tr a sc hne)
        rw [j1, j2, l1, l2]
        exact ⟨rfl, rfl⟩
    · intro hm
      rw [List.mem_cons, not_or] at hm
      obtain ⟨j1, j2⟩ := i2 hm.2
      rw [j1, j2, other tr a sc (Ne.symm hm.1), if_neg hm.1]
      exact ⟨rfl, rfl⟩

end Verif.Memory

import Verif.Model.Ring
import Mathlib.Algebra.BigOperators.Group.List.Basic
import Mathlib.Algebra.Ring.Rat

namespace Verif.Ring

variable {α : Type}

/-- Well-formed: the pointer is inside the memory. -/
def WF (r : Ring α) : Prop := r.ptr < r.mem.length

/-- Contents, oldest first. -/
def toList (r : Ring α) : List α := r.mem.drop r.ptr ++ r.mem.take r.ptr

theorem wf_full {n : Nat} (hn : 0 < n) (x : α) : (full n x).WF := by simp [WF, full, hn]

theorem toList_full (n : Nat) (x : α) : (full n x).toList = List.replicate n x := by simp [toList, full]

theorem length_push (r : Ring α) (x : α) : (r.push x).mem.length = r.mem.length := by simp [push]

theorem wf_push {r : Ring α} (h : r.WF) (x : α) : (r.push x).WF := by
  unfold WF at *
  rw [length_push]
  exact Nat.mod_lt _ (by omega)

theorem length_toList (r : Ring α) : r.toList.length = r.mem.length := by
  simp [toList]; omega

theorem read_eq {r : Ring α} (h : r.WF) : ∃ x, r.read = some x ∧ ∃ t, r.toList = x :: t := by
  unfold WF at h
  refine ⟨r.mem[r.ptr], by simp [read, h], (r.mem.drop (r.ptr + 1)) ++ r.mem.take r.ptr, ?_⟩
  unfold toList
  rw [List.drop_eq_getElem_cons h]; rfl

theorem head_toList {r : Ring α} (h : r.WF) : r.toList.head? = r.read := by
  obtain ⟨x, h1, t, h2⟩ := read_eq h
  rw [h1, h2]; rfl

theorem toList_push {r : Ring α} (h : r.WF) (x : α) : (r.push x).toList = r.toList.tail ++ [x] := by
  unfold WF at h
  have ht : r.toList.tail = r.mem.drop (r.ptr + 1) ++ r.mem.take r.ptr := by
    unfold toList; rw [List.drop_eq_getElem_cons h]; rfl
  rw [ht]
  unfold toList push
  simp only
  by_cases hl : r.ptr + 1 = r.mem.length
  · rw [hl, Nat.mod_self]
    simp only [List.drop_zero, List.take_zero, List.append_nil, List.drop_length, List.nil_append]
    have hp : r.ptr = r.mem.length - 1 := by omega
    rw [List.set_eq_take_append_cons_drop, if_pos h, hl, List.drop_length]
  · rw [Nat.mod_eq_of_lt (by omega)]
    rw [List.drop_set_of_lt (by omega)]
    rw [List.append_assoc]
    congr 1
    rw [List.set_eq_take_append_cons_drop, if_pos h]
    rw [List.take_append]
    have : (List.take r.ptr r.mem).length = r.ptr := by simp; omega
    rw [this]
    simp [List.take_take]

/-- The multiset of stored values does not depend on the pointer. -/
theorem sum_toList {r : Ring Rat} : r.toList.sum = r.mem.sum := by
  unfold toList
  rw [List.sum_append, add_comm, ← List.sum_append, List.take_append_drop]

/-- After pushing `xs` the ring holds the last `n` entries of (initial contents followed by `xs`). -/
theorem toList_foldl_push {r : Ring α} (h : r.WF) (xs : List α) :
    (xs.foldl push r).toList = (r.toList ++ xs).drop xs.length ∧ (xs.foldl push r).WF := by
  induction xs generalizing r with
  | nil => simp [h]
  | cons x xs ih =>
    obtain ⟨h1, h2⟩ := ih (wf_push h x)
    refine ⟨?_, h2⟩
    rw [List.foldl_cons, h1, toList_push h]
    obtain ⟨y, -, t, ht⟩ := read_eq h
    rw [ht]
    simp

end Verif.Ring

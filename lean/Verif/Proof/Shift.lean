import Verif.Proof.Lp
import Verif.Proof.Equivalence
import Mathlib.Data.List.GetD
/-! # Moving an amount from one column to another -/

namespace Verif.Lp

open Verif Verif.Bounds

/-- `x` with `ε` moved from column `i` to column `j`. -/
def shift (x : List Rat) (i j : Nat) (ε : Rat) : List Rat :=
  (List.range x.length).map fun c => x.getD c 0 + ((if c = j then ε else 0) - (if c = i then ε else 0))

theorem shift_length (x : List Rat) (i j : Nat) (ε : Rat) : (shift x i j ε).length = x.length := by simp [shift]

theorem shift_getD {x : List Rat} {i j c : Nat} {ε : Rat} (hc : c < x.length) :
    (shift x i j ε).getD c 0 = x.getD c 0 + ((if c = j then ε else 0) - (if c = i then ε else 0)) := by
  unfold shift
  rw [List.getD_eq_getElem?_getD, List.getElem?_map, List.getElem?_range hc]
  rfl

theorem zipIdx_nodup {α : Type} (l : List α) : l.zipIdx.Nodup := by
  apply List.Nodup.of_map (·.2)
  rw [List.zipIdx_map_snd]
  exact List.nodup_range'

theorem S_point {α : Type} (l : List α) (j : Nat) (hj : j < l.length) (ε : Rat) (f : α → Rat) :
    (l.zipIdx.map fun q => f q.1 * (if q.2 = j then ε else 0)).sum = ε * f l[j] := by
  rw [sum_map_single (zipIdx_nodup l) (a := (l[j], j))]
  · simp [mul_comm]
  · rw [List.mem_iff_getElem]; exact ⟨j, by simpa using hj, by simp⟩
  · intro b hb hne
    have := List.mem_zipIdx' hb
    by_cases h : b.2 = j
    · exfalso; apply hne
      obtain ⟨b1, b2⟩ := b
      simp only at h this
      subst h
      rw [this.2]
    · rw [if_neg h, mul_zero]

theorem sum_neg {β : Type} (l : List β) (f : β → Rat) : (l.map fun b => -f b).sum = -(l.map f).sum := by
  induction l with
  | nil => simp
  | cons b l ih => simp only [List.map_cons, List.sum_cons, ih]; ring

theorem S_shift {α : Type} {l : List α} {x : List Rat} (hlen : x.length = l.length) {i j : Nat} (hi : i < l.length) (hj : j < l.length) (ε : Rat)
    (f : α → Rat) : S l (shift x i j ε) f = S l x f + ε * (f l[j] - f l[i]) := by
  have e : (l.zipIdx.map fun q => f q.1 * (shift x i j ε).getD q.2 0) =
      l.zipIdx.map fun q => f q.1 * x.getD q.2 0 + (f q.1 * (if q.2 = j then ε else 0) + -(f q.1 * (if q.2 = i then ε else 0))) := by
    apply List.map_congr_left
    intro q hq
    have := List.mem_zipIdx' hq
    rw [shift_getD (by omega)]; ring
  unfold S
  rw [e, List.sum_map_add, List.sum_map_add, S_point l j hj, sum_neg, S_point l i hi]
  ring

theorem S_single {α : Type} [DecidableEq α] {l : List α} (hn : l.Nodup) (x : List Rat) {i : Nat} (hi : i < l.length) :
    S l x (fun a => if a = l[i] then 1 else 0) = x.getD i 0 := by
  unfold S
  rw [sum_map_single (zipIdx_nodup l) (a := (l[i], i))]
  · simp
  · rw [List.mem_iff_getElem]; exact ⟨i, by simpa using hi, by simp⟩
  · intro b hb hne
    have := List.mem_zipIdx' hb
    by_cases h : b.1 = l[i]
    · exfalso; apply hne
      have e := this.2.symm.trans h
      have := (List.getElem_inj hn).1 e
      obtain ⟨b1, b2⟩ := b
      simp only at this h
      rw [this, h]
    · simp only; rw [if_neg h, zero_mul]

theorem objective_S (d : Data) (routes : List (List Nat)) (x : List Rat) :
    routeObjective d routes x = S routes x (fun r => roundCost (routeCost d r)) := rfl

/-! ## Rows of the route problem as weighted sums over routes -/

theorem crossRow_S {d : Data} {routes : List (List Nat)} {c : Nat × List (Nat × Rat)} {row : LpRow} (h : crossRow d routes c = .ok row)
    (hk : d.kind c.1 ≠ .other) (x : List Rat) :
    rowVal x row.entries = S routes x (fun r => (if Carries d r c.1 then -1 else 0) +
      (c.2.map fun i => if r.head? = some i.1 then 1 / i.2 else 0).sum) ∧ row.bounds = ⟨.fx, 0, 0⟩ := by
  unfold crossRow at h
  split at h
  · cases h
  · obtain ⟨-, he, hb⟩ := zeroRow_ok h
    refine ⟨?_, hb⟩
    rw [he, rowVal_append, rowVal_flatMap, rowVal_nodeCols hk, S_add, S_sum]
    congr 2
    apply List.map_congr_left
    intro i _
    rw [rowVal_const]
    apply S_congr
    intro r _
    simp

theorem storageRow_S {d : Data} {routes : List (List Nat)} {s : StorageData} {row : LpRow} (h : storageRowR d routes s = .ok row) (x : List Rat) :
    rowVal x row.entries = S routes x (fun r => (if (inList r.getLast? s.outputs && !inList r.head? s.inputs) = true then 1 else 0) +
      (if (inList r.head? s.inputs && !inList r.getLast? s.outputs) = true then -1 else 0)) := by
  obtain ⟨-, he, -⟩ := boundRow_ok h
  rw [he, rowVal_append, rowVal_const, rowVal_const, S_add]

theorem virtualRow_S {d : Data} {routes : List (List Nat)} {v : VirtualData} {row : LpRow} (h : virtualRowR d routes v = .ok row) (x : List Rat) :
    rowVal x row.entries = S routes x (fun r => -(routeFactors v r).sum) := by
  obtain ⟨-, he, -⟩ := boundRow_ok h
  rw [he, rowVal_virtual]

theorem factorRow_S {routes : List (List Nat)} {a : AggData} {l : List LpRow} (h : factorRowsR routes a = .ok l) {row : LpRow} (hr : row ∈ l) :
    ∃ n ∈ a.nodes, ∃ m ∈ a.nodes, ∃ k : Rat, ∀ x : List Rat,
      rowVal x row.entries = S routes x (fun r => (if r.contains n = true then 1 else 0) + (if r.contains m = true then -k else 0)) := by
  unfold factorRowsR at h
  split at h
  · cases h; cases hr
  · rcases hn : a.nodes with _ | ⟨n0, rest⟩
    · rw [hn] at h; cases h
    · rw [hn] at h
      simp only at h
      split at h
      · cases h
      · split at h
        · cases h
        · obtain ⟨p, hp, hz⟩ := collect_mem h row hr
          obtain ⟨-, he, -⟩ := zeroRow_ok hz
          refine ⟨n0, by simp, p.1, by simp [(List.of_mem_zip hp).1], p.2, fun x => ?_⟩
          rw [he, rowVal_append, rowVal_const, rowVal_const, S_add]

theorem aggRow_S {routes : List (List Nat)} {a : AggData} {row : LpRow} (h : aggRowR routes a = .ok row) (x : List Rat) :
    rowVal x row.entries = S routes x (fun r => (lastWeight a fun n => r.contains n).getD 0) := by
  obtain ⟨-, he, -⟩ := limitRow_ok h
  rw [he, rowVal_zipIdx x routes (fun r => lastWeight a fun n => r.contains n)]

end Verif.Lp

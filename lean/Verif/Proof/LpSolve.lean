import Verif.Spec.LpSolve
import Verif.Proof.RowValues
import Verif.Proof.Equivalence
import Mathlib.Data.List.GetD
/-! # lp_solve: rows and bounds -/

namespace Verif.LpSolve

open Verif Verif.Bounds Verif.Lp

theorem visible_round {v : Rat} (h : Visible v) : (if |v| < e8 then 0 else v) = v := by
  rcases h with rfl | h
  · simp
  · rw [if_neg (not_lt.2 h)]

theorem rowBnds_eq {a b : Rat} (h : a = b ∨ e8 ≤ |a - b|) : (⟨constraintType a b, a, b⟩ : Bounds.Row) = rowBnds a b := by
  unfold constraintType rowBnds
  by_cases hab : a = b
  · have : |a - b| < e8 := by rw [hab]; simp [e8]
    rw [if_pos this, if_pos hab]
  · rcases h with h | h
    · exact absurd h hab
    · rw [if_neg (not_lt.2 h), if_neg hab]
      split_ifs <;> rfl

theorem e8_pos : 0 < e8 := by unfold e8; norm_num

theorem gap {a b : Rat} (h : a = b ∨ a + e8 ≤ b) : a = b ∨ e8 ≤ |a - b| := by
  rcases h with h | h
  · exact .inl h
  · refine .inr ?_
    rw [abs_sub_comm]
    exact le_trans (by linarith) (le_abs_self _)

/-- GLPK and lp_solve are given the same flow limits. -/
theorem limits_eq {mn mx : F} (h : Clean mn mx) : ∃ r, limits mn mx = some r ∧ flowRow true mn mx = .stored r := by
  have key : ∀ {m : F} {a : Rat}, toDouble m = some a → Visible a → roundTiny (infToDblMax m) = .fin a := by
    intro m a hm hv
    cases m with
    | fin q =>
      simp only [toDouble, Option.some.injEq] at hm; subst hm
      simp only [infToDblMax, roundTiny]
      rcases hv with rfl | hv
      · simp
      · rw [if_neg (not_lt.2 hv)]
    | posInf =>
      simp only [toDouble, Option.some.injEq] at hm; subst hm
      simp only [infToDblMax, roundTiny]
      rcases hv with hv | hv
      · rw [hv]; simp
      · rw [if_neg (not_lt.2 hv)]
    | negInf =>
      simp only [toDouble, Option.some.injEq] at hm; subst hm
      simp only [infToDblMax, roundTiny]
      rcases hv with hv | hv
      · rw [hv]; simp
      · rw [if_neg (not_lt.2 hv)]
    | nan => cases hm
  unfold Clean at h
  cases ha : toDouble mn with
  | none => rw [ha] at h; simp at h
  | some a =>
    cases hb : toDouble mx with
    | none => rw [ha, hb] at h; simp at h
    | some b =>
      simp only [ha, hb] at h
      refine ⟨rowBnds a b, by unfold limits; simp only [ha, hb], ?_⟩
      unfold flowRow
      rw [key ha h.1, key hb h.2.1]
      simp only [setRowBnds, rowBnds_eq (gap h.2.2.1)]

/-- Column bounds of a demand say what the row of GLPK says. -/
theorem col_iff {mn mx : F} (h : Clean mn mx) {r : Bounds.Row} (hr : limits mn mx = some r) (v : Rat) : ColHolds mn mx v ↔ r.Admits v := by
  unfold Clean at h
  unfold limits at hr
  unfold ColHolds
  cases ha : toDouble mn with
  | none => rw [ha] at h; simp at h
  | some a =>
    cases hb : toDouble mx with
    | none => rw [ha, hb] at h; simp at h
    | some b =>
      simp only [ha, hb] at h hr ⊢
      injection hr with hr
      subst hr
      unfold rowBnds
      by_cases hab : a = b
      · rw [if_pos hab]
        subst hab
        have hn := h.2.2.2
        simp only [true_and, not_or] at hn
        simp only [hn.1, hn.2, false_or, Row.Admits]
        exact ⟨fun h => le_antisymm h.2 h.1, fun h => ⟨h.ge, h.le⟩⟩
      · rw [if_neg hab]
        by_cases h1 : b = dblMax
        · rw [if_pos h1]
          by_cases h2 : a = -dblMax
          · rw [if_pos h2]; simp [h1, h2, Row.Admits]
          · rw [if_neg h2]; simp [h1, h2, Row.Admits]
        · rw [if_neg h1]
          by_cases h2 : a = -dblMax
          · rw [if_pos h2]; simp [h1, h2, Row.Admits]
          · rw [if_neg h2]; simp [h1, h2, Row.Admits]

/-- GLPK and lp_solve are given the same bounds for a storage. -/
theorem settled_eq {volume mx mn days : Rat} (h : Settled volume mx mn days) : volumeBnds volume mx mn days = Storage.storageRow volume mx mn days := by
  obtain ⟨h1, h2, hd, v1, v2⟩ := h
  have m1 : max (volume - mn) 0 = volume - mn := max_eq_left (by linarith)
  have m2 : max (mx - volume) 0 = mx - volume := max_eq_left (by linarith)
  unfold volumeBnds Storage.storageRow
  rw [m1, m2]
  by_cases he : mx = mn
  · rw [if_pos he]
    have e1 : volume - mn = 0 := by rw [he] at h2; linarith
    have e2 : mx - volume = 0 := by rw [he] at h2 ⊢; linarith
    rw [e1, e2]; simp [rowBnds]
  · rw [if_neg he]
    simp only
    have v1' : Visible (-(volume - mn) / days) := by
      rw [neg_div]
      rcases v1 with v1 | v1
      · left; rw [v1]; simp
      · right; rw [abs_neg]; exact v1
    rw [visible_round v1', visible_round v2]
    rw [rowBnds_eq]
    right
    have n1 : 0 ≤ (volume - mn) / days := div_nonneg (by linarith) hd.le
    have n2 : 0 ≤ (mx - volume) / days := div_nonneg (by linarith) hd.le
    have : |(-(volume - mn) / days) - (mx - volume) / days| = (volume - mn) / days + (mx - volume) / days := by
      rw [neg_div, show -((volume - mn) / days) - (mx - volume) / days = -((volume - mn) / days + (mx - volume) / days) by ring, abs_neg, abs_of_nonneg (by linarith)]
    rw [this]
    rcases v1 with v1 | v1
    · rcases v2 with v2 | v2
      · exfalso
        rw [div_eq_zero_iff] at v1 v2
        have := hd.ne'
        apply he
        rcases v1 with v1 | v1
        · rcases v2 with v2 | v2
          · linarith
          · exact absurd v2 this
        · exact absurd v1 this
      · rw [abs_of_nonneg n2] at v2; linarith
    · rw [abs_of_nonneg n1] at v1; linarith

/-! ## Columns -/

theorem S_left {α : Type} {l : List α} {x : List Rat} (h : x.length = l.length) (q : List Rat) (f : α → Rat) : S l (x ++ q) f = S l x f := by
  unfold S
  congr 1
  apply List.map_congr_left
  intro p hp
  have := (List.mem_zipIdx' hp).1
  rw [List.getD_append (h := by omega)]

theorem getD_right {x q : List Rat} {n : Nat} (h : x.length = n) (j : Nat) : (x ++ q).getD (n + j) 0 = q.getD j 0 := by
  subst h
  rw [List.getD_append_right (h := by omega)]
  congr 1
  omega

theorem rowVal_singleton (z : List Rat) (c : Nat) (v : Rat) : rowVal z [(c, v)] = v * z.getD c 0 := by simp [rowVal]

section
variable {d : Data} {routes : List (List Nat)} {x : List Rat}

theorem mem_demands {n : Nat} : n ∈ demands d ↔ n ∈ d.nodes ∧ d.kind n = .output := by simp [demands]

theorem mem_supplys {n : Nat} : n ∈ supplys d ↔ n ∈ d.nodes ∧ (d.kind n = .input ∨ d.kind n = .link) := by simp [supplys]

/-- The flows of the demands. -/
def demandFlows (d : Data) (routes : List (List Nat)) (x : List Rat) : List Rat := (demands d).map (routeNodeFlow d routes x)

theorem demandFlows_getD {q : Nat × Nat} (hq : q ∈ (demands d).zipIdx) : (demandFlows d routes x).getD q.2 0 = routeNodeFlow d routes x q.1 := by
  obtain ⟨h, e⟩ := List.mem_zipIdx' hq
  rw [List.getD_eq_getElem (hn := by simpa [demandFlows] using h)]
  simp [demandFlows, e]

theorem node_left (hw : WellRouted d routes) (hx : x.length = routes.length) (q : List Rat) {n : Nat} (hn : d.kind n ≠ .other) :
    rowVal (x ++ q) (const 1 (nodeCols (d.kind n) n routes)) = routeNodeFlow d routes x n := by
  rw [rowVal_nodeCols hn, S_left hx, ← routeNodeFlow_eq hw]

theorem demand_holds (hw : WellRouted d routes) (hx : x.length = routes.length) (q : List Rat) {p : Nat × Nat} (hp : p ∈ (demands d).zipIdx) :
    (demandRow d routes p).Holds (x ++ q) ↔ q.getD p.2 0 = routeNodeFlow d routes x p.1 := by
  obtain ⟨h, e⟩ := List.mem_zipIdx' hp
  have hk : d.kind p.1 = .output := by rw [e]; exact (mem_demands.1 (List.getElem_mem h)).2
  simp only [demandRow, Row.Holds, Row.Admits]
  rw [rowVal_append, node_left hw hx q (by rw [hk]; simp), rowVal_singleton, getD_right hx]
  constructor <;> intro h <;> linarith

theorem cross_holds (hw : WellRouted d routes) (hx : x.length = routes.length) {p : Nat × Nat} (hp : p ∈ (demands d).zipIdx) {c : Nat × List (Nat × Rat)}
    (hc : c.1 = p.1) {r : LpRow} (hr : Lp.crossRow d routes c = .ok r) :
    Row.Holds ⟨(c.2.flatMap fun i => const (1 / i.2) (colsOf (fun r => r.head? == some i.1) routes)) ++ [(routes.length + p.2, -1)], some ⟨.fx, 0, 0⟩⟩
      (x ++ demandFlows d routes x) ↔ r.bounds.Admits (rowVal x r.entries) := by
  obtain ⟨h, e⟩ := List.mem_zipIdx' hp
  have hk : d.kind p.1 = .output := by rw [e]; exact (mem_demands.1 (List.getElem_mem h)).2
  unfold Lp.crossRow at hr
  split at hr
  · cases hr
  · obtain ⟨-, he, hb⟩ := zeroRow_ok hr
    simp only [Row.Holds]
    rw [he, hb]
    simp only [Row.Admits]
    rw [rowVal_append, rowVal_append, rowVal_singleton, getD_right hx, demandFlows_getD hp]
    have h1 : rowVal x (const (-1) (nodeCols (d.kind c.1) c.1 routes)) = - routeNodeFlow d routes x p.1 := by
      rw [hc, rowVal_nodeCols (by rw [hk]; simp), routeNodeFlow_eq hw, ← S_neg]; apply S_congr; intro r _; split_ifs <;> simp
    have h2 : rowVal (x ++ demandFlows d routes x) (c.2.flatMap fun i => const (1 / i.2) (colsOf (fun r => r.head? == some i.1) routes)) =
        rowVal x (c.2.flatMap fun i => const (1 / i.2) (colsOf (fun r => r.head? == some i.1) routes)) := by
      rw [rowVal_flatMap, rowVal_flatMap]
      congr 1
      apply List.map_congr_left
      intro i _
      rw [rowVal_const, rowVal_const, S_left hx]
    rw [h1, h2]
    constructor <;> intro h <;> linarith

theorem storage_left (hn : d.nodes.Nodup) (hw : WellRouted d routes) (hx : x.length = routes.length) (s : StorageData) {r : LpRow}
    (hr : storageRowR d routes s = .ok r) :
    rowVal (x ++ demandFlows d routes x) (storageRow d routes s).entries = rowVal x r.entries := by
  obtain ⟨-, he, -⟩ := boundRow_ok hr
  rw [he]
  unfold storageRow
  simp only
  rw [rowVal_append, rowVal_append, rowVal_const, rowVal_const, rowVal_const, S_left hx, ← S_add]
  have h1 : rowVal (x ++ demandFlows d routes x) ((demands d).zipIdx.filterMap fun q => if s.outputs.contains q.1 then some (routes.length + q.2, 1) else none) =
      (((demands d).filter fun n => s.outputs.contains n).map fun n => routeNodeFlow d routes x n).sum := by
    rw [sum_map_filter]
    have : ∀ l : List (Nat × Nat), (∀ q ∈ l, q ∈ (demands d).zipIdx) →
        rowVal (x ++ demandFlows d routes x) (l.filterMap fun q => if s.outputs.contains q.1 then some (routes.length + q.2, 1) else none) =
        (l.map fun q => if s.outputs.contains q.1 then routeNodeFlow d routes x q.1 else 0).sum := by
      intro l
      induction l with
      | nil => intro _; rfl
      | cons q l ih =>
        intro hl
        rw [List.filterMap_cons, List.map_cons, List.sum_cons, ← ih fun p hp => hl p (List.mem_cons_of_mem _ hp)]
        by_cases hc : s.outputs.contains q.1
        · simp only [hc, if_true]
          rw [← List.singleton_append, rowVal_append, rowVal_singleton, getD_right hx, demandFlows_getD (hl q (List.mem_cons_self ..))]
          ring
        · simp only [hc]; simp
    rw [this _ fun q hq => hq]
    have hfst : (demands d) = (demands d).zipIdx.map Prod.fst := by simp
    conv_rhs => rw [hfst, List.map_map]
    rfl
  have hnd : ((demands d).filter fun n => s.outputs.contains n).Nodup := (hn.filter _).filter _
  rw [h1, sum_members hw x hnd .output (fun n hn => (mem_demands.1 (List.mem_filter.1 hn).1).2) List.getLast?
    (by intro r n hk; simp [Carries, hk]), ← S_add]
  apply S_congr
  intro r hr
  obtain ⟨-, -, ⟨t, ht, htk⟩, hm⟩ := hw r hr
  have : inList r.getLast? ((demands d).filter fun n => s.outputs.contains n) = inList r.getLast? s.outputs := by
    rw [ht]
    simp only [inList]
    rw [Bool.eq_iff_iff, List.contains_iff_mem, List.mem_filter]
    have : t ∈ demands d := mem_demands.2 ⟨(hm t (List.mem_of_getLast? ht)).2, htk⟩
    simp [this]
  rw [this]
  cases inList r.getLast? s.outputs <;> cases inList r.head? s.inputs <;> simp

theorem virtual_left (hx : x.length = routes.length) (q : List Rat) (v : VirtualData) :
    rowVal (x ++ q) (virtualRow d routes v).entries = rowVal x (routes.zipIdx.filterMap fun q => if routeFactors v q.1 = [] then none else some (q.2, -(routeFactors v q.1).sum)) := by
  have e : ∀ z : List Rat, rowVal z (routes.zipIdx.filterMap fun q => if routeFactors v q.1 = [] then none else some (q.2, -(routeFactors v q.1).sum)) =
      S routes z (fun r => ((if routeFactors v r = [] then none else some (-(routeFactors v r).sum) : Option Rat).getD 0)) := by
    intro z
    rw [← rowVal_zipIdx]
    congr 1
    apply List.filterMap_congr
    intro q _
    split_ifs <;> rfl
  unfold virtualRow
  rw [e, e, S_left hx]

theorem agg_left (hx : x.length = routes.length) (q : List Rat) (g : List Nat → Option Rat) :
    rowVal (x ++ q) (routes.zipIdx.filterMap fun q => (g q.1).map fun w => (q.2, w)) = rowVal x (routes.zipIdx.filterMap fun q => (g q.1).map fun w => (q.2, w)) := by
  rw [rowVal_zipIdx, rowVal_zipIdx, S_left hx]

theorem factor_left (hx : x.length = routes.length) (q : List Rat) (a b : List Nat → Bool) (v w : Rat) :
    rowVal (x ++ q) (const v (colsOf a routes) ++ const w (colsOf b routes)) = rowVal x (const v (colsOf a routes) ++ const w (colsOf b routes)) := by
  rw [rowVal_append, rowVal_append, rowVal_const, rowVal_const, rowVal_const, rowVal_const, S_left hx, S_left hx]

end

end Verif.LpSolve

import Verif.Proof.EdgeLp
import Verif.Proof.Rolling
/-! # Values of the rows in terms of node flows -/

namespace Verif.Lp

open Verif Verif.Bounds

/-- The uses a virtual storage records: factors and flows of its nodes (`/repo/pywr/_core.pyx:1488-1491`). -/
def uses (flow : Nat → Rat) (v : VirtualData) : List VirtualStorage.Use := (v.nodes.zip v.factors).map fun p => ⟨p.2, flow p.1⟩

theorem depletion_uses (flow : Nat → Rat) (v : VirtualData) :
    VirtualStorage.depletion (uses flow v) = -((v.nodes.zip v.factors).map fun p => p.2 * flow p.1).sum := by
  rw [VirtualStorage.depletion_eq, uses, List.map_map]; rfl

/-! ## Route problem -/

theorem contains_S {d : Data} {routes : List (List Nat)} (hw : WellRouted d routes) (x : List Rat) {n : Nat}
    (hpt : NoPassThrough d routes n) (v : Rat) :
    S routes x (fun r => if r.contains n = true then v else 0) = v * routeNodeFlow d routes x n := by
  rw [routeNodeFlow_eq hw, ← S_mul]
  apply S_congr
  intro r hr
  have : Carries d r n ↔ n ∈ r := ⟨carries_mem, hpt r hr⟩
  by_cases hm : n ∈ r
  · rw [if_pos (this.2 hm), mul_one]; simp [hm]
  · rw [if_neg (fun h => hm (this.1 h)), mul_zero]; simp [hm]

theorem node_value {d : Data} {routes : List (List Nat)} (hw : WellRouted d routes) {n : Nat} (hn : d.kind n ≠ .other) (x : List Rat) :
    rowVal x (const 1 (nodeCols (d.kind n) n routes)) = routeNodeFlow d routes x n := by
  rw [rowVal_nodeCols hn, ← routeNodeFlow_eq hw]

theorem sum_members {d : Data} {routes : List (List Nat)} (hw : WellRouted d routes) (x : List Rat) {l : List Nat} (hl : l.Nodup)
    (k : Kind) (hk : ∀ n ∈ l, d.kind n = k) (o : List Nat → Option Nat)
    (ho : ∀ r n, d.kind n = k → (Carries d r n ↔ o r = some n)) :
    (l.map fun n => routeNodeFlow d routes x n).sum = S routes x (fun r => if inList (o r) l then 1 else 0) := by
  have : (l.map fun n => routeNodeFlow d routes x n) = l.map fun n => S routes x (fun r => if o r = some n then 1 else 0) := by
    apply List.map_congr_left
    intro n hn
    rw [routeNodeFlow_eq hw]
    apply S_congr
    intro r _
    exact if_congr (ho r n (hk n hn)) rfl rfl
  rw [this, ← S_sum]
  apply S_congr
  intro r _
  cases hor : o r with
  | none => simp [inList]
  | some m =>
    simp only [Option.some.injEq, inList, List.contains_iff_mem]
    exact sum_eq_ite hl m 1

theorem storage_value {d : Data} {routes : List (List Nat)} (hw : WellRouted d routes) (x : List Rat)
    {s : StorageData} (hi : s.inputs.Nodup) (ho : s.outputs.Nodup)
    (hik : ∀ n ∈ s.inputs, d.kind n = .input) (hok : ∀ n ∈ s.outputs, d.kind n = .output)
    {row : LpRow} (hr : storageRowR d routes s = .ok row) :
    rowVal x row.entries = storageFlow (routeNodeFlow d routes x) s ∧ row.bounds = Storage.storageRow s.volume s.mx s.mn d.days := by
  obtain ⟨-, he, hb⟩ := boundRow_ok hr
  refine ⟨?_, hb⟩
  rw [he, rowVal_append, rowVal_const, rowVal_const, ← S_add]
  unfold storageFlow
  rw [sum_members hw x hi .input hik List.head? (by intro r n hk; simp [Carries, hk]),
    sum_members hw x ho .output hok List.getLast? (by intro r n hk; simp [Carries, hk]), ← S_sub]
  apply S_congr
  intro r _
  cases inList r.getLast? s.outputs <;> cases inList r.head? s.inputs <;> simp

theorem virtual_value {d : Data} {routes : List (List Nat)} (hw : WellRouted d routes) (x : List Rat) {v : VirtualData}
    (hn : v.nodes.Nodup) (hpt : ∀ n ∈ v.nodes, NoPassThrough d routes n) {row : LpRow} (hr : virtualRowR d routes v = .ok row) :
    rowVal x row.entries = VirtualStorage.depletion (uses (routeNodeFlow d routes x) v) ∧
    row.bounds = VirtualStorage.vRow v.active v.volume v.mx v.mn d.days := by
  obtain ⟨-, he, hb⟩ := boundRow_ok hr
  refine ⟨?_, hb⟩
  rw [he, rowVal_virtual, S_neg, depletion_uses]
  congr 1
  have e : S routes x (fun r => (routeFactors v r).sum) =
      S routes x (fun r => ((v.nodes.zip v.factors).map fun p => if p.1 ∈ r then p.2 else 0).sum) :=
    S_congr fun r hr => routeFactors_sum hn (hw r hr).1
  rw [e, S_sum]
  congr 1
  apply List.map_congr_left
  intro p hp
  rw [← contains_S hw x (hpt p.1 (List.of_mem_zip hp).1)]
  apply S_congr
  intro r _
  simp

theorem agg_value {d : Data} {routes : List (List Nat)} (hw : WellRouted d routes) (x : List Rat) {a : AggData}
    (hpt : ∀ n ∈ a.nodes, NoPassThrough d routes n)
    (hone : ∀ r ∈ routes, ((a.nodes.zip a.weightList).filter fun p => r.contains p.1).length ≤ 1)
    {row : LpRow} (hr : aggRowR routes a = .ok row) :
    rowVal x row.entries = aggFlow (routeNodeFlow d routes x) a ∧ flowRow true a.minFlow a.maxFlow = .stored row.bounds := by
  obtain ⟨-, he, hb⟩ := limitRow_ok hr
  refine ⟨?_, hb⟩
  rw [he, rowVal_zipIdx x routes (fun r => lastWeight a fun n => r.contains n)]
  have e : S routes x (fun r => (lastWeight a fun n => r.contains n).getD 0) =
      S routes x (fun r => ((a.nodes.zip a.weightList).map fun p => if r.contains p.1 then p.2 else 0).sum) :=
    S_congr fun r hr => lastWeight_sum a _ (hone r hr)
  rw [e, S_sum]
  unfold aggFlow
  congr 1
  apply List.map_congr_left
  intro p hp
  rw [contains_S hw x (hpt p.1 (List.of_mem_zip hp).1), mul_comm]

/-- The pairs (member, normalised factor) the factor rows are about, after the first member. -/
def factorPairs (a : AggData) (fs : List Rat) : List (Nat × Rat) :=
  a.nodes.tail.zip (fs.map fun f => fs.headD 0 / f).tail

/-- Shared analysis of the factor rows of both problems: `f n0 p` is the row of a pair. -/
theorem factorRows_ok {a : AggData} {f : Nat → Nat × Rat → Except Err LpRow} {l : List LpRow}
    (h : (match a.factors with
      | none => .ok []
      | some fs => match a.nodes with
        | [] => .error .glpk
        | n0 :: rest =>
          if rest = [] then .error .glpk
          else match factorsNorm fs with
            | .error e => .error e
            | .ok norm => collect (f n0) (rest.zip norm.tail)) = Except.ok l) :
    (∀ fs, a.factors = some fs → (∀ q ∈ fs, q ≠ 0) ∧ ∀ n0 rest, a.nodes = n0 :: rest →
      ∀ p ∈ factorPairs a fs, ∃ row ∈ l, f n0 p = .ok row) ∧
    (∀ row ∈ l, ∃ fs n0 rest p, a.factors = some fs ∧ a.nodes = n0 :: rest ∧ p ∈ factorPairs a fs ∧ f n0 p = .ok row) := by
  cases hf : a.factors with
  | none => rw [hf] at h; cases h; simp
  | some fs =>
    rw [hf] at h
    cases hN : a.nodes with
    | nil => rw [hN] at h; cases h
    | cons n0 rest =>
      rw [hN] at h
      simp only at h
      by_cases hrest : rest = []
      · rw [if_pos hrest] at h; cases h
      rw [if_neg hrest] at h
      simp only [factorsNorm] at h
      by_cases hz : fs.any (fun f => f == 0)
      · simp only [hz, if_true] at h; cases h
      · have hnz : ∀ f ∈ fs, f ≠ 0 := fun f hf h => hz (by simpa using h ▸ hf)
        simp only [hz] at h
        simp only [Bool.false_eq_true, if_false] at h
        refine ⟨?_, ?_⟩
        · intro fs' e; cases e
          refine ⟨hnz, ?_⟩
          intro m0 rest' e p hp
          cases e
          unfold factorPairs at hp
          rw [hN] at hp
          exact collect_ok h p hp
        · intro row hrow
          obtain ⟨p, hp, hr⟩ := collect_mem h row hrow
          refine ⟨fs, n0, rest, p, rfl, rfl, ?_, hr⟩
          unfold factorPairs
          rw [hN]
          exact hp

theorem factor_value {d : Data} {routes : List (List Nat)} (hw : WellRouted d routes) (x : List Rat) {n0 : Nat} {p : Nat × Rat}
    (h0 : NoPassThrough d routes n0) (hp : NoPassThrough d routes p.1) {row : LpRow}
    (hr : zeroRow (const 1 (colsOf (fun r => r.contains n0) routes) ++ const (-p.2) (colsOf (fun r => r.contains p.1) routes)) =
      .ok row) :
    rowVal x row.entries = routeNodeFlow d routes x n0 - p.2 * routeNodeFlow d routes x p.1 ∧ row.bounds = ⟨.fx, 0, 0⟩ := by
  obtain ⟨-, he, hb⟩ := zeroRow_ok hr
  refine ⟨?_, hb⟩
  rw [he, rowVal_append, rowVal_const, rowVal_const, contains_S hw x h0, contains_S hw x hp]
  ring

/-- Proportionality from the factor rows. -/
theorem proportional {a : AggData} {fs : List Rat} (flow : Nat → Rat) (hnz : ∀ q ∈ fs, q ≠ 0)
    (hlen : a.nodes.length = fs.length)
    (h : ∀ n0 rest, a.nodes = n0 :: rest → ∀ p ∈ factorPairs a fs, flow n0 - p.2 * flow p.1 = 0) :
    ∃ c, ∀ p ∈ a.nodes.zip fs, p.2 ≠ 0 ∧ flow p.1 = c * p.2 := by
  unfold factorPairs at h
  match hN : a.nodes, hF : fs with
  | [], _ => exact ⟨0, by simp⟩
  | n0 :: rest, [] => rw [hN] at hlen; simp at hlen
  | n0 :: rest, f0 :: fr =>
    have hf0 : f0 ≠ 0 := hnz f0 (by simp)
    refine ⟨flow n0 / f0, ?_⟩
    intro p hp
    rw [List.zip_cons_cons] at hp
    rcases List.mem_cons.1 hp with rfl | hp
    · exact ⟨hf0, by field_simp⟩
    · have hp2 : p.2 ≠ 0 := hnz _ (by simp [(List.of_mem_zip hp).2])
      refine ⟨hp2, ?_⟩
      have hq : (p.1, f0 / p.2) ∈ rest.zip (fr.map fun f => f0 / f) := by
        rw [List.zip_map_right]
        exact List.mem_map.2 ⟨p, hp, rfl⟩
      have := h n0 rest hN (p.1, f0 / p.2) (by rw [hN]; simpa using hq)
      simp only at this
      field_simp
      field_simp at this
      linarith

/-! ## Edge problem -/

theorem node_valueE {d : Data} {g : Graph} (h1 : OneDomain d g) (y : List Rat) (n : Nat) :
    rowVal y (const 1 (flowEdges d g n)) = thru d g y n := by
  rw [rowVal_flowEdges h1, one_mul]

theorem balance_valueE {d : Data} {g : Graph} (h1 : OneDomain d g) (y : List Rat) {n : Nat} {row : LpRow} (hr : balanceRow g n = .ok row) :
    rowVal y row.entries = inFlow g y n - outFlow g y n ∧ row.bounds = ⟨.fx, 0, 0⟩ := by
  obtain ⟨-, he, hb⟩ := zeroRow_ok hr
  refine ⟨?_, hb⟩
  rw [he, rowVal_append, rowVal_in h1, rowVal_out h1]
  ring

theorem storage_valueE {d : Data} {g : Graph} (h1 : OneDomain d g) (y : List Rat) {s : StorageData}
    (hik : ∀ n ∈ s.inputs, d.kind n = .input) (hok : ∀ n ∈ s.outputs, d.kind n = .output)
    {row : LpRow} (hr : storageRowE d g s = .ok row) :
    rowVal y row.entries = storageFlow (thru d g y) s ∧ row.bounds = Storage.storageRow s.volume s.mx s.mn d.days := by
  obtain ⟨-, he, hb⟩ := boundRow_ok hr
  refine ⟨?_, hb⟩
  have hc : ∀ (v : Rat) (l : List Nat) (f : Nat → List Nat), const v (l.flatMap f) = l.flatMap fun n => const v (f n) := by
    intro v l f; simp [const, List.map_flatMap]
  rw [he, rowVal_append, hc, hc, rowVal_flatMap, rowVal_flatMap]
  have e1 : (s.outputs.map fun n => rowVal y (const 1 (inEdges g n))) = s.outputs.map (thru d g y) := by
    apply List.map_congr_left
    intro n hn
    rw [rowVal_in h1, one_mul, thru_output (hok n hn)]
  have e2 : (s.inputs.map fun n => rowVal y (const (-1) (outEdges g n))).sum = -(s.inputs.map (thru d g y)).sum := by
    rw [List.sum_neg, List.map_map]
    congr 1
    apply List.map_congr_left
    intro n hn
    simp only [Function.comp]
    rw [rowVal_out h1, thru_other (by rw [hik n hn]; simp), neg_one_mul]
  rw [e1, e2, ← sub_eq_add_neg]
  rfl

theorem virtual_valueE {d : Data} {g : Graph} (h1 : OneDomain d g) (y : List Rat) {v : VirtualData} {row : LpRow}
    (hr : virtualRowE d g v = .ok row) :
    rowVal y row.entries = VirtualStorage.depletion (uses (thru d g y) v) ∧
    row.bounds = VirtualStorage.vRow v.active v.volume v.mx v.mn d.days := by
  obtain ⟨-, he, hb⟩ := boundRow_ok hr
  refine ⟨?_, hb⟩
  rw [he, rowVal_virtualE h1, depletion_uses]

theorem agg_valueE {d : Data} {g : Graph} (h1 : OneDomain d g) (y : List Rat) {a : AggData}
    (hone : ∀ e ∈ g.edges, ((a.nodes.zip a.weightList).filter fun p => counts d p.1 e).length ≤ 1)
    {row : LpRow} (hr : aggRowE d g a = .ok row) :
    rowVal y row.entries = aggFlow (thru d g y) a ∧ flowRow true a.minFlow a.maxFlow = .stored row.bounds := by
  obtain ⟨-, he, hb⟩ := limitRow_ok hr
  refine ⟨?_, hb⟩
  rw [he, rowVal_aggE h1 a y hone]; rfl

theorem factor_valueE {d : Data} {g : Graph} (h1 : OneDomain d g) (y : List Rat) {n0 : Nat} {p : Nat × Rat} {row : LpRow}
    (hr : zeroRow (const 1 (flowEdges d g n0) ++ const (-p.2) (flowEdges d g p.1)) = .ok row) :
    rowVal y row.entries = thru d g y n0 - p.2 * thru d g y p.1 ∧ row.bounds = ⟨.fx, 0, 0⟩ := by
  obtain ⟨-, he, hb⟩ := zeroRow_ok hr
  refine ⟨?_, hb⟩
  rw [he, rowVal_append, rowVal_flowEdges h1, rowVal_flowEdges h1]
  ring

end Verif.Lp

import Verif.Spec.Solvable
import Verif.Proof.Attained
import Verif.Props.Relaxing
import Verif.Props.Simulation
/-! # C127: a least-cost allocation exists, and a model that demands nothing runs to its end -/

namespace Verif.Lp

open Verif Verif.Bounds Verif.Composite

/-! ## Existence -/

/-- **C127 (routes).** The route problem of any model has no solution, or solutions of arbitrarily small cost, or a solution of least cost: the least cost, if there is one, is attained. -/
theorem C127_route (d : Data) (routes : List (List Nat)) :
    (¬∃ x, RouteFeasible d routes x) ∨ (∀ B, ∃ x, RouteFeasible d routes x ∧ routeObjective d routes x < B) ∨ ∃ x, Optimal d routes x := by
  by_cases h : ∃ x, RouteFeasible d routes x
  · refine .inr ?_
    by_cases hB : ∃ B, ∀ x, RouteFeasible d routes x → B ≤ routeObjective d routes x
    · refine .inr ?_
      obtain ⟨x0, h0⟩ := h
      obtain ⟨B, hB⟩ := hB
      obtain ⟨ne, l0, p0, a0⟩ := (routeFeasible_iff d routes x0).1 h0
      obtain ⟨x, ⟨a1, a2, a3⟩, a4⟩ := attained (routeLines d) routes (fun r => roundCost (routeCost d r)) x0 l0 p0 a0 B
        (fun x h1 h2 h3 => hB x ((routeFeasible_iff d routes x).2 ⟨ne, h1, h2, h3⟩))
      refine ⟨x, (routeFeasible_iff d routes x).2 ⟨ne, a1, a2, a3⟩, fun y hy => ?_⟩
      obtain ⟨-, b1, b2, b3⟩ := (routeFeasible_iff d routes y).1 hy
      exact a4 y b1 b2 b3
    · refine .inl fun B => ?_
      by_contra hn
      exact hB ⟨B, fun x hx => by by_contra hc; exact hn ⟨x, hx, not_le.1 hc⟩⟩
  · exact .inl h

/-- **C127 (edges).** The same for the edge problem. -/
theorem C127_edge (d : Data) (g : Graph) :
    (¬∃ y, EdgeFeasible d g y) ∨ (∀ B, ∃ y, EdgeFeasible d g y ∧ edgeObjective d g y < B) ∨ ∃ y, EdgeOptimal d g y ∧ Idle g y := by
  by_cases h : ∃ x, EdgeFeasible d g x
  · refine .inr ?_
    by_cases hB : ∃ B, ∀ x, EdgeFeasible d g x → B ≤ edgeObjective d g x
    · refine .inr ?_
      obtain ⟨x0, h0⟩ := h
      obtain ⟨B, hB⟩ := hB
      obtain ⟨ne, l0, p0, a0⟩ := (edgeFeasible_iff d g x0).1 h0
      obtain ⟨x, ⟨a1, a2, a3⟩, a4⟩ := attained (edgeLines d g) g.edges (eCost d g) x0 l0 p0 a0 B
        (fun x h1 h2 h3 => by rw [← edgeObjective_S]; exact hB x ((edgeFeasible_iff d g x).2 ⟨ne, h1, h2, h3⟩))
      have hx := (edgeFeasible_iff d g x).2 ⟨ne, a1, a2, a3⟩
      obtain ⟨hin, -, -⟩ := (feasible_inner d g x).1 hx
      obtain ⟨-, l1, p1, -⟩ := (edgeFeasible_iff d (inner g) _).1 hin
      obtain ⟨y, ly, py, ey, iy⟩ := exists_lift g (innerVals g x) l1 p1
      refine ⟨y, ⟨(feasible_inner d g y).2 ⟨by rw [ey]; exact hin, ly, py⟩, fun z hz => ?_⟩, iy⟩
      obtain ⟨-, b1, b2, b3⟩ := (edgeFeasible_iff d g z).1 hz
      rw [objective_inner, ey, ← objective_inner, edgeObjective_S, edgeObjective_S]
      exact a4 z b1 b2 b3
    · refine .inl fun B => ?_
      by_contra hn
      exact hB ⟨B, fun x hx => by by_contra hc; exact hn ⟨x, hx, not_le.1 hc⟩⟩
  · exact .inl h

/-! ## Bounded costs -/

private theorem bounded {α : Type} (l : List α) (c : α → Rat) (P : List Rat → Prop) (hP : ∀ x, P x → ∀ v ∈ x, 0 ≤ v)
    (h : ∀ k, (hk : k < l.length) → 0 ≤ c l[k] ∨ ∃ Q, ∀ x, P x → x.getD k 0 ≤ Q) : ∃ B, ∀ x, P x → B ≤ S l x c := by
  have key : ∀ q ∈ l.zipIdx, ∃ b, ∀ x, P x → b ≤ c q.1 * x.getD q.2 0 := by
    intro q hq
    have hq := List.mem_zipIdx' hq
    rcases le_or_gt 0 (c q.1) with hc | hc
    · exact ⟨0, fun x hx => mul_nonneg hc (getD_nonneg (hP x hx) _)⟩
    · rcases h q.2 hq.1 with hc' | ⟨Q, hQ⟩
      · rw [← hq.2] at hc'; linarith
      · exact ⟨c q.1 * Q, fun x hx => mul_le_mul_of_nonpos_left (hQ x hx) hc.le⟩
  unfold S
  generalize l.zipIdx = L at key
  induction L with
  | nil => exact ⟨0, fun x _ => by simp⟩
  | cons q L ih =>
    obtain ⟨B, hB⟩ := ih fun q hq => key q (List.mem_cons_of_mem _ hq)
    obtain ⟨b, hb⟩ := key q (List.mem_cons_self ..)
    exact ⟨b + B, fun x hx => by rw [List.map_cons, List.sum_cons]; exact add_le_add (hb x hx) (hB x hx)⟩

private theorem le_row {α : Type} (l : List α) (x : List Rat) (p : α → Bool) (hx : ∀ v ∈ x, 0 ≤ v) (k : Nat) (hk : k < l.length) (hp : p l[k] = true) :
    x.getD k 0 ≤ S l x fun a => term (p a) 1 := by
  unfold S
  have hm : (l[k], k) ∈ l.zipIdx := by rw [List.mem_iff_getElem]; exact ⟨k, by simpa using hk, by simp⟩
  have := List.single_le_sum (l := l.zipIdx.map fun q => term (p q.1) 1 * x.getD q.2 0) (by
    intro v hv
    obtain ⟨q, -, rfl⟩ := List.mem_map.1 hv
    refine mul_nonneg ?_ (getD_nonneg hx _)
    unfold term; split <;> norm_num) _ (List.mem_map.2 ⟨_, hm, rfl⟩)
  simpa [term, hp] using this

/-- The value of a limit row with a finite maximum is bounded. -/
private theorem capped {a : F} {q : Rat} (ha : LowerLimit a) (hq : OrdinaryDouble q) {r : Row} (hr : flowRow true a (.fin q) = .stored r) : ∃ Q, ∀ v, r.Admits v → v ≤ Q := by
  have hE : ∀ q, F.effective (.fin q) = .fin (rnd q) := by intro q; simp only [F.effective, rnd]; split <;> rfl
  obtain ⟨r', hr', hadm⟩ := admits_iff ha (.inr ⟨q, rfl, hq⟩)
  rw [hr'] at hr
  cases hr
  refine ⟨max (rnd q) (match a.effective with | .fin w => w | _ => 0), fun v hv => ?_⟩
  rcases (hadm v).1 hv with ⟨-, h⟩ | ⟨-, -, h⟩
  · rw [h]; exact le_max_right _ _
  · rw [hE] at h; exact le_trans h (le_max_left _ _)

private theorem line_capped {α : Type} {bad : α → Bool} {m : α → Nat} {w : α → Rat} {d : Data} {n : Nat} (h : Capped d n) :
    ∃ Q, ∀ l x, (∃ L, limitLine bad m w (d.minFlow n) (d.maxFlow n) = some L ∧ L.Built l ∧ L.Holds l x) → S l x w ≤ Q := by
  obtain ⟨ha, q, hb, hq⟩ := h
  rw [hb]
  unfold limitLine
  cases hr : flowRow true (d.minFlow n) (.fin q) with
  | stored r =>
    obtain ⟨Q, hQ⟩ := capped ha hq hr
    refine ⟨Q, ?_⟩
    rintro l x ⟨L, hL, -, hh⟩
    simp only [Option.some.injEq] at hL
    subst hL
    exact hQ _ hh
  | _ =>
    refine ⟨0, ?_⟩
    rintro l x ⟨L, hL, -⟩
    simp at hL

private theorem cost_nonneg {d : Data} {routes : List (List Nat)} (hw : WellRouted d routes) {r : List Nat} (hr : r ∈ routes) (h : ∀ n ∈ r, Carries d r n → 0 ≤ d.cost n) : 0 ≤ roundCost (routeCost d r) := by
  have : 0 ≤ routeCost d r := by
    unfold routeCost
    refine List.sum_nonneg fun v hv => ?_
    obtain ⟨n, hn, rfl⟩ := List.mem_map.1 hv
    obtain ⟨-, ⟨s, hs, ks⟩, ⟨t, ht, kt⟩, -⟩ := hw r hr
    rcases List.mem_append.1 hn with hn | hn
    · rcases List.mem_append.1 hn with hn | hn
      · rw [hs] at hn
        simp only [Option.toList_some, List.mem_singleton] at hn
        subst hn
        exact h n (List.mem_of_mem_head? hs) (by unfold Carries; rw [ks]; exact hs)
      · obtain ⟨hm, hk⟩ := List.mem_filter.1 hn
        have hm' := List.mem_of_mem_tail (List.mem_of_mem_dropLast hm)
        exact h n hm' (by unfold Carries; rw [beq_iff_eq.1 hk]; exact hm')
    · rw [ht] at hn
      simp only [Option.toList_some, List.mem_singleton] at hn
      subst hn
      exact h n (List.mem_of_getLast? ht) (by unfold Carries; rw [kt]; exact ht)
  unfold roundCost
  split
  · exact le_refl _
  · exact this

private theorem node_line {d : Data} {routes : List (List Nat)} {x : List Rat} (hx : RouteFeasible d routes x) {n : Nat} (hn : n ∈ d.nodes) (hk : d.kind n ≠ .other) :
    ∃ L, nodeLine d n = some L ∧ L.Built routes ∧ L.Holds routes x := by
  obtain ⟨-, -, -, h⟩ := (routeFeasible_iff d routes x).1 hx
  refine h _ ?_
  unfold routeLines
  simp only [List.mem_append, List.mem_map]
  exact .inl (.inl (.inl (.inl (.inl ⟨n, by unfold Data.nonStorages; exact List.mem_filter.2 ⟨hn, by simpa using hk⟩, rfl⟩))))

private theorem node_lineE {d : Data} {g : Graph} {x : List Rat} (hx : EdgeFeasible d g x) {n : Nat} (hn : n ∈ d.nodes) (hk : d.kind n ≠ .other) :
    ∃ L, nodeLineE d g n = some L ∧ L.Built g.edges ∧ L.Holds g.edges x := by
  obtain ⟨-, -, -, h⟩ := (edgeFeasible_iff d g x).1 hx
  refine h _ ?_
  unfold edgeLines
  simp only [List.mem_append, List.mem_map]
  exact .inl (.inl (.inl (.inl (.inl (.inl ⟨n, by unfold Data.nonStorages; exact List.mem_filter.2 ⟨hn, by simpa using hk⟩, rfl⟩)))))

/-- **C127 (bounded costs, routes).** If every route passes a node with a finite maximum flow, or no node with a negative cost, a model that has solutions has one of least cost. -/
theorem C127_route_bounded (d : Data) (routes : List (List Nat)) (hw : WellRouted d routes) (hc : CappedRewards d routes) (h : ∃ x, RouteFeasible d routes x) :
    ∃ x, Optimal d routes x := by
  obtain ⟨B, hB⟩ := bounded routes (fun r => roundCost (routeCost d r)) (RouteFeasible d routes) (fun x hx => ((routeFeasible_iff d routes x).1 hx).2.2.1) (by
    intro k hk
    have hr : routes[k] ∈ routes := List.getElem_mem hk
    rcases hc _ hr with ⟨n, hn, hcar, hcap⟩ | h
    · right
      obtain ⟨Q, hQ⟩ := line_capped (α := List Nat) (bad := fun _ => false) (m := fun r => one (passes (d.kind n) n r)) (w := fun r => term (passes (d.kind n) n r) 1) hcap
      refine ⟨Q, fun x hx => ?_⟩
      obtain ⟨hk0, hn0⟩ := (hw _ hr).2.2.2 n hn
      have hp : passes (d.kind n) n routes[k] = true := by
        unfold passes; unfold Carries at hcar
        cases hkn : d.kind n with
        | input => rw [hkn] at hcar; simpa using hcar
        | output => rw [hkn] at hcar; simpa using hcar
        | link => rw [hkn] at hcar; simpa using hcar
        | other => exact absurd hkn hk0
      exact (le_row routes x _ ((routeFeasible_iff d routes x).1 hx).2.2.1 k hk hp).trans (hQ routes x (node_line hx hn0 hk0))
    · exact .inl (cost_nonneg hw hr h))
  rcases C127_route d routes with h' | h' | h'
  · exact absurd h h'
  · obtain ⟨x, hx, hlt⟩ := h' B
    exact absurd (hB x hx) (not_le.2 (by rw [← routeObjective_S]; exact hlt))
  · exact h'

private theorem eCost_nonneg {d : Data} {g : Graph} (e : Nat × Nat) (h : g.domain e.1 = g.domain e.2 → 0 ≤ d.cost e.1 ∧ 0 ≤ d.cost e.2) : 0 ≤ eCost d g e := by
  unfold eCost
  refine List.sum_nonneg fun v hv => ?_
  obtain ⟨n, -, rfl⟩ := List.mem_map.1 hv
  by_cases h1 : enters g n e = true
  · have hd : g.domain e.1 = g.domain e.2 ∧ e.2 = n := by unfold enters at h1; simp at h1; exact ⟨h1.2, h1.1⟩
    have := (h hd.1).2
    rw [hd.2] at this
    refine mul_nonneg ?_ (Nat.cast_nonneg _)
    split <;> linarith
  · by_cases h2 : leaves g n e = true
    · have hd : g.domain e.1 = g.domain e.2 ∧ e.1 = n := by unfold leaves at h2; simp at h2; exact ⟨h2.2, h2.1⟩
      have := (h hd.1).1
      rw [hd.2] at this
      refine mul_nonneg ?_ (Nat.cast_nonneg _)
      split <;> linarith
    · simp [one, h1, h2]

private theorem built_ends {d : Data} {g : Graph} {x : List Rat} (hx : EdgeFeasible d g x) {n : Nat} (hn : n ∈ d.nodes) (hk : d.kind n ≠ .other) {e : Nat × Nat} (he : e ∈ g.edges) :
    ((d.kind n == .input && enters g n e) || (d.kind n == .output && leaves g n e)) = false := by
  obtain ⟨L, hL, hb, -⟩ := node_lineE hx hn hk
  unfold nodeLineE limitLine at hL
  split at hL
  · cases hL; exact hb.1 e he
  · cases hL

private theorem balance {d : Data} {g : Graph} {x : List Rat} (hx : EdgeFeasible d g x) {n : Nat} (hn : n ∈ d.nodes) (hk : d.kind n = .link) :
    (S g.edges x fun e => term (enters g n e) 1) = S g.edges x fun e => term (leaves g n e) 1 := by
  obtain ⟨-, -, -, h⟩ := (edgeFeasible_iff d g x).1 hx
  obtain ⟨L, hL, -, hh⟩ := h (some (balanceLine g n)) (by
    unfold edgeLines
    simp only [List.mem_append, List.mem_map]
    exact .inl (.inl (.inl (.inl (.inr ⟨n, List.mem_filter.2 ⟨hn, by simp [hk]⟩, rfl⟩)))))
  cases hL
  change S g.edges x (fun e => term (enters g n e) 1 + term (leaves g n e) (-1)) = 0 at hh
  rw [S_add] at hh
  have : (S g.edges x fun e => term (leaves g n e) (-1)) = -S g.edges x fun e => term (leaves g n e) 1 := by
    rw [← S_neg]
    refine S_congr fun e _ => ?_
    unfold term; split <;> simp
  rw [this] at hh
  linarith

/-- **C127 (bounded costs, edges).** The same for the edge problem. -/
theorem C127_edge_bounded (d : Data) (g : Graph) (hg : Connects d g) (hc : CappedEdges d g) (h : ∃ y, EdgeFeasible d g y) : ∃ y, EdgeOptimal d g y ∧ Idle g y := by
  obtain ⟨B, hB⟩ := bounded g.edges (eCost d g) (EdgeFeasible d g) (fun x hx => ((edgeFeasible_iff d g x).1 hx).2.2.1) (by
    intro k hk
    have he : g.edges[k] ∈ g.edges := List.getElem_mem hk
    generalize hge : g.edges[k] = e at he
    obtain ⟨n1, n2, k1, k2⟩ := hg e he
    by_cases hd : g.domain e.1 = g.domain e.2
    · have key : ∀ n, Capped d n → ∃ Q, ∀ x, EdgeFeasible d g x → n ∈ d.nodes → d.kind n ≠ .other → (S g.edges x fun e => term (meets d g n e) 1) ≤ Q := by
        intro n hcap
        obtain ⟨Q, hQ⟩ := line_capped (α := Nat × Nat) (bad := fun e => (d.kind n == .input && enters g n e) || (d.kind n == .output && leaves g n e))
          (m := fun e => one (meets d g n e)) (w := fun e => term (meets d g n e) 1) hcap
        exact ⟨Q, fun x hx hn hk => hQ g.edges x (node_lineE hx hn hk)⟩
      rcases hc e he hd with hcap | hcap | hcost
      · right
        obtain ⟨Q, hQ⟩ := key _ hcap
        refine ⟨Q, fun x hx => ?_⟩
        have hl : leaves g e.1 e = true := by simp [leaves, hd]
        have hno : d.kind e.1 ≠ .output := by
          intro ho
          have := built_ends hx n1 k1 he
          simp [ho, hl] at this
        have hm : meets d g e.1 g.edges[k] = true := by rw [hge]; unfold meets; rw [if_neg hno]; exact hl
        exact (le_row g.edges x _ ((edgeFeasible_iff d g x).1 hx).2.2.1 k hk hm).trans (hQ x hx n1 k1)
      · right
        obtain ⟨Q, hQ⟩ := key _ hcap
        refine ⟨Q, fun x hx => ?_⟩
        have hl : enters g e.2 e = true := by simp [enters, hd]
        have hno : d.kind e.2 ≠ .input := by
          intro ho
          have := built_ends hx n2 k2 he
          simp [ho, hl] at this
        have hpos := ((edgeFeasible_iff d g x).1 hx).2.2.1
        have h1 := le_row g.edges x (enters g e.2) hpos k hk (by rw [hge]; exact hl)
        have h2 := hQ x hx n2 k2
        cases hkn : d.kind e.2 with
        | input => exact absurd hkn hno
        | other => exact absurd hkn k2
        | output =>
          have : meets d g e.2 = enters g e.2 := by funext e'; unfold meets; rw [if_pos hkn]
          rw [this] at h2; exact h1.trans h2
        | link =>
          have : meets d g e.2 = leaves g e.2 := by funext e'; unfold meets; rw [if_neg (by rw [hkn]; decide)]
          rw [this, ← balance hx n2 hkn] at h2; exact h1.trans h2
      · exact .inl (eCost_nonneg e fun _ => hcost)
    · exact .inl (eCost_nonneg e fun h => absurd h hd))
  rcases C127_edge d g with h' | h' | h'
  · exact absurd h h'
  · obtain ⟨x, hx, hlt⟩ := h' B
    exact absurd (hB x hx) (not_le.2 (by rw [← edgeObjective_S]; exact hlt))
  · exact h'

/-! ## No flow at all -/

theorem storage_zero {v mx mn days : Rat} (hd : 0 < days) : (Storage.storageRow v mx mn days).Admits 0 := by
  unfold Storage.storageRow
  by_cases h : mx = mn
  · simp [h, Row.Admits]
  · rw [if_neg h]
    have hlo : -max (v - mn) 0 / days ≤ 0 := by
      rw [neg_div]
      have : 0 ≤ max (v - mn) 0 / days := div_nonneg (le_max_right _ _) (le_of_lt hd)
      linarith
    have hhi : 0 ≤ max (mx - v) 0 / days := div_nonneg (le_max_right _ _) (le_of_lt hd)
    change Row.Admits ⟨constraintType (rnd (-max (v - mn) 0 / days)) (rnd (max (mx - v) 0 / days)), rnd (-max (v - mn) 0 / days), rnd (max (mx - v) 0 / days)⟩ 0
    have r1 : rnd (-max (v - mn) 0 / days) ≤ 0 := by unfold rnd; split <;> linarith
    have r2 : 0 ≤ rnd (max (mx - v) 0 / days) := by unfold rnd; split <;> linarith
    unfold constraintType
    split
    · rename_i hc
      obtain ⟨e1, -⟩ := rnd_apart hlo hhi hc
      rw [e1]; simp [Row.Admits]
    · split
      · split
        · simp [Row.Admits]
        · exact r1
      · split
        · exact r2
        · exact ⟨r1, r2⟩

theorem virtual_zero {a : Bool} {v mx mn days : Rat} (hd : 0 < days) : (VirtualStorage.vRow a v mx mn days).Admits 0 := by
  unfold VirtualStorage.vRow
  split
  · simp [Row.Admits]
  · split
    · simp [Row.Admits]
    · exact storage_zero hd

theorem S_replicate {α : Type} (l : List α) (k : Nat) (f : α → Rat) : S l (List.replicate k 0) f = 0 := by
  unfold S
  refine List.sum_eq_zero fun v hv => ?_
  obtain ⟨q, -, rfl⟩ := List.mem_map.1 hv
  have : (List.replicate k (0 : Rat)).getD q.2 0 = 0 := by
    rw [List.getD_eq_getElem?_getD, List.getElem?_replicate]; split <;> rfl
  rw [this, mul_zero]

theorem limit_zero {α : Type} {bad : α → Bool} {m : α → Nat} {w : α → Rat} {a b : F} (h : LowerLimit a ∧ UpperLimit b ∧ LimitLe a (.fin 0) ∧ LimitLe (.fin 0) b) {L : Line α}
    (hL : limitLine bad m w a b = some L) : L.bounds.Admits 0 := by
  unfold limitLine at hL
  split at hL
  · rename_i r hr
    cases hL
    exact zero_admitted (d := ⟨fun _ => .other, [], fun _ => a, fun _ => b, fun _ => 0, [], [], [], [], 0⟩) (n := 0) h hr
  · cases hL

/-- **C127 (no flow, routes).** If nothing has to flow, and the solver can build the problem, not to allocate anything is a solution, whatever the volumes of storages and virtual storages are. -/
theorem C127_route_zero (d : Data) (routes : List (List Nat)) (hu : Undemanding d) (hb : ∃ rows, routeRows d routes = .ok rows) :
    RouteFeasible d routes (List.replicate routes.length 0) := by
  obtain ⟨ne, h⟩ := (routeRows_ok d routes).1 hb
  refine (routeFeasible_iff d routes _).2 ⟨ne, by simp, fun v hv => (List.eq_of_mem_replicate hv).ge, fun o ho => ?_⟩
  obtain ⟨L, rfl, hL⟩ := h o ho
  refine ⟨L, rfl, hL, ?_⟩
  unfold Line.Holds
  rw [S_replicate]
  unfold routeLines at ho
  simp only [List.mem_append, List.mem_map, List.mem_flatMap] at ho
  rcases ho with ((((⟨n, hn, e⟩ | ⟨c, -, e⟩) | ⟨s, -, e⟩) | ⟨v, -, e⟩) | ⟨a, -, e⟩) | ⟨a, ha, e⟩
  · obtain ⟨hn, hk⟩ := List.mem_filter.1 hn
    exact limit_zero (hu.nodes n hn (by simpa using hk)) e
  · unfold crossLine at e
    split at e
    · cases e
    · cases e; simp [Row.Admits]
  · cases e; exact storage_zero hu.days
  · cases e; exact virtual_zero hu.days
  · unfold factorLines at e
    split at e
    · simp at e
    · split at e
      · simp at e
      · split at e
        · simp at e
        · split at e
          · simp at e
          · obtain ⟨p, -, e⟩ := List.mem_map.1 e
            cases e; simp [Row.Admits]
  · exact limit_zero (hu.aggs a ha) e

/-- **C127 (no flow, edges).** The same for the edge problem. -/
theorem C127_edge_zero (d : Data) (g : Graph) (hu : Undemanding d) (hb : ∃ rows, edgeRows d g = .ok rows) : EdgeFeasible d g (List.replicate g.edges.length 0) := by
  obtain ⟨ne, h⟩ := (edgeRows_ok d g).1 hb
  refine (edgeFeasible_iff d g _).2 ⟨ne, by simp, fun v hv => (List.eq_of_mem_replicate hv).ge, fun o ho => ?_⟩
  obtain ⟨L, rfl, hL⟩ := h o ho
  refine ⟨L, rfl, hL, ?_⟩
  unfold Line.Holds
  rw [S_replicate]
  unfold edgeLines at ho
  simp only [List.mem_append, List.mem_map, List.mem_flatMap] at ho
  rcases ho with (((((⟨n, hn, e⟩ | ⟨c, -, e⟩) | ⟨n, -, e⟩) | ⟨s, -, e⟩) | ⟨v, -, e⟩) | ⟨a, -, e⟩) | ⟨a, ha, e⟩
  · obtain ⟨hn, hk⟩ := List.mem_filter.1 hn
    exact limit_zero (hu.nodes n hn (by simpa using hk)) e
  · unfold crossLineE at e
    split at e
    · cases e
    · cases e; simp [Row.Admits]
  · cases e; simp [balanceLine, Row.Admits]
  · cases e; exact storage_zero hu.days
  · cases e; exact virtual_zero hu.days
  · unfold factorLinesE at e
    split at e
    · simp at e
    · split at e
      · simp at e
      · split at e
        · simp at e
        · split at e
          · simp at e
          · obtain ⟨p, -, e⟩ := List.mem_map.1 e
            cases e; simp [Row.Admits]
  · exact limit_zero (hu.aggs a ha) e

/-! ## Problems without solution, problems without least cost -/

/-- A supply and a demand. -/
def pair (lo hi : F) (cost : Rat) : Data :=
  ⟨fun n => if n = 0 then .input else .output, [0, 1], fun n => if n = 0 then .fin 0 else lo, fun n => if n = 0 then hi else .posInf, fun n => if n = 0 then 0 else cost, [], [], [], [], 1⟩

/-- **C127 (unlimited).** A rewarded demand without maximum, supplied by a source without maximum (the defaults of nodes): there are solutions of arbitrarily small cost, and none of least cost. -/
theorem C127_unlimited (cost : Rat) (hc : cost ≤ -1) (B : Rat) : ∃ x, RouteFeasible (pair (.fin 0) .posInf cost) [[0, 1]] x ∧ routeObjective (pair (.fin 0) .posInf cost) [[0, 1]] x < B := by
  have hb : ∃ rows, routeRows (pair (.fin 0) .posInf cost) [[0, 1]] = .ok rows := by
    have h0 : (routeRows (pair (.fin 0) .posInf 0) [[0, 1]]).toOption.isSome = true := by decide +kernel
    cases he : routeRows (pair (.fin 0) .posInf 0) [[0, 1]] with
    | ok rows => exact ⟨rows, he⟩
    | error e => rw [he] at h0; simp [Except.toOption] at h0
  obtain ⟨ne, h⟩ := (routeRows_ok _ _).1 hb
  have hf : ∀ v : Rat, 0 ≤ v → RouteFeasible (pair (.fin 0) .posInf cost) [[0, 1]] [v] := by
    intro v hv
    refine (routeFeasible_iff _ _ _).2 ⟨ne, rfl, by simpa using hv, fun o ho => ?_⟩
    obtain ⟨L, hL, hbu⟩ := h o ho
    refine ⟨L, hL, hbu, ?_⟩
    have e : routeLines (pair (.fin 0) .posInf cost) = [nodeLine (pair (.fin 0) .posInf cost) 0, nodeLine (pair (.fin 0) .posInf cost) 1] := rfl
    rw [e, List.mem_cons, List.mem_singleton] at ho
    have hr : flowRow true (.fin 0) .posInf = .stored ⟨.lo, 0, dblMax⟩ := by decide +kernel
    rcases ho with rfl | rfl
    all_goals
      unfold nodeLine limitLine at hL
      change (match flowRow true (.fin 0) .posInf with | .stored r => some (⟨_, _, _, r⟩ : Line (List Nat)) | _ => none) = some L at hL
      rw [hr] at hL
      cases hL
      simp [Line.Holds, Row.Admits, S, term, passes, pair, hv]
  refine ⟨[|B| + 1], hf _ (by positivity), ?_⟩
  have hcost : routeCost (pair (.fin 0) .posInf cost) [0, 1] = cost := by simp [routeCost, pair]
  have hround : roundCost cost = cost := by
    unfold roundCost
    rw [if_neg]
    have : e8 < 1 := e8_lt_one
    have := neg_le_abs cost
    linarith
  have : routeObjective (pair (.fin 0) .posInf cost) [[0, 1]] [|B| + 1] = cost * (|B| + 1) := by
    simp [routeObjective, hcost, hround]
  rw [this]
  have h1 := neg_abs_le B
  have h2 := mul_le_mul_of_nonneg_right hc (by positivity : (0 : Rat) ≤ |B| + 1)
  linarith

/-- **C127 (demanding).** A demand with a minimum flow above what the source can give: no solution. -/
theorem C127_demanding (x : List Rat) : ¬RouteFeasible (pair (.fin 6) (.fin 5) 0) [[0, 1]] x := by
  intro hx
  have hw : WellRouted (pair (.fin 6) (.fin 5) 0) [[0, 1]] := by
    intro r hr
    rw [List.mem_singleton] at hr
    subst hr
    exact ⟨by decide, ⟨0, rfl, rfl⟩, ⟨1, rfl, rfl⟩, by decide⟩
  have o : OrdinaryDouble 0 ∧ OrdinaryDouble 5 ∧ OrdinaryDouble 6 := by unfold OrdinaryDouble; decide +kernel
  have h0 := C22_route _ _ hw x hx 0 (by decide) (by decide) (.inr ⟨0, rfl, o.1⟩) (.inr ⟨5, rfl, o.2.1⟩)
  have h1 := C22_route _ _ hw x hx 1 (by decide) (by decide) (.inr ⟨6, rfl, o.2.2⟩) (.inl rfl)
  have e : routeNodeFlow (pair (.fin 6) (.fin 5) 0) [[0, 1]] x 0 = routeNodeFlow (pair (.fin 6) (.fin 5) 0) [[0, 1]] x 1 := by
    rw [routeNodeFlow_eq hw, routeNodeFlow_eq hw]
    refine S_congr fun r hr => ?_
    rw [List.mem_singleton] at hr
    subst hr
    decide
  rw [e] at h0
  generalize routeNodeFlow (pair (.fin 6) (.fin 5) 0) [[0, 1]] x 1 = v at h0 h1
  have hE : F.effective (.fin 0) = .fin 0 ∧ F.effective (.fin 5) = .fin 5 ∧ F.effective (.fin 6) = .fin 6 := by decide +kernel
  change Limited (.fin 0) (.fin 5) v at h0
  change Limited (.fin 6) .posInf v at h1
  unfold Limited at h0 h1
  rw [hE.1, hE.2.1] at h0
  rw [hE.2.2] at h1
  have a : v ≤ 5 := by
    rcases h0 with ⟨-, h⟩ | ⟨-, h⟩
    · exact h
    · cases h; norm_num
  have b : 6 ≤ v := by
    rcases h1 with ⟨h, -⟩ | ⟨-, h⟩
    · exact h
    · cases h; norm_num
  linarith


/-! Not trivial: a supply of at most 5 for a rewarded demand. -/

example : CappedRewards (pair (.fin 0) (.fin 5) (-10)) [[0, 1]] ∧ Undemanding (pair (.fin 0) (.fin 5) (-10)) ∧ Connects (pair (.fin 0) (.fin 5) (-10)) ⟨[(0, 1)], fun _ => 0⟩ ∧
    CappedEdges (pair (.fin 0) (.fin 5) (-10)) ⟨[(0, 1)], fun _ => 0⟩ ∧ (routeRows (pair (.fin 0) (.fin 5) (-10)) [[0, 1]]).toOption.isSome = true ∧
    (edgeRows (pair (.fin 0) (.fin 5) (-10)) ⟨[(0, 1)], fun _ => 0⟩).toOption.isSome = true := by
  have o : OrdinaryDouble 0 ∧ OrdinaryDouble 5 := by unfold OrdinaryDouble; decide +kernel
  have c : Capped (pair (.fin 0) (.fin 5) (-10)) 0 := ⟨.inr ⟨0, rfl, o.1⟩, 5, rfl, o.2⟩
  refine ⟨?_, ⟨by decide +kernel, ?_, by intro a ha; cases ha⟩, by unfold Connects; decide +kernel, ?_, by decide +kernel, by decide +kernel⟩
  · intro r hr
    rw [List.mem_singleton] at hr
    subst hr
    exact .inl ⟨0, by simp, by decide, c⟩
  · intro n hn _
    change n ∈ [0, 1] at hn
    simp only [List.mem_cons, List.not_mem_nil, or_false] at hn
    rcases hn with rfl | rfl
    · exact ⟨.inr ⟨0, rfl, o.1⟩, .inr ⟨5, rfl, o.2⟩, by show (0 : Rat) ≤ 0; norm_num, by show (0 : Rat) ≤ 5; norm_num⟩
    · exact ⟨.inr ⟨0, rfl, o.1⟩, .inl rfl, by show (0 : Rat) ≤ 0; norm_num, trivial⟩
  · intro e he _
    rw [List.mem_singleton] at he
    subst he
    exact .inl c

end Verif.Lp

namespace Verif.Simulation

open Verif Verif.Lp Verif.Bounds

variable {N : Net} {params : List Done → Values} {m0 : Moment}

/-- **C127 (a timestep, routes).** In a model in which nothing has to flow, the route solver finds a solution, whatever has happened before and whatever the volumes are. -/
theorem C127_route_step (hu : ∀ h, Undemanding (N.data (params h) m0)) (hb : ∀ h, ∃ rows, routeRows (N.data (params h) m0) N.routes = .ok rows) (h : List Done) (m : Moment) :
    ∃ flow, routeAnswer N (N.data (params h) m) flow :=
  ⟨_, _, C127_route_zero (N.data (params h) m) N.routes ⟨(hu h).days, (hu h).nodes, (hu h).aggs⟩ (route_any (hb h)), rfl⟩

/-- **C127 (a timestep, routes, least cost).** If moreover rewards have finite maxima, there is a solution of least cost. -/
theorem C127_route_best (hN : N.Ok) (hu : ∀ h, Undemanding (N.data (params h) m0)) (hb : ∀ h, ∃ rows, routeRows (N.data (params h) m0) N.routes = .ok rows)
    (hc : ∀ h, CappedRewards (N.data (params h) m0) N.routes) (h : List Done) (m : Moment) : ∃ flow, routeBest N (N.data (params h) m) flow := by
  obtain ⟨x, hx, hmin⟩ := C127_route_bounded (N.data (params h) m) N.routes hN.routes (hc h)
    ⟨_, C127_route_zero (N.data (params h) m) N.routes ⟨(hu h).days, (hu h).nodes, (hu h).aggs⟩ (route_any (hb h))⟩
  exact ⟨_, x, hx, hmin, rfl⟩

/-- **C127 (a timestep, edges).** -/
theorem C127_edge_step (hu : ∀ h, Undemanding (N.data (params h) m0)) (hb : ∀ h, ∃ rows, edgeRows (N.data (params h) m0) N.graph = .ok rows) (h : List Done) (m : Moment) :
    ∃ flow, edgeAnswer N (N.data (params h) m) flow := by
  refine ⟨_, _, C127_edge_zero (N.data (params h) m) N.graph ⟨(hu h).days, (hu h).nodes, (hu h).aggs⟩ (edge_any (hb h)), ?_, rfl⟩
  intro c hc _
  rw [List.getD_eq_getElem?_getD, List.getElem?_replicate]
  split <;> rfl

/-- **C127 (a timestep, edges, least cost).** -/
theorem C127_edge_best (hN : N.Ok) (hu : ∀ h, Undemanding (N.data (params h) m0)) (hb : ∀ h, ∃ rows, edgeRows (N.data (params h) m0) N.graph = .ok rows)
    (hc : ∀ h, CappedEdges (N.data (params h) m0) N.graph) (h : List Done) (m : Moment) : ∃ flow, edgeBest N (N.data (params h) m) flow := by
  obtain ⟨y, ⟨hy, hmin⟩, hi⟩ := C127_edge_bounded (N.data (params h) m) N.graph hN.edges (hc h)
    ⟨_, C127_edge_zero (N.data (params h) m) N.graph ⟨(hu h).days, (hu h).nodes, (hu h).aggs⟩ (edge_any (hb h))⟩
  exact ⟨_, y, hy, hi, hmin, rfl⟩

theorem go_on {answer : Data → (Nat → Rat) → Prop} (hs : ∀ h m, ∃ flow, answer (N.data (params h) m) flow) {h : List Done} {m : Moment} (hr : Runs N answer params m0 h m) (k : Nat) :
    ∃ h' m', Runs N answer params m0 (h ++ h') m' ∧ h'.length = k := by
  induction k with
  | zero => exact ⟨[], m, by simpa using hr, rfl⟩
  | succ k ih =>
    obtain ⟨h', m', hr', hl⟩ := ih
    obtain ⟨flow, hf⟩ := hs (h ++ h') m'
    refine ⟨h' ++ [⟨params (h ++ h'), flow⟩], N.next (params (h ++ h')) flow m', ?_, by simp [hl]⟩
    rw [← List.append_assoc]
    exact .step hr' hf

/-- **C127 (runs).** Every run of a model in which nothing has to flow can be continued for any number of timesteps: no run gets into a state in which the route solver fails. -/
theorem C127_runs (hu : ∀ h, Undemanding (N.data (params h) m0)) (hb : ∀ h, ∃ rows, routeRows (N.data (params h) m0) N.routes = .ok rows)
    (h : List Done) (m : Moment) (hr : Runs N (routeAnswer N) params m0 h m) (k : Nat) : ∃ h' m', Runs N (routeAnswer N) params m0 (h ++ h') m' ∧ h'.length = k :=
  go_on (C127_route_step hu hb) hr k

/-- **C127 (runs, least cost).** The same with solutions of least cost in every timestep. -/
theorem C127_best_runs (hN : N.Ok) (hu : ∀ h, Undemanding (N.data (params h) m0)) (hb : ∀ h, ∃ rows, routeRows (N.data (params h) m0) N.routes = .ok rows)
    (hc : ∀ h, CappedRewards (N.data (params h) m0) N.routes) (h : List Done) (m : Moment) (hr : Runs N (routeBest N) params m0 h m) (k : Nat) :
    ∃ h' m', Runs N (routeBest N) params m0 (h ++ h') m' ∧ h'.length = k := go_on (C127_route_best hN hu hb hc) hr k

/-- **C127 (runs, edges).** -/
theorem C127_edge_runs (hu : ∀ h, Undemanding (N.data (params h) m0)) (hb : ∀ h, ∃ rows, edgeRows (N.data (params h) m0) N.graph = .ok rows)
    (h : List Done) (m : Moment) (hr : Runs N (edgeAnswer N) params m0 h m) (k : Nat) : ∃ h' m', Runs N (edgeAnswer N) params m0 (h ++ h') m' ∧ h'.length = k :=
  go_on (C127_edge_step hu hb) hr k

/-- **C127 (runs, edges, least cost).** -/
theorem C127_edge_best_runs (hN : N.Ok) (hu : ∀ h, Undemanding (N.data (params h) m0)) (hb : ∀ h, ∃ rows, edgeRows (N.data (params h) m0) N.graph = .ok rows)
    (hc : ∀ h, CappedEdges (N.data (params h) m0) N.graph) (h : List Done) (m : Moment) (hr : Runs N (edgeBest N) params m0 h m) (k : Nat) :
    ∃ h' m', Runs N (edgeBest N) params m0 (h ++ h') m' ∧ h'.length = k := go_on (C127_edge_best hN hu hb hc) hr k

/-- **C127 (scenarios).** The same for all scenarios of a model together: if in every scenario nothing has to flow, every run can be continued. -/
theorem C127_scenarios {n : Nat} {params : List (Fin n → Done) → Fin n → Values} {start : Fin n → Moment} (hu : ∀ h i, Undemanding (N.data (params h i) m0))
    (hb : ∀ h i, ∃ rows, routeRows (N.data (params h i) m0) N.routes = .ok rows) (h : List (Fin n → Done)) (m : Fin n → Moment)
    (hr : Ensemble N (routeAnswer N) params start h m) (k : Nat) : ∃ h' m', Ensemble N (routeAnswer N) params start (h ++ h') m' ∧ h'.length = k := by
  induction k with
  | zero => exact ⟨[], m, by simpa using hr, rfl⟩
  | succ k ih =>
    obtain ⟨h', m', hr', hl⟩ := ih
    have hs : ∀ i, ∃ flow, routeAnswer N (N.data (params (h ++ h') i) (m' i)) flow := fun i =>
      C127_route_step (params := fun _ => params (h ++ h') i) (fun _ => hu (h ++ h') i) (fun _ => hb (h ++ h') i) [] (m' i)
    choose flow hf using hs
    refine ⟨h' ++ [fun i => ⟨params (h ++ h') i, flow i⟩], fun i => N.next (params (h ++ h') i) (flow i) (m' i), ?_, by simp [hl]⟩
    rw [← List.append_assoc]
    exact .step hr' hf

/-! Not trivial: the reservoir with a licence of C88. -/

private theorem sample_undemanding (h : List Done) : Undemanding (sampleNet.data (sampleParams h) sampleStart) := by
  have o : OrdinaryDouble 0 ∧ OrdinaryDouble 8 ∧ OrdinaryDouble 10 ∧ OrdinaryDouble 12 := by unfold OrdinaryDouble; decide +kernel
  have key : ∀ x, OrdinaryDouble x → 0 ≤ x → Undemanding (sampleNet.data (sampleValues x) sampleStart) := by
    intro x hx h0
    refine ⟨by show (0 : Rat) < 1; norm_num, fun n _ _ => ?_, fun a ha => ?_⟩
    · refine ⟨.inr ⟨0, rfl, o.1⟩, ?_, by show (0 : Rat) ≤ 0; norm_num, ?_⟩
      · show UpperLimit (if n = 0 then .fin x else .posInf)
        split
        · exact .inr ⟨x, rfl, hx⟩
        · exact .inl rfl
      · show LimitLe (.fin 0) (if n = 0 then .fin x else .posInf)
        split
        · exact h0
        · trivial
    · change a ∈ [(⟨[3, 5], some [1, 1], none, .negInf, .fin 12⟩ : AggData)] at ha
      rw [List.mem_singleton] at ha
      subst ha
      exact ⟨.inl rfl, .inr ⟨12, rfl, o.2.2.2⟩, trivial, by show (0 : Rat) ≤ 12; norm_num⟩
  rcases sample_cases h with e | e <;> rw [e]
  · exact key 8 o.2.1 (by norm_num)
  · exact key 10 o.2.2.1 (by norm_num)

example (k : Nat) : ∃ h m, Runs sampleNet (routeAnswer sampleNet) sampleParams sampleStart h m ∧ h.length = k := by
  simpa using C127_runs sample_undemanding sample_alike.route [] sampleStart .start k

example (k : Nat) : ∃ h m, Runs sampleNet (edgeAnswer sampleNet) sampleParams sampleStart h m ∧ h.length = k := by
  simpa using C127_edge_runs sample_undemanding sample_alike.edge [] sampleStart .start k

end Verif.Simulation

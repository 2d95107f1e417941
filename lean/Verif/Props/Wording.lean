import Verif.Props.Relaxing
import Verif.Props.Costs
import Verif.Spec.Wording
/-!
# C123: one restriction in other words
-/

namespace Verif.Lp

open Verif Verif.Bounds Verif.Composite

/-! ## Rows -/

private theorem line_congr {α : Type} {bad bad' : α → Bool} {m m' : α → Nat} {w w' : α → Rat} {lo hi : F} {l : List α} {x : List Rat} (hb : ∀ a ∈ l, bad a = false → bad' a = false)
    (hm : ∀ a ∈ l, m a = m' a) (hw : ∀ a ∈ l, w a = w' a) (h : ∃ L, limitLine bad m w lo hi = some L ∧ L.Built l ∧ L.Holds l x) :
    ∃ L, limitLine bad' m' w' lo hi = some L ∧ L.Built l ∧ L.Holds l x := by
  obtain ⟨L, hL, h1, h2⟩ := h
  unfold limitLine at hL ⊢
  cases hf : flowRow true lo hi with
  | stored r =>
    rw [hf] at hL
    simp only [Option.some.injEq] at hL
    subst hL
    obtain ⟨b1, ⟨a, ha, hma⟩, b3⟩ := h1
    refine ⟨_, rfl, ⟨fun a ha => hb a ha (b1 a ha), ⟨a, ha, by dsimp only at hma ⊢; rwa [← hm a ha]⟩, fun a ha => ?_⟩, ?_⟩
    · have := b3 a ha
      dsimp only at this ⊢
      rwa [← hm a ha]
    · unfold Line.Holds at h2 ⊢
      dsimp only at h2 ⊢
      rwa [← S_congr hw]
  | glpkError => rw [hf] at hL; cases hL
  | storedNan => rw [hf] at hL; cases hL

private theorem zero_limit : LowerLimit (.fin 0) := by
  refine .inr ⟨0, rfl, ?_⟩
  have := dblMax_gt
  unfold OrdinaryDouble
  constructor <;> linarith

/-- A row without limits admits every amount. -/
private theorem plain_admits : ∃ r, flowRow true (.fin 0) .posInf = .stored r ∧ ∀ x, r.Admits x ↔ 0 ≤ x := by
  obtain ⟨r, hr, h⟩ := admits_iff (a := .fin 0) (b := .posInf) zero_limit (.inl rfl)
  refine ⟨r, hr, fun x => ?_⟩
  rw [h x]
  have he := e8_pos
  simp [F.effective, Close, F.AtLeast, F.AtMost, he]

private theorem unlimit {α : Type} {bad : α → Bool} {m : α → Nat} {w : α → Rat} {lo hi : F} {l : List α} {x : List Rat} (hx : ∀ v ∈ x, 0 ≤ v) (hw : ∀ a ∈ l, 0 ≤ w a)
    (h : ∃ L, limitLine bad m w lo hi = some L ∧ L.Built l) : ∃ L, limitLine bad m w (.fin 0) .posInf = some L ∧ L.Built l ∧ L.Holds l x := by
  obtain ⟨L, hL, h1⟩ := h
  obtain ⟨r, hr, hadm⟩ := plain_admits
  unfold limitLine at hL ⊢
  rw [hr]
  cases hf : flowRow true lo hi with
  | stored r' =>
    rw [hf] at hL
    simp only [Option.some.injEq] at hL
    subst hL
    exact ⟨_, rfl, h1, (hadm _).2 (S_nonneg hx hw)⟩
  | glpkError => rw [hf] at hL; cases hL
  | storedNan => rw [hf] at hL; cases hL

private theorem passes_contains {d : Data} {routes : List (List Nat)} {n : Nat} (hk : d.kind n ≠ .other) (hp : NoPassThrough d routes n) {r : List Nat} (hr : r ∈ routes) :
    passes (d.kind n) n r = r.contains n := by
  rw [Bool.eq_iff_iff, List.contains_iff_mem]
  refine ⟨passes_mem, fun hm => ?_⟩
  have := hp r hr hm
  unfold Carries at this
  unfold passes
  cases hkn : d.kind n with
  | input => rw [hkn] at this; simpa using this
  | output => rw [hkn] at this; simpa using this
  | link => simpa using hm
  | other => exact absurd hkn hk

private theorem last_one (n : Nat) (lo hi : F) (p : Nat → Bool) : lastWeight ⟨[n], none, none, lo, hi⟩ p = if p n then some 1 else none := by
  unfold lastWeight AggData.weightList
  cases h : p n <;> simp [h]

private theorem last_one_some (n : Nat) (lo hi : F) (p : Nat → Bool) : one (lastWeight ⟨[n], none, none, lo, hi⟩ p).isSome = one (p n) := by
  rw [last_one]; cases p n <;> rfl

private theorem last_one_get (n : Nat) (lo hi : F) (p : Nat → Bool) : (lastWeight ⟨[n], none, none, lo, hi⟩ p).getD 0 = term (p n) 1 := by
  rw [last_one]; cases p n <;> rfl

private theorem term_nonneg (b : Bool) : 0 ≤ term b 1 := by cases b <;> simp [term]

private theorem node_other {d : Data} {n m : Nat} (h : m ≠ n) (aggs : List AggData) (vs : List VirtualData) :
    nodeLine { unlimited d n with aggs := aggs, virtuals := vs } m = nodeLine d m := by
  unfold nodeLine unlimited
  simp only [h, if_false]

private theorem node_self {d : Data} {n : Nat} (aggs : List AggData) (vs : List VirtualData) :
    nodeLine { unlimited d n with aggs := aggs, virtuals := vs } n =
      limitLine (fun _ => false) (fun r => one (passes (d.kind n) n r)) (fun r => term (passes (d.kind n) n r) 1) (.fin 0) .posInf := by
  unfold nodeLine unlimited
  simp only [if_true]

private theorem nodeE_other {d : Data} {g : Graph} {n m : Nat} (h : m ≠ n) (aggs : List AggData) (vs : List VirtualData) :
    nodeLineE { unlimited d n with aggs := aggs, virtuals := vs } g m = nodeLineE d g m := by
  unfold nodeLineE meets unlimited
  simp only [h, if_false]

private theorem nodeE_self {d : Data} {g : Graph} {n : Nat} (aggs : List AggData) (vs : List VirtualData) :
    nodeLineE { unlimited d n with aggs := aggs, virtuals := vs } g n =
      limitLine (fun e => (d.kind n == .input && enters g n e) || (d.kind n == .output && leaves g n e)) (fun e => one (meets d g n e)) (fun e => term (meets d g n e) 1) (.fin 0) .posInf := by
  unfold nodeLineE meets unlimited
  simp only [if_true]

/-! ## An aggregated node with one member -/

/-- **C123 (aggregated node, route solver).** The limits of a node can be given to an aggregated node with that one member instead: the same allocations are feasible, with the same flows and at the same cost. -/
theorem C123_grouped_partial (d : Data) (routes : List (List Nat)) (n : Nat) (hn : n ∈ d.nodes) (hk : d.kind n ≠ .other) (hp : NoPassThrough d routes n) (x : List Rat) :
    (RouteFeasible (grouped d n) routes x ↔ RouteFeasible d routes x) ∧ routeObjective (grouped d n) routes x = routeObjective d routes x ∧
      ∀ m, routeNodeFlow (grouped d n) routes x m = routeNodeFlow d routes x m := by
  refine ⟨?_, rfl, fun _ => rfl⟩
  have hns : (grouped d n).nonStorages = d.nonStorages := rfl
  have hmem : n ∈ d.nonStorages := mem_nonStorages.2 ⟨hn, hk⟩
  have self := node_self (d := d) (n := n) (d.aggs ++ [⟨[n], none, none, d.minFlow n, d.maxFlow n⟩]) d.virtuals
  have other := fun m (h : m ≠ n) => node_other (d := d) h (d.aggs ++ [⟨[n], none, none, d.minFlow n, d.maxFlow n⟩]) d.virtuals
  change nodeLine (grouped d n) n = _ at self
  change ∀ m, m ≠ n → nodeLine (grouped d n) m = _ at other
  rw [routeFeasible_iff, routeFeasible_iff]
  refine and_congr Iff.rfl (and_congr Iff.rfl (and_congr_right fun hx => ⟨fun h => ?_, fun h => ?_⟩))
  · intro o ho
    unfold AllHold routeLines at h
    unfold routeLines at ho
    simp only [List.mem_append, List.mem_map, List.mem_flatMap] at ho h
    rcases ho with ((((⟨m, hm, rfl⟩ | ho) | ho) | ho) | ⟨a, ha, ho⟩) | ⟨a, ha, rfl⟩
    · by_cases he : m = n
      · subst he
        have hagg := h (aggLine ⟨[m], none, none, d.minFlow m, d.maxFlow m⟩) (.inr ⟨_, by simp [grouped], rfl⟩)
        unfold aggLine at hagg
        unfold nodeLine
        refine line_congr (fun _ _ _ => rfl) (fun r hr => ?_) (fun r hr => ?_) hagg
        · rw [last_one_some, passes_contains hk hp hr]
        · rw [last_one_get, passes_contains hk hp hr]
      · rw [← other m he]
        exact h _ (.inl (.inl (.inl (.inl (.inl ⟨m, by rwa [hns], rfl⟩)))))
    · exact h o (.inl (.inl (.inl (.inl (.inr ho)))))
    · exact h o (.inl (.inl (.inl (.inr ho))))
    · exact h o (.inl (.inl (.inr ho)))
    · exact h o (.inl (.inr ⟨a, List.mem_append_left _ ha, ho⟩))
    · exact h _ (.inr ⟨a, List.mem_append_left _ ha, rfl⟩)
  · intro o ho
    unfold AllHold routeLines at h
    unfold routeLines at ho
    simp only [List.mem_append, List.mem_map, List.mem_flatMap] at ho h
    have hnode := h (nodeLine d n) (.inl (.inl (.inl (.inl (.inl ⟨n, hmem, rfl⟩)))))
    rcases ho with ((((⟨m, hm, rfl⟩ | ho) | ho) | ho) | ⟨a, ha, ho⟩) | ⟨a, ha, rfl⟩
    · by_cases he : m = n
      · subst he
        rw [self]
        exact unlimit hx (fun _ _ => term_nonneg _) (hnode.imp fun L hL => ⟨hL.1, hL.2.1⟩)
      · rw [other m he]
        exact h _ (.inl (.inl (.inl (.inl (.inl ⟨m, by rwa [← hns], rfl⟩)))))
    · exact h o (.inl (.inl (.inl (.inl (.inr ho)))))
    · exact h o (.inl (.inl (.inl (.inr ho))))
    · exact h o (.inl (.inl (.inr ho)))
    · rcases List.mem_append.1 ha with ha | ha
      · exact h o (.inl (.inr ⟨a, ha, ho⟩))
      · cases List.mem_singleton.1 ha
        simp [factorLines] at ho
    · rcases List.mem_append.1 ha with ha | ha
      · exact h _ (.inr ⟨a, ha, rfl⟩)
      · cases List.mem_singleton.1 ha
        unfold aggLine
        unfold nodeLine at hnode
        refine line_congr (fun _ _ _ => rfl) (fun r hr => ?_) (fun r hr => ?_) hnode
        · rw [last_one_some, passes_contains hk hp hr]
        · rw [last_one_get, passes_contains hk hp hr]

/-- **C123 (aggregated node, edge solver).** -/
theorem C123_edge_grouped (d : Data) (g : Graph) (n : Nat) (hn : n ∈ d.nodes) (hk : d.kind n ≠ .other) (y : List Rat) :
    (EdgeFeasible (grouped d n) g y ↔ EdgeFeasible d g y) ∧ edgeObjective (grouped d n) g y = edgeObjective d g y ∧
      ∀ m, edgeNodeFlow (grouped d n) g y m = edgeNodeFlow d g y m := by
  refine ⟨?_, rfl, fun _ => rfl⟩
  have hns : (grouped d n).nonStorages = d.nonStorages := rfl
  have hmem : n ∈ d.nonStorages := mem_nonStorages.2 ⟨hn, hk⟩
  have self := nodeE_self (d := d) (g := g) (n := n) (d.aggs ++ [⟨[n], none, none, d.minFlow n, d.maxFlow n⟩]) d.virtuals
  have other := fun m (h : m ≠ n) => nodeE_other (d := d) (g := g) h (d.aggs ++ [⟨[n], none, none, d.minFlow n, d.maxFlow n⟩]) d.virtuals
  change nodeLineE (grouped d n) g n = _ at self
  change ∀ m, m ≠ n → nodeLineE (grouped d n) g m = _ at other
  have hmeets : meets (grouped d n) g = meets d g := rfl
  rw [edgeFeasible_iff, edgeFeasible_iff]
  refine and_congr Iff.rfl (and_congr Iff.rfl (and_congr_right fun hx => ⟨fun h => ?_, fun h => ?_⟩))
  · intro o ho
    unfold AllHold edgeLines at h
    unfold edgeLines at ho
    simp only [List.mem_append, List.mem_map, List.mem_flatMap] at ho h
    rcases ho with (((((⟨m, hm, rfl⟩ | ho) | ho) | ho) | ho) | ⟨a, ha, ho⟩) | ⟨a, ha, rfl⟩
    · by_cases he : m = n
      · subst he
        have hagg := h (aggLineE (grouped d m) g ⟨[m], none, none, d.minFlow m, d.maxFlow m⟩) (.inr ⟨_, by simp [grouped], rfl⟩)
        obtain ⟨L, hL, hLb, -⟩ := h (nodeLineE (grouped d m) g m) (.inl (.inl (.inl (.inl (.inl (.inl ⟨m, by rwa [hns], rfl⟩))))))
        unfold aggLineE at hagg
        unfold nodeLineE
        refine line_congr (fun e he _ => ?_) (fun e _ => ?_) (fun e _ => ?_) hagg
        · obtain ⟨r, hr, -⟩ := plain_admits
          rw [self] at hL
          unfold limitLine at hL
          rw [hr] at hL
          cases hL
          exact hLb.1 e he
        · rw [last_one_some, hmeets]
        · rw [last_one_get, hmeets]
      · rw [← other m he]
        exact h _ (.inl (.inl (.inl (.inl (.inl (.inl ⟨m, by rwa [hns], rfl⟩))))))
    · exact h o (.inl (.inl (.inl (.inl (.inl (.inr ho))))))
    · exact h o (.inl (.inl (.inl (.inl (.inr ho)))))
    · exact h o (.inl (.inl (.inl (.inr ho))))
    · exact h o (.inl (.inl (.inr ho)))
    · exact h o (.inl (.inr ⟨a, List.mem_append_left _ ha, ho⟩))
    · exact h _ (.inr ⟨a, List.mem_append_left _ ha, rfl⟩)
  · intro o ho
    unfold AllHold edgeLines at h
    unfold edgeLines at ho
    simp only [List.mem_append, List.mem_map, List.mem_flatMap] at ho h
    have hnode := h (nodeLineE d g n) (.inl (.inl (.inl (.inl (.inl (.inl ⟨n, hmem, rfl⟩))))))
    rcases ho with (((((⟨m, hm, rfl⟩ | ho) | ho) | ho) | ho) | ⟨a, ha, ho⟩) | ⟨a, ha, rfl⟩
    · by_cases he : m = n
      · subst he
        rw [self]
        exact unlimit hx (fun _ _ => term_nonneg _) (hnode.imp fun L hL => ⟨hL.1, hL.2.1⟩)
      · rw [other m he]
        exact h _ (.inl (.inl (.inl (.inl (.inl (.inl ⟨m, by rwa [← hns], rfl⟩))))))
    · exact h o (.inl (.inl (.inl (.inl (.inl (.inr ho))))))
    · exact h o (.inl (.inl (.inl (.inl (.inr ho)))))
    · exact h o (.inl (.inl (.inl (.inr ho))))
    · exact h o (.inl (.inl (.inr ho)))
    · rcases List.mem_append.1 ha with ha | ha
      · exact h o (.inl (.inr ⟨a, ha, ho⟩))
      · cases List.mem_singleton.1 ha
        simp [factorLinesE] at ho
    · rcases List.mem_append.1 ha with ha | ha
      · exact h _ (.inr ⟨a, ha, rfl⟩)
      · cases List.mem_singleton.1 ha
        unfold aggLineE
        unfold nodeLineE at hnode
        refine line_congr (fun _ _ _ => rfl) (fun e _ => ?_) (fun e _ => ?_) hnode
        · rw [last_one_some, hmeets]
        · rw [last_one_get, hmeets]

/-! ## A licence with one node -/

/-- A licence of `volume` leaves as much room as an upper limit of that volume per day. -/
private theorem licence_admits {volume mx days : Rat} (hd : 0 < days) (h0 : 0 ≤ volume) (hm : volume ≤ mx) (hpos : 0 < mx) (hbig : mx / days ≤ dblMax - 1) :
    ∃ r, flowRow true (.fin 0) (.fin (volume / days)) = .stored r ∧ ∀ x, 0 ≤ x → (r.Admits x ↔ (VirtualStorage.vRow true volume mx 0 days).Admits (-x)) := by
  have hD := dblMax_gt
  have he := e8_pos
  have hE : ∀ q, F.effective (.fin q) = .fin (rnd q) := by intro q; simp only [F.effective, rnd]; split <;> rfl
  have hr0 : rnd 0 = 0 := by unfold rnd; split <;> rfl
  have hv : 0 ≤ volume / days := div_nonneg h0 (le_of_lt hd)
  have hv1 : volume / days ≤ dblMax - 1 := le_trans ((div_le_div_iff_of_pos_right hd).2 hm) hbig
  obtain ⟨r, hr, hadm⟩ := admits_iff (a := .fin 0) (b := .fin (volume / days)) zero_limit (.inr ⟨_, rfl, by unfold OrdinaryDouble; constructor <;> linarith⟩)
  refine ⟨r, hr, fun x hx => ?_⟩
  rw [hadm x, hE, hE, hr0]
  have hv' : VirtualStorage.vRow true volume mx 0 days = Storage.storageRow volume mx 0 days := by
    unfold VirtualStorage.vRow
    rw [if_neg (by linarith [hpos] : ¬mx = 0), if_neg (by simp)]
  rw [hv', storage_admits hd (le_trans ((div_le_div_iff_of_pos_right hd).2 (by linarith)) hbig) (by rw [sub_zero]; exact hv1), if_neg (by linarith [hpos] : ¬mx = 0)]
  have hneg : rnd (-max (volume - 0) 0 / days) = -rnd (volume / days) := by
    rw [sub_zero, max_eq_left h0, neg_div]
    unfold rnd
    rw [abs_neg]
    split <;> simp
  have hup : 0 ≤ rnd (max (mx - volume) 0 / days) := by
    conv_lhs => rw [← hr0]
    exact rnd_mono (div_nonneg (le_max_right _ _) (le_of_lt hd))
  rw [hneg]
  simp only [Close, F.AtLeast, F.AtMost, F.fin.injEq]
  constructor
  · rintro (⟨hc, rfl⟩ | ⟨-, -, h⟩)
    · have : 0 ≤ rnd (volume / days) := by
        conv_lhs => rw [← hr0]
        exact rnd_mono hv
      constructor <;> linarith
    · constructor <;> linarith
  · rintro ⟨h, -⟩
    by_cases hc : |0 - rnd (volume / days)| < e8
    · have := (rnd_apart (p := 0) (le_refl 0) hv (by rw [hr0]; exact hc)).2
      exact .inl ⟨hc, by linarith⟩
    · exact .inr ⟨hc, hx, by linarith⟩

private theorem factors_one {n : Nat} {volume mx : Rat} {r : List Nat} (hr : r.Nodup) : routeFactors ⟨[n], [1], true, volume, mx, 0⟩ r = if r.contains n then [1] else [] := by
  have e : routeFactors ⟨[n], [1], true, volume, mx, 0⟩ r = r.filterMap fun m => if m = n then some 1 else none := by
    unfold routeFactors
    apply List.filterMap_congr
    intro m _
    by_cases h : m = n
    · subst h; simp [List.idxOf?, List.findIdx?_cons]
    · have h' : ¬n = m := fun h' => h h'.symm
      simp [List.idxOf?, List.findIdx?_cons, h, h']
  rw [e]
  clear e
  induction r with
  | nil => rfl
  | cons m r ih =>
    obtain ⟨hm, hr⟩ := List.nodup_cons.1 hr
    have ih := ih hr
    by_cases h : m = n
    · subst h
      have hc : r.contains m = false := by simpa using hm
      rw [List.filterMap_cons_some (b := 1) (by simp), ih, hc]
      simp
    · have h' : ¬n = m := fun h' => h h'.symm
      rw [List.filterMap_cons_none (by simp [h]), ih, List.contains_cons]
      simp [h']

private theorem weights_one {d : Data} {g : Graph} {n : Nat} {volume mx : Rat} (e : Nat × Nat) : edgeWeights d g ⟨[n], [1], true, volume, mx, 0⟩ e = if meets d g n e then [1] else [] := by
  unfold edgeWeights
  cases h : meets d g n e <;> simp [h]

/-- From the row of an upper limit to the row of a licence and back. -/
private theorem licence_line {α : Type} {bad : α → Bool} {m : α → Nat} {w : α → Rat} {l : List α} {x : List Rat} (hx : ∀ v ∈ x, 0 ≤ v) (hw : ∀ a ∈ l, 0 ≤ w a)
    {volume mx days : Rat} (hd : 0 < days) (h0 : 0 ≤ volume) (hm : volume ≤ mx) (hpos : 0 < mx) (hbig : mx / days ≤ dblMax - 1) {m' : α → Nat} {w' : α → Rat}
    (hmm : ∀ a ∈ l, m' a = m a) (hww : ∀ a ∈ l, w' a = -w a) :
    (∃ L, limitLine bad m w (.fin 0) (.fin (volume / days)) = some L ∧ L.Built l ∧ L.Holds l x) ↔
      (∃ L, limitLine bad m w (.fin 0) .posInf = some L ∧ L.Built l) ∧
        (⟨fun _ => false, m', w', VirtualStorage.vRow true volume mx 0 days⟩ : Line α).Built l ∧ (⟨fun _ => false, m', w', VirtualStorage.vRow true volume mx 0 days⟩ : Line α).Holds l x := by
  obtain ⟨r, hr, hadm⟩ := licence_admits hd h0 hm hpos hbig
  obtain ⟨r', hr', -⟩ := plain_admits
  unfold limitLine
  rw [hr, hr']
  simp only [Option.some.injEq, exists_eq_left']
  unfold Line.Built Line.Holds
  dsimp only
  rw [S_congr hww, S_neg, ← hadm _ (S_nonneg hx hw)]
  constructor
  · rintro ⟨⟨h1, ⟨a, ha, h2⟩, h3⟩, h4⟩
    exact ⟨⟨h1, ⟨a, ha, h2⟩, h3⟩, ⟨fun _ _ => rfl, ⟨a, ha, by rwa [hmm a ha]⟩, fun a ha => by rw [hmm a ha]; exact h3 a ha⟩, h4⟩
  · rintro ⟨h1, -, h4⟩
    exact ⟨h1, h4⟩

/-- **C123 (licence, route solver).** The upper limit of a node can be given as a licence (a virtual storage) in which as much volume is left as the limit lets through in the timestep: the same allocations are feasible,
with the same flows and at the same cost. -/
theorem C123_licensed_partial (d : Data) (routes : List (List Nat)) (hw : WellRouted d routes) (n : Nat) (hn : n ∈ d.nodes) (hk : d.kind n ≠ .other) (hp : NoPassThrough d routes n) (volume mx : Rat)
    (hd : 0 < d.days) (h0 : 0 ≤ volume) (hm : volume ≤ mx) (hpos : 0 < mx) (hbig : mx / d.days ≤ dblMax - 1) (hmin : d.minFlow n = .fin 0) (hmax : d.maxFlow n = .fin (volume / d.days)) (x : List Rat) :
    (RouteFeasible (licensed d n volume mx) routes x ↔ RouteFeasible d routes x) ∧ routeObjective (licensed d n volume mx) routes x = routeObjective d routes x ∧
      ∀ m, routeNodeFlow (licensed d n volume mx) routes x m = routeNodeFlow d routes x m := by
  refine ⟨?_, rfl, fun _ => rfl⟩
  have hns : (licensed d n volume mx).nonStorages = d.nonStorages := rfl
  have hmem : n ∈ d.nonStorages := mem_nonStorages.2 ⟨hn, hk⟩
  have self := node_self (d := d) (n := n) d.aggs (d.virtuals ++ [⟨[n], [1], true, volume, mx, 0⟩])
  have other := fun m (h : m ≠ n) => node_other (d := d) h d.aggs (d.virtuals ++ [⟨[n], [1], true, volume, mx, 0⟩])
  change nodeLine (licensed d n volume mx) n = _ at self
  change ∀ m, m ≠ n → nodeLine (licensed d n volume mx) m = _ at other
  rw [routeFeasible_iff, routeFeasible_iff]
  refine and_congr Iff.rfl (and_congr Iff.rfl (and_congr_right fun hx => ?_))
  have key := licence_line (bad := fun _ => false) (m := fun r => one (passes (d.kind n) n r)) (w := fun r => term (passes (d.kind n) n r) 1) (l := routes) hx (fun _ _ => term_nonneg _)
    hd h0 hm hpos hbig (m' := fun r => one (!decide (routeFactors ⟨[n], [1], true, volume, mx, 0⟩ r = []))) (w' := fun r => -(routeFactors ⟨[n], [1], true, volume, mx, 0⟩ r).sum)
    (fun r hr => by rw [factors_one (hw r hr).1, passes_contains hk hp hr]; cases r.contains n <;> simp [one])
    (fun r hr => by rw [factors_one (hw r hr).1, passes_contains hk hp hr]; cases r.contains n <;> simp [term])
  have hnl : nodeLine d n = limitLine (fun _ => false) (fun r => one (passes (d.kind n) n r)) (fun r => term (passes (d.kind n) n r) 1) (.fin 0) (.fin (volume / d.days)) := by
    unfold nodeLine; rw [hmin, hmax]
  rw [← hnl, ← self] at key
  constructor
  · intro h o ho
    unfold AllHold routeLines at h
    unfold routeLines at ho
    simp only [List.mem_append, List.mem_map, List.mem_flatMap] at ho h
    rcases ho with ((((⟨m, hm', rfl⟩ | ho) | ho) | ⟨v, hv, rfl⟩) | ho) | ho
    · by_cases he : m = n
      · subst he
        obtain ⟨L, hL, hLb, -⟩ := h _ (.inl (.inl (.inl (.inl (.inl ⟨m, by rwa [hns], rfl⟩)))))
        obtain ⟨L', hL', hLb', hLh⟩ := h (some (virtualLine (licensed d m volume mx) ⟨[m], [1], true, volume, mx, 0⟩)) (.inl (.inl (.inr ⟨_, by simp [licensed], rfl⟩)))
        cases hL'
        exact key.2 ⟨⟨L, hL, hLb⟩, hLb', hLh⟩
      · rw [← other m he]
        exact h _ (.inl (.inl (.inl (.inl (.inl ⟨m, by rwa [hns], rfl⟩)))))
    · exact h o (.inl (.inl (.inl (.inl (.inr ho)))))
    · exact h o (.inl (.inl (.inl (.inr ho))))
    · exact h _ (.inl (.inl (.inr ⟨v, List.mem_append_left _ hv, rfl⟩)))
    · exact h o (.inl (.inr ho))
    · exact h o (.inr ho)
  · intro h o ho
    unfold AllHold routeLines at h
    unfold routeLines at ho
    simp only [List.mem_append, List.mem_map, List.mem_flatMap] at ho h
    obtain ⟨h1, h2, h3⟩ := key.1 (h (nodeLine d n) (.inl (.inl (.inl (.inl (.inl ⟨n, hmem, rfl⟩))))))
    rcases ho with ((((⟨m, hm', rfl⟩ | ho) | ho) | ⟨v, hv, rfl⟩) | ho) | ho
    · by_cases he : m = n
      · subst he
        rw [self] at h1 ⊢
        exact unlimit hx (fun _ _ => term_nonneg _) h1
      · rw [other m he]
        exact h _ (.inl (.inl (.inl (.inl (.inl ⟨m, by rwa [← hns], rfl⟩)))))
    · exact h o (.inl (.inl (.inl (.inl (.inr ho)))))
    · exact h o (.inl (.inl (.inl (.inr ho))))
    · rcases List.mem_append.1 hv with hv | hv
      · exact h _ (.inl (.inl (.inr ⟨v, hv, rfl⟩)))
      · cases List.mem_singleton.1 hv
        exact ⟨_, rfl, h2, h3⟩
    · exact h o (.inl (.inr ho))
    · exact h o (.inr ho)

/-- **C123 (licence, edge solver).** -/
theorem C123_edge_licensed (d : Data) (g : Graph) (n : Nat) (hn : n ∈ d.nodes) (hk : d.kind n ≠ .other) (volume mx : Rat)
    (hd : 0 < d.days) (h0 : 0 ≤ volume) (hm : volume ≤ mx) (hpos : 0 < mx) (hbig : mx / d.days ≤ dblMax - 1) (hmin : d.minFlow n = .fin 0) (hmax : d.maxFlow n = .fin (volume / d.days)) (y : List Rat) :
    (EdgeFeasible (licensed d n volume mx) g y ↔ EdgeFeasible d g y) ∧ edgeObjective (licensed d n volume mx) g y = edgeObjective d g y ∧
      ∀ m, edgeNodeFlow (licensed d n volume mx) g y m = edgeNodeFlow d g y m := by
  refine ⟨?_, rfl, fun _ => rfl⟩
  have hns : (licensed d n volume mx).nonStorages = d.nonStorages := rfl
  have hmem : n ∈ d.nonStorages := mem_nonStorages.2 ⟨hn, hk⟩
  have self := nodeE_self (d := d) (g := g) (n := n) d.aggs (d.virtuals ++ [⟨[n], [1], true, volume, mx, 0⟩])
  have other := fun m (h : m ≠ n) => nodeE_other (d := d) (g := g) h d.aggs (d.virtuals ++ [⟨[n], [1], true, volume, mx, 0⟩])
  change nodeLineE (licensed d n volume mx) g n = _ at self
  change ∀ m, m ≠ n → nodeLineE (licensed d n volume mx) g m = _ at other
  rw [edgeFeasible_iff, edgeFeasible_iff]
  refine and_congr Iff.rfl (and_congr Iff.rfl (and_congr_right fun hx => ?_))
  have key := licence_line (bad := fun e => (d.kind n == .input && enters g n e) || (d.kind n == .output && leaves g n e)) (m := fun e => one (meets d g n e)) (w := fun e => term (meets d g n e) 1)
    (l := g.edges) hx (fun _ _ => term_nonneg _)
    hd h0 hm hpos hbig (m' := fun e => one (!decide (edgeWeights d g ⟨[n], [1], true, volume, mx, 0⟩ e = []))) (w' := fun e => -(edgeWeights d g ⟨[n], [1], true, volume, mx, 0⟩ e).sum)
    (fun e _ => by rw [weights_one]; cases meets d g n e <;> simp [one])
    (fun e _ => by rw [weights_one]; cases meets d g n e <;> simp [term])
  have hnl : nodeLineE d g n = limitLine (fun e => (d.kind n == .input && enters g n e) || (d.kind n == .output && leaves g n e)) (fun e => one (meets d g n e)) (fun e => term (meets d g n e) 1)
      (.fin 0) (.fin (volume / d.days)) := by
    unfold nodeLineE; rw [hmin, hmax]
  rw [← hnl, ← self] at key
  constructor
  · intro h o ho
    unfold AllHold edgeLines at h
    unfold edgeLines at ho
    simp only [List.mem_append, List.mem_map, List.mem_flatMap] at ho h
    rcases ho with (((((⟨m, hm', rfl⟩ | ho) | ho) | ho) | ⟨v, hv, rfl⟩) | ho) | ho
    · by_cases he : m = n
      · subst he
        obtain ⟨L, hL, hLb, -⟩ := h _ (.inl (.inl (.inl (.inl (.inl (.inl ⟨m, by rwa [hns], rfl⟩))))))
        obtain ⟨L', hL', hLb', hLh⟩ := h (some (virtualLineE (licensed d m volume mx) g ⟨[m], [1], true, volume, mx, 0⟩)) (.inl (.inl (.inr ⟨_, by simp [licensed], rfl⟩)))
        cases hL'
        exact key.2 ⟨⟨L, hL, hLb⟩, hLb', hLh⟩
      · rw [← other m he]
        exact h _ (.inl (.inl (.inl (.inl (.inl (.inl ⟨m, by rwa [hns], rfl⟩))))))
    · exact h o (.inl (.inl (.inl (.inl (.inl (.inr ho))))))
    · exact h o (.inl (.inl (.inl (.inl (.inr ho)))))
    · exact h o (.inl (.inl (.inl (.inr ho))))
    · exact h _ (.inl (.inl (.inr ⟨v, List.mem_append_left _ hv, rfl⟩)))
    · exact h o (.inl (.inr ho))
    · exact h o (.inr ho)
  · intro h o ho
    unfold AllHold edgeLines at h
    unfold edgeLines at ho
    simp only [List.mem_append, List.mem_map, List.mem_flatMap] at ho h
    obtain ⟨h1, h2, h3⟩ := key.1 (h (nodeLineE d g n) (.inl (.inl (.inl (.inl (.inl (.inl ⟨n, hmem, rfl⟩)))))))
    rcases ho with (((((⟨m, hm', rfl⟩ | ho) | ho) | ho) | ⟨v, hv, rfl⟩) | ho) | ho
    · by_cases he : m = n
      · subst he
        rw [self] at h1 ⊢
        exact unlimit hx (fun _ _ => term_nonneg _) h1
      · rw [other m he]
        exact h _ (.inl (.inl (.inl (.inl (.inl (.inl ⟨m, by rwa [← hns], rfl⟩))))))
    · exact h o (.inl (.inl (.inl (.inl (.inl (.inr ho))))))
    · exact h o (.inl (.inl (.inl (.inl (.inr ho)))))
    · exact h o (.inl (.inl (.inl (.inr ho))))
    · rcases List.mem_append.1 hv with hv | hv
      · exact h _ (.inl (.inl (.inr ⟨v, hv, rfl⟩)))
      · cases List.mem_singleton.1 hv
        exact ⟨_, rfl, h2, h3⟩
    · exact h o (.inl (.inr ho))
    · exact h o (.inr ho)

/-! ## A node that is closed -/

private theorem closed_admits {d : Data} {n : Nat} (h : Closed d n) : ∃ r, flowRow true (d.minFlow n) (d.maxFlow n) = .stored r ∧ ∀ x, 0 ≤ x → r.Admits x → x = 0 := by
  have hE : ∀ q, F.effective (.fin q) = .fin (rnd q) := by intro q; simp only [F.effective, rnd]; split <;> rfl
  obtain ⟨⟨ha, hb, hlo, hhi⟩, q, hq, hlt⟩ := h
  obtain ⟨r, hr, hadm⟩ := admits_iff ha hb
  refine ⟨r, hr, fun x hx h => ?_⟩
  rw [hq] at hhi hadm
  have h0 : 0 ≤ q := hhi
  have hz : rnd q = 0 := by unfold rnd; rw [if_pos (by rw [abs_of_nonneg h0]; exact hlt)]
  rw [hadm x, hE, hz] at h
  rcases h with ⟨hc, hxa⟩ | ⟨-, -, h2⟩
  · rcases ha with ha | ⟨p, ha, -⟩
    · rw [ha] at hc; simp [F.effective, Close] at hc
    · rw [ha] at hlo hc hxa
      rw [hE] at hc hxa
      have := (rnd_apart (p := p) (q := 0) hlo (le_refl 0) (by
        have : rnd 0 = 0 := by unfold rnd; split <;> rfl
        rw [this]; exact hc)).1
      rw [this] at hxa
      injection hxa with e
      exact e.symm
  · exact le_antisymm h2 hx

private theorem zero_terms {α : Type} {l : List α} {x : List Rat} {w : α → Rat} (hx : ∀ v ∈ x, 0 ≤ v) (hw : ∀ a ∈ l, 0 ≤ w a) (h : S l x w = 0) : ∀ p ∈ l.zip x, 0 < w p.1 → p.2 = 0 := by
  rw [S_zip] at h
  have hz : ∀ p ∈ l.zip x, 0 ≤ w p.1 * p.2 := fun p hp => mul_nonneg (hw _ (List.of_mem_zip hp).1) (hx _ (List.of_mem_zip hp).2)
  generalize l.zip x = zs at h hz
  clear hx hw
  induction zs with
  | nil => intro p hp; cases hp
  | cons q zs ih =>
    rw [List.map_cons, List.sum_cons] at h
    have h1 := hz q List.mem_cons_self
    have h2 : 0 ≤ (zs.map fun p => w p.1 * p.2).sum := List.sum_nonneg fun v hv => by
      obtain ⟨p, hp, rfl⟩ := List.mem_map.1 hv
      exact hz p (List.mem_cons_of_mem _ hp)
    intro p hp hpos
    rcases List.mem_cons.1 hp with rfl | hp
    · have : w p.1 * p.2 = 0 := by linarith
      exact (mul_eq_zero.1 this).resolve_left (ne_of_gt hpos)
    · exact ih (by linarith) (fun p hp => hz p (List.mem_cons_of_mem _ hp)) p hp hpos

private theorem closed_line {α : Type} {bad : α → Bool} {m : α → Nat} {p : α → Bool} {d : Data} {n : Nat} (h : Closed d n) {l : List α} {x : List Rat} (hx : ∀ v ∈ x, 0 ≤ v)
    (hL : ∃ L, limitLine bad m (fun a => term (p a) 1) (d.minFlow n) (d.maxFlow n) = some L ∧ L.Built l ∧ L.Holds l x) : S l x (fun a => term (p a) 1) = 0 := by
  obtain ⟨L, hL, -, hh⟩ := hL
  obtain ⟨r, hr, hadm⟩ := closed_admits h
  unfold limitLine at hL
  rw [hr] at hL
  simp only [Option.some.injEq] at hL
  subst hL
  exact hadm _ (S_nonneg hx fun a _ => term_nonneg _) hh

/-- **C123 (closed node, route solver).** Closing nodes means the same as taking them out of the model: nothing is on the routes through them, and what is left is feasible in the model without them, at the same cost and with the same flows. -/
theorem C123_closed_partial (d : Data) (new : List Nat) (routes : List (List Nat)) (hnew : ∀ n ∈ new, Closed d n ∧ d.kind n ≠ .other ∧ NoPassThrough d routes n)
    (hb : ∃ rows, routeRows d (routes.filter (avoids new)) = .ok rows) (z : List Rat) (hz : RouteFeasible { d with nodes := d.nodes ++ new } routes z) :
    (∀ p ∈ routes.zip z, avoids new p.1 = false → p.2 = 0) ∧ RouteFeasible d (routes.filter (avoids new)) (pick (avoids new) routes z) ∧
      routeObjective d (routes.filter (avoids new)) (pick (avoids new) routes z) = routeObjective { d with nodes := d.nodes ++ new } routes z ∧
      ∀ n, routeNodeFlow d (routes.filter (avoids new)) (pick (avoids new) routes z) n = routeNodeFlow { d with nodes := d.nodes ++ new } routes z n := by
  rw [routeRows_ok] at hb
  rw [routeFeasible_iff] at hz
  obtain ⟨hbase, hbuilt⟩ := hb
  obtain ⟨-, hl, hz0, hrows⟩ := hz
  have hzero : ∀ p ∈ routes.zip z, avoids new p.1 = false → p.2 = 0 := by
    intro p hp ha
    unfold avoids at ha
    rw [List.all_eq_false] at ha
    obtain ⟨n, hnr, hn⟩ := ha
    have hn : n ∈ new := by simpa using hn
    obtain ⟨hc, hk, hp'⟩ := hnew n hn
    have hr := (List.of_mem_zip hp).1
    have := hrows (nodeLine d n) (by
      unfold routeLines
      simp only [List.mem_append, List.mem_map, List.mem_flatMap]
      exact .inl (.inl (.inl (.inl (.inl ⟨n, mem_nonStorages.2 ⟨List.mem_append_right _ hn, hk⟩, rfl⟩)))))
    have hs := closed_line hc hz0 this
    refine zero_terms hz0 (fun _ _ => term_nonneg _) hs p hp ?_
    rw [passes_contains hk hp' hr, List.contains_iff_mem.2 hnr]
    simp [term]
  have h0 : ∀ v ∈ pick (fun r => !avoids new r) routes z, v = 0 := by
    intro v hv
    unfold pick at hv
    obtain ⟨p, hp, rfl⟩ := List.mem_map.1 hv
    obtain ⟨hp, ha⟩ := List.mem_filter.1 hp
    exact hzero p hp (by simpa using ha)
  have hsum : ∀ f : List Nat → Rat, S routes z f = S (routes.filter (avoids new)) (pick (avoids new) routes z) f := fun f => S_zero_off _ routes z hl h0 f f fun _ _ _ => rfl
  refine ⟨hzero, ?_, by rw [routeObjective_S, routeObjective_S, hsum]; rfl, fun n => by rw [routeNodeFlow_eq_S, routeNodeFlow_eq_S, hsum]; rfl⟩
  rw [routeFeasible_iff]
  refine ⟨hbase, pick_length _ _ _ hl, fun v hv => ?_, fun o ho => ?_⟩
  · unfold pick at hv
    obtain ⟨p, hp, rfl⟩ := List.mem_map.1 hv
    exact hz0 _ (List.of_mem_zip (List.mem_filter.1 hp).1).2
  · obtain ⟨L, hL, hLb⟩ := hbuilt o ho
    refine ⟨L, hL, hLb, ?_⟩
    obtain ⟨L', hL', -, hh⟩ := hrows o (by
      unfold routeLines at ho ⊢
      simp only [List.mem_append, List.mem_map, List.mem_flatMap] at ho ⊢
      rcases ho with ((((⟨m, hm, rfl⟩ | ho) | ho) | ho) | ho) | ho
      · exact .inl (.inl (.inl (.inl (.inl ⟨m, mem_nonStorages.2 ⟨List.mem_append_left _ (mem_nonStorages.1 hm).1, (mem_nonStorages.1 hm).2⟩, rfl⟩))))
      · exact .inl (.inl (.inl (.inl (.inr ho))))
      · exact .inl (.inl (.inl (.inr ho)))
      · exact .inl (.inl (.inr ho))
      · exact .inl (.inr ho)
      · exact .inr ho)
    rw [hL] at hL'
    cases hL'
    unfold Line.Holds at hh ⊢
    rwa [← hsum]

private theorem avoids_off {new : List Nat} {r : List Nat} (h : avoids new r = true) : ∀ n ∈ new, n ∉ r := by
  intro n hn hr
  unfold avoids at h
  have := List.all_eq_true.1 h n hr
  simp [hn] at this

/-- **C123 (closed node, least cost).** -/
theorem C123_closed_optimum_partial (d : Data) (new : List Nat) (routes : List (List Nat)) (hnew : ∀ n ∈ new, Closed d n ∧ d.kind n ≠ .other ∧ NoPassThrough d routes n)
    (z x : List Rat) (hz : Optimal { d with nodes := d.nodes ++ new } routes z) (hx : Optimal d (routes.filter (avoids new)) x) :
    routeObjective { d with nodes := d.nodes ++ new } routes z = routeObjective d (routes.filter (avoids new)) x := by
  obtain ⟨rows, hr, -⟩ := hz.1
  obtain ⟨rows', hr', -⟩ := hx.1
  obtain ⟨-, h1, h2, -⟩ := C123_closed_partial d new routes hnew ⟨rows', hr'⟩ z hz.1
  obtain ⟨z', h3, h4, -⟩ := C119_added d new routes (avoids new) ⟨rows, hr⟩ (fun n hn => (hnew n hn).1.1) (fun r _ h => avoids_off h) x hx.1
  exact le_antisymm (h4 ▸ hz.2 z' h3) (h2 ▸ hx.2 _ h1)

/-- **C123 (closed node, edge solver).** For solutions that leave the edges between domains at zero (which the solutions of the solver do, C22_idle). -/
theorem C123_edge_closed (d : Data) (new : List Nat) (g : Graph) (hnew : ∀ n ∈ new, Closed d n ∧ d.kind n ≠ .other)
    (hb : ∃ rows, edgeRows d ⟨g.edges.filter (avoidsE new), g.domain⟩ = .ok rows) (z : List Rat) (hz : EdgeFeasible { d with nodes := d.nodes ++ new } g z) (hi : Idle g z) :
    (∀ p ∈ g.edges.zip z, avoidsE new p.1 = false → p.2 = 0) ∧ EdgeFeasible d ⟨g.edges.filter (avoidsE new), g.domain⟩ (pick (avoidsE new) g.edges z) ∧
      edgeObjective d ⟨g.edges.filter (avoidsE new), g.domain⟩ (pick (avoidsE new) g.edges z) = edgeObjective { d with nodes := d.nodes ++ new } g z ∧
      ∀ n, edgeNodeFlow d ⟨g.edges.filter (avoidsE new), g.domain⟩ (pick (avoidsE new) g.edges z) n = edgeNodeFlow { d with nodes := d.nodes ++ new } g z n := by
  rw [edgeRows_ok] at hb
  rw [edgeFeasible_iff] at hz
  obtain ⟨hbase, hbuilt⟩ := hb
  obtain ⟨-, hl, hz0, hrows⟩ := hz
  have hends : ∀ n ∈ new, ∀ p ∈ g.edges.zip z, (enters g n p.1 = true ∨ leaves g n p.1 = true) → p.2 = 0 := by
    intro n hn p hp he
    obtain ⟨hc, hk⟩ := hnew n hn
    have hline := hrows (nodeLineE d g n) (by
      unfold edgeLines
      simp only [List.mem_append, List.mem_map, List.mem_flatMap]
      exact .inl (.inl (.inl (.inl (.inl (.inl ⟨n, mem_nonStorages.2 ⟨List.mem_append_right _ hn, hk⟩, rfl⟩))))))
    have hs := closed_line hc hz0 hline
    have hm : meets d g n p.1 = true → p.2 = 0 := fun h => zero_terms hz0 (fun _ _ => term_nonneg _) hs p hp (by rw [h]; simp [term])
    have hbad : ((d.kind n == .input && enters g n p.1) || (d.kind n == .output && leaves g n p.1)) = false := by
      obtain ⟨L, hL, ⟨hb, -⟩, -⟩ := hline
      unfold nodeLineE limitLine at hL
      cases hf : flowRow true (d.minFlow n) (d.maxFlow n) with
      | stored r =>
        rw [hf] at hL
        simp only [Option.some.injEq] at hL
        subst hL
        exact hb p.1 (List.of_mem_zip hp).1
      | glpkError => rw [hf] at hL; cases hL
      | storedNan => rw [hf] at hL; cases hL
    cases hkn : d.kind n with
    | input =>
      rw [hkn] at hbad
      unfold meets at hm
      rw [hkn] at hm
      rcases he with he | he
      · rw [he] at hbad; simp at hbad
      · exact hm (by simpa using he)
    | output =>
      rw [hkn] at hbad
      unfold meets at hm
      rw [hkn] at hm
      rcases he with he | he
      · exact hm (by simpa using he)
      · rw [he] at hbad; simp at hbad
    | link =>
      have hS : S g.edges z (fun e => term (leaves g n e) 1) = 0 := by
        rw [← hs]
        exact S_congr fun e _ => by unfold meets; rw [hkn]; simp
      obtain ⟨L, hL, -, hh⟩ := hrows (some (balanceLine g n)) (by
        unfold edgeLines
        simp only [List.mem_append, List.mem_map, List.mem_flatMap]
        exact .inl (.inl (.inl (.inl (.inr ⟨n, List.mem_filter.2 ⟨List.mem_append_right _ hn, by simp [hkn]⟩, rfl⟩)))))
      cases hL
      have hin : S g.edges z (fun e => term (enters g n e) 1) = 0 := by
        have hh : S g.edges z (fun e => term (enters g n e) 1 + term (leaves g n e) (-1)) = 0 := hh
        rw [S_add] at hh
        have : S g.edges z (fun e => term (leaves g n e) (-1)) = -S g.edges z (fun e => term (leaves g n e) 1) := by
          rw [← S_neg]
          exact S_congr fun e _ => by cases leaves g n e <;> simp [term]
        rw [this, hS] at hh
        linarith
      rcases he with he | he
      · exact zero_terms hz0 (fun _ _ => term_nonneg _) hin p hp (by rw [he]; simp [term])
      · exact zero_terms hz0 (fun _ _ => term_nonneg _) hS p hp (by rw [he]; simp [term])
    | other => exact absurd hkn hk
  have hzero : ∀ p ∈ g.edges.zip z, avoidsE new p.1 = false → p.2 = 0 := by
    intro p hp ha
    by_cases hd : g.domain p.1.1 = g.domain p.1.2
    swap
    · obtain ⟨c, hc, rfl⟩ := List.mem_iff_getElem.1 hp
      rw [List.length_zip] at hc
      have hce : c < g.edges.length := lt_of_lt_of_le hc (min_le_left _ _)
      have hcz : c < z.length := lt_of_lt_of_le hc (min_le_right _ _)
      rw [List.getElem_zip] at hd ⊢
      have := hi c hce hd
      rwa [List.getD_eq_getElem z 0 hcz] at this
    unfold avoidsE at ha
    rw [Bool.and_eq_false_iff] at ha
    rcases ha with ha | ha
    · have hn : p.1.1 ∈ new := by simpa using ha
      exact hends _ hn p hp (.inr (by unfold leaves; simp [hd]))
    · have hn : p.1.2 ∈ new := by simpa using ha
      exact hends _ hn p hp (.inl (by unfold enters; simp [hd]))
  have h0 : ∀ v ∈ pick (fun r => !avoidsE new r) g.edges z, v = 0 := by
    intro v hv
    unfold pick at hv
    obtain ⟨p, hp, rfl⟩ := List.mem_map.1 hv
    obtain ⟨hp, ha⟩ := List.mem_filter.1 hp
    exact hzero p hp (by simpa using ha)
  have hsum : ∀ f : Nat × Nat → Rat, S g.edges z f = S (g.edges.filter (avoidsE new)) (pick (avoidsE new) g.edges z) f := fun f => S_zero_off _ g.edges z hl h0 f f fun _ _ _ => rfl
  refine ⟨hzero, ?_, ?_, fun n => by rw [edgeNodeFlow_S, edgeNodeFlow_S, hsum]; rfl⟩
  · rw [edgeFeasible_iff]
    refine ⟨hbase, pick_length _ _ _ hl, fun v hv => ?_, fun o ho => ?_⟩
    · unfold pick at hv
      obtain ⟨p, hp, rfl⟩ := List.mem_map.1 hv
      exact hz0 _ (List.of_mem_zip (List.mem_filter.1 hp).1).2
    · obtain ⟨L, hL, hLb⟩ := hbuilt o ho
      refine ⟨L, hL, hLb, ?_⟩
      have hsame : edgeLines d ⟨g.edges.filter (avoidsE new), g.domain⟩ = edgeLines d g := rfl
      rw [hsame] at ho
      obtain ⟨L', hL', -, hh⟩ := hrows o (by
        unfold edgeLines at ho ⊢
        simp only [List.mem_append, List.mem_map, List.mem_flatMap] at ho ⊢
        rcases ho with (((((⟨m, hm, rfl⟩ | ho) | ⟨m, hm, rfl⟩) | ho) | ho) | ho) | ho
        · exact .inl (.inl (.inl (.inl (.inl (.inl ⟨m, mem_nonStorages.2 ⟨List.mem_append_left _ (mem_nonStorages.1 hm).1, (mem_nonStorages.1 hm).2⟩, rfl⟩)))))
        · exact .inl (.inl (.inl (.inl (.inl (.inr ho)))))
        · exact .inl (.inl (.inl (.inl (.inr ⟨m, List.mem_filter.2 ⟨List.mem_append_left _ (List.mem_filter.1 hm).1, (List.mem_filter.1 hm).2⟩, rfl⟩))))
        · exact .inl (.inl (.inl (.inr ho)))
        · exact .inl (.inl (.inr ho))
        · exact .inl (.inr ho)
        · exact .inr ho)
      rw [hL] at hL'
      cases hL'
      unfold Line.Holds at hh ⊢
      rwa [← hsum]
  · rw [edgeObjective_S, edgeObjective_S, S_zero_off (avoidsE new) g.edges z hl h0 _ (eCost d ⟨g.edges.filter (avoidsE new), g.domain⟩) fun e he ho => ?_]
    unfold eCost
    simp only [List.map_append, List.sum_append]
    rw [sum_map_zero (l := new) fun n hn => by
      unfold avoidsE at ho
      have h1 : e.1 ≠ n := by rintro rfl; simp [hn] at ho
      have h2 : e.2 ≠ n := by rintro rfl; simp [hn] at ho
      rw [enters_false h2, leaves_false h1]
      simp [one], add_zero]
    rfl

/-- **C123 (closed node, least cost, edge solver).** -/
theorem C123_edge_closed_optimum (d : Data) (new : List Nat) (g : Graph)
    (hnew : ∀ n ∈ new, Closed d n ∧ d.kind n ≠ .other)
    (z y : List Rat) (hz : EdgeOptimal { d with nodes := d.nodes ++ new } g z) (hi : Idle g z) (hy : EdgeOptimal d ⟨g.edges.filter (avoidsE new), g.domain⟩ y) :
    edgeObjective { d with nodes := d.nodes ++ new } g z = edgeObjective d ⟨g.edges.filter (avoidsE new), g.domain⟩ y := by
  obtain ⟨rows, hr, -⟩ := hz.1
  obtain ⟨rows', hr', -⟩ := hy.1
  obtain ⟨-, h1, h2, -⟩ := C123_edge_closed d new g hnew ⟨rows', hr'⟩ z hz.1 hi
  obtain ⟨z', h3, h4, -⟩ := C119_edge_added d new g (avoidsE new) ⟨rows, hr⟩ (fun n hn => (hnew n hn).1.1) (fun e _ h n hn => by
    unfold avoidsE at h
    constructor
    · rintro rfl; simp [hn] at h
    · rintro rfl; simp [hn] at h) y hy.1
  exact le_antisymm (h4 ▸ hz.2 z' h3) (h2 ▸ hy.2 _ h1)

/-! ## What goes wrong -/

/-- Two inputs one after the other (allowed when connecting nodes) and an output; the second input has a limit. -/
def inputMiddle (limit : Rat) : Data where
  kind := fun n => match n with | 2 => .output | _ => .input
  nodes := [0, 1, 2]
  minFlow := fun _ => .fin 0
  maxFlow := fun n => if n = 1 then .fin limit else .posInf
  cost := fun _ => 0
  storages := []
  virtuals := []
  aggs := []
  cross := []
  days := 1

/-- **C123 fails for an input in the middle of a route (route solver).** Its own upper limit of 3 does not count what passes through it, and 5 may pass; given to an aggregated node or to a licence the same limit counts it,
and 5 may not pass. -/
theorem C123_grouped_fails : RouteFeasible (inputMiddle 3) [[0, 1, 2], [1, 2]] [5, 0] ∧ ¬RouteFeasible (grouped (inputMiddle 3) 1) [[0, 1, 2], [1, 2]] [5, 0] ∧
    ¬RouteFeasible (licensed (inputMiddle 3) 1 3 10) [[0, 1, 2], [1, 2]] [5, 0] := by
  decide +kernel

/-- **C123 fails for an input in the middle of a route (route solver).** Water passes through it although it is closed. -/
theorem C123_closed_fails : RouteFeasible (inputMiddle 0) [[0, 1, 2], [1, 2]] [5, 0] ∧ avoids [1] [0, 1, 2] = false := by
  decide +kernel

/-! ## Examples -/

/-- A supply with a limit of 3, a link and a demand, and a second supply that is closed. -/
def closedSupply : Data where
  kind := fun n => match n with | 1 => .link | 2 => .output | _ => .input
  nodes := [0, 1, 2]
  minFlow := fun _ => .fin 0
  maxFlow := fun n => match n with | 0 => .fin 3 | 3 => .fin 0 | _ => .fin 10
  cost := fun n => if n = 2 then -10 else 1
  storages := []
  virtuals := []
  aggs := []
  cross := []
  days := 2

private theorem ten_lt : (10 : Rat) < dblMax - 1 := by
  unfold dblMax
  exact_mod_cast (by decide +kernel : (10 : Int) < 2 ^ 1024 - 2 ^ 971 - 1)

example : WellRouted closedSupply [[0, 1, 2]] ∧ NoPassThrough closedSupply [[0, 1, 2]] 0 ∧ NoPassThrough closedSupply [[0, 1, 2]] 1 ∧ closedSupply.minFlow 0 = .fin 0 ∧
    closedSupply.maxFlow 0 = .fin (6 / closedSupply.days) ∧ (20 : Rat) / closedSupply.days ≤ dblMax - 1 ∧ RouteFeasible closedSupply [[0, 1, 2]] [3] ∧ ¬RouteFeasible closedSupply [[0, 1, 2]] [4] ∧
    RouteFeasible (licensed closedSupply 0 6 20) [[0, 1, 2]] [3] ∧ ¬RouteFeasible (licensed closedSupply 0 6 20) [[0, 1, 2]] [4] ∧
    EdgeFeasible (grouped closedSupply 1) ⟨[(0, 1), (1, 2)], fun _ => 0⟩ [3, 3] := by
  refine ⟨?_, ?_, ?_, rfl, ?_, ?_, by decide +kernel, by decide +kernel, by decide +kernel, by decide +kernel, by decide +kernel⟩
  · intro r hr
    simp only [List.mem_singleton] at hr
    subst hr
    exact ⟨by decide, ⟨0, rfl, rfl⟩, ⟨2, rfl, rfl⟩, by decide +kernel⟩
  · unfold NoPassThrough; decide +kernel
  · unfold NoPassThrough; decide +kernel
  · simp only [closedSupply]; norm_num
  · have := ten_lt
    simp only [closedSupply]
    norm_num
    linarith

example : (Closed closedSupply 3 ∧ closedSupply.kind 3 ≠ .other ∧ NoPassThrough closedSupply [[0, 1, 2], [3, 1, 2]] 3) ∧ (∃ rows, routeRows closedSupply ([[0, 1, 2], [3, 1, 2]].filter (avoids [3])) = .ok rows) ∧
    RouteFeasible { closedSupply with nodes := closedSupply.nodes ++ [3] } [[0, 1, 2], [3, 1, 2]] [3, 0] ∧
    EdgeFeasible { closedSupply with nodes := closedSupply.nodes ++ [3] } ⟨[(0, 1), (1, 2), (3, 1)], fun _ => 0⟩ [3, 3, 0] ∧ Idle ⟨[(0, 1), (1, 2), (3, 1)], fun _ => 0⟩ [3, 3, 0] := by
  have := ten_lt
  have f : RouteFeasible closedSupply ([[0, 1, 2], [3, 1, 2]].filter (avoids [3])) [3] := by decide +kernel
  obtain ⟨rows, hr, -⟩ := f
  refine ⟨⟨⟨⟨.inr ⟨0, rfl, ?_⟩, .inr ⟨0, rfl, ?_⟩, by simp [LimitLe, closedSupply], by simp [LimitLe, closedSupply]⟩, 0, rfl, e8_pos⟩, by decide, by unfold NoPassThrough; decide +kernel⟩, ⟨rows, hr⟩, by decide +kernel, by decide +kernel, ?_⟩
  · constructor <;> linarith
  · constructor <;> linarith
  · intro c hc h
    exact absurd rfl h

end Verif.Lp

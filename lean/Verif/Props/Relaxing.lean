import Verif.Props.Parts
import Verif.Spec.Relaxing
import Verif.Proof.Limits
import Mathlib.Data.List.Forall2
/-!
# C119: wider limits and further supplies do no harm
-/

namespace Verif.Lp

open Verif Verif.Bounds Verif.Composite

/-! ## Limits -/

private theorem atLeast_mono {a a' : F} (h : LimitLe a' a) {x : Rat} (hx : a.effective.AtLeast x) : a'.effective.AtLeast x := by
  have hE : ∀ q, F.effective (.fin q) = .fin (rnd q) := by intro q; simp only [F.effective, rnd]; split <;> rfl
  cases a with
  | nan => simp [F.effective, F.AtLeast] at hx
  | posInf => simp [F.effective, F.AtLeast] at hx
  | negInf =>
    cases a' with
    | negInf => exact hx
    | _ => simp [LimitLe] at h
  | fin p =>
    cases a' with
    | negInf => simp [F.effective, F.AtLeast]
    | posInf => simp [LimitLe] at h
    | nan => simp [LimitLe] at h
    | fin p' =>
      rw [hE] at hx ⊢
      exact le_trans (rnd_mono h) hx

private theorem atMost_mono {b b' : F} (h : LimitLe b b') {x : Rat} (hx : b.effective.AtMost x) : b'.effective.AtMost x := by
  have hE : ∀ q, F.effective (.fin q) = .fin (rnd q) := by intro q; simp only [F.effective, rnd]; split <;> rfl
  cases b with
  | nan => simp [F.effective, F.AtMost] at hx
  | negInf => simp [F.effective, F.AtMost] at hx
  | posInf =>
    cases b' with
    | posInf => exact hx
    | _ => simp [LimitLe] at h
  | fin p =>
    cases b' with
    | posInf => simp [F.effective, F.AtMost]
    | negInf => simp [LimitLe] at h
    | nan => simp [LimitLe] at h
    | fin p' =>
      rw [hE] at hx ⊢
      exact le_trans hx (rnd_mono h)

private theorem close_between {a b b' : F} {x : Rat} (ha : a.AtLeast x) (hb : b.AtMost x) (hb' : b'.AtMost x) (hle : ∀ q q', b = .fin q → b' = .fin q' → q ≤ q')
    (hinf : b' ≠ .posInf → b ≠ .posInf) (hc : Close a b') : Close a b := by
  cases a with
  | fin p =>
    cases b' with
    | fin q' =>
      cases b with
      | fin q =>
        simp only [Close, F.AtLeast, F.AtMost] at *
        have := hle q q' rfl rfl
        rw [abs_lt] at hc ⊢
        constructor <;> linarith
      | posInf => exact absurd rfl (hinf (by simp))
      | negInf => simp [F.AtMost] at hb
      | nan => simp [F.AtMost] at hb
    | _ => simp [Close] at hc
  | _ => simp [Close] at hc

/-- Wider limits admit whatever the limits admitted. -/
private theorem wider_admits {a b a' b' : F} (h : Wider a b a' b') {r : Row} (hr : flowRow true a b = .stored r) {x : Rat} (hx : r.Admits x) :
    ∃ r', flowRow true a' b' = .stored r' ∧ r'.Admits x := by
  have hE : ∀ q, F.effective (.fin q) = .fin (rnd q) := by intro q; simp only [F.effective, rnd]; split <;> rfl
  obtain ⟨⟨ha, hb, ha', hb'⟩, hord, hlo, hhi, hap⟩ := h
  obtain ⟨r0, h0, hadm⟩ := admits_iff ha hb
  obtain ⟨r', h', hadm'⟩ := admits_iff ha' hb'
  rw [h0] at hr
  cases hr
  refine ⟨r', h', (hadm' x).2 ?_⟩
  have hx := (hadm x).1 hx
  have hlow : a.effective.AtLeast x ∧ b.effective.AtMost x := by
    rcases hx with ⟨hc, hxa⟩ | ⟨-, h1, h2⟩
    · rcases ha with rfl | ⟨p, rfl, -⟩
      · simp [F.effective, Close] at hc
      · rcases hb with rfl | ⟨q, rfl, -⟩
        · simp [F.effective, Close] at hc
        · rw [hE] at hxa ⊢
          rw [hE]
          cases hxa
          exact ⟨le_refl _, rnd_mono hord⟩
    · exact ⟨h1, h2⟩
  have h1 := atLeast_mono hlo hlow.1
  have h2 := atMost_mono hhi hlow.2
  by_cases hc' : Close a'.effective b'.effective
  · rcases hap with rfl | hap
    · refine .inl ⟨hc', ?_⟩
      rcases hx with ⟨-, hxa⟩ | ⟨hnc, -, -⟩
      · exact hxa
      · refine absurd (close_between hlow.1 hlow.2 h2 ?_ ?_ hc') hnc
        · intro q q' e e'
          rcases hb with rfl | ⟨q0, rfl, -⟩
          · cases e
          · rcases hb' with rfl | ⟨q1, rfl, -⟩
            · cases e'
            · rw [hE] at e e'
              cases e; cases e'
              exact rnd_mono hhi
        · intro hb'i hbi
          rcases hb with rfl | ⟨q0, rfl, -⟩
          · rcases hb' with rfl | ⟨q1, rfl, -⟩
            · exact hb'i rfl
            · simp [LimitLe] at hhi
          · rw [hE] at hbi; cases hbi
    · exact absurd hc' hap
  · exact .inr ⟨hc', h1, h2⟩

private theorem limit_wider {α : Type} {bad : α → Bool} {m : α → Nat} {w : α → Rat} {a b a' b' : F} (h : Wider a b a' b') {l : List α} {x : List Rat}
    (hL : ∃ L, limitLine bad m w a b = some L ∧ L.Built l ∧ L.Holds l x) : ∃ L, limitLine bad m w a' b' = some L ∧ L.Built l ∧ L.Holds l x := by
  obtain ⟨L, hL, hb, hh⟩ := hL
  unfold limitLine at hL
  cases hf : flowRow true a b with
  | stored r =>
    rw [hf] at hL
    simp only [Option.some.injEq] at hL
    subst hL
    obtain ⟨r', h', hx'⟩ := wider_admits h hf hh
    refine ⟨⟨bad, m, w, r'⟩, ?_, hb, hx'⟩
    unfold limitLine
    rw [h']
  | glpkError => rw [hf] at hL; cases hL
  | storedNan => rw [hf] at hL; cases hL

/-! ## Volumes -/

private theorem storage_wider {v mx mn mx' mn' days x : Rat} (hd : 0 < days) (hle : mn ≤ mx) (hmn : mn' ≤ mn) (hmx : mx ≤ mx') (h1 : (mx' - v) / days ≤ dblMax - 1)
    (h2 : (v - mn') / days ≤ dblMax - 1) (hx : (Storage.storageRow v mx mn days).Admits x) : (Storage.storageRow v mx' mn' days).Admits x := by
  have h1' : (mx - v) / days ≤ dblMax - 1 := le_trans ((div_le_div_iff_of_pos_right hd).2 (by linarith)) h1
  have h2' : (v - mn) / days ≤ dblMax - 1 := le_trans ((div_le_div_iff_of_pos_right hd).2 (by linarith)) h2
  rw [storage_admits hd h1' h2'] at hx
  rw [storage_admits hd h1 h2]
  by_cases he' : mx' = mn'
  · rw [if_pos he']
    rw [if_pos (by linarith : mx = mn)] at hx
    exact hx
  · rw [if_neg he']
    have l0 : rnd (-max (v - mn') 0 / days) ≤ 0 := by
      have h0 : rnd 0 = 0 := by unfold rnd; split <;> rfl
      refine le_of_le_of_eq (rnd_mono (q := 0) ?_) h0
      rw [neg_div]
      have : 0 ≤ max (v - mn') 0 / days := div_nonneg (le_max_right _ _) (le_of_lt hd)
      linarith
    have u0 : 0 ≤ rnd (max (mx' - v) 0 / days) := by
      have h0 : rnd 0 = 0 := by unfold rnd; split <;> rfl
      conv_lhs => rw [← h0]
      exact rnd_mono (div_nonneg (le_max_right _ _) (le_of_lt hd))
    by_cases he : mx = mn
    · rw [if_pos he] at hx
      rw [hx]; exact ⟨l0, u0⟩
    · rw [if_neg he] at hx
      refine ⟨le_trans (rnd_mono ?_) hx.1, le_trans hx.2 (rnd_mono ?_)⟩
      · rw [div_le_div_iff_of_pos_right hd, neg_le_neg_iff]
        exact max_le_max (by linarith) (le_refl _)
      · rw [div_le_div_iff_of_pos_right hd]
        exact max_le_max (by linarith) (le_refl _)

private theorem virtual_wider {act : Bool} {v mx mn mx' mn' days x : Rat} (hd : 0 < days) (hle : mn ≤ mx) (hmn : mn' ≤ mn) (hmx : mx ≤ mx') (h1 : (mx' - v) / days ≤ dblMax - 1)
    (h2 : (v - mn') / days ≤ dblMax - 1) (hx : (VirtualStorage.vRow act v mx mn days).Admits x) : (VirtualStorage.vRow act v mx' mn' days).Admits x := by
  unfold VirtualStorage.vRow at *
  by_cases he' : mx' = mn'
  · rw [if_pos he']
    rwa [if_pos (by linarith : mx = mn)] at hx
  · rw [if_neg he']
    by_cases hact : act = false
    · rw [if_pos hact]; trivial
    · rw [if_neg hact]
      by_cases he : mx = mn
      · rw [if_pos he] at hx
        refine storage_wider hd hle hmn hmx h1 h2 ?_
        unfold Storage.storageRow
        rw [if_pos he]; exact hx
      · rw [if_neg he, if_neg hact] at hx
        exact storage_wider hd hle hmn hmx h1 h2 hx

private theorem forall₂_left {α β : Type} {R : α → β → Prop} {l : List α} {l' : List β} (h : List.Forall₂ R l l') : ∀ b ∈ l', ∃ a ∈ l, R a b := by
  induction h with
  | nil => intro b hb; cases hb
  | cons hab _ ih =>
    intro b hb
    rcases List.mem_cons.1 hb with rfl | hb
    · exact ⟨_, List.mem_cons_self, hab⟩
    · obtain ⟨a, ha, hR⟩ := ih b hb
      exact ⟨a, List.mem_cons_of_mem _ ha, hR⟩

/-! ## The theorems -/

/-- **C119 (wider limits, route solver).** What is feasible stays feasible at the same cost and with the same flows when limits of flows or volumes are made wider. Excluded: a lower
limit that is lowered to less than 1e-8 below the upper limit. -/
theorem C119_relaxed_partial (d d' : Data) (h : Relaxed d d') (routes : List (List Nat)) (x : List Rat) (hx : RouteFeasible d routes x) :
    RouteFeasible d' routes x ∧ routeObjective d' routes x = routeObjective d routes x ∧ ∀ n, routeNodeFlow d' routes x n = routeNodeFlow d routes x n := by
  obtain ⟨hk, hn, hco, hcr, ⟨hd, hpos⟩, hlim, hst, hvi, hag⟩ := h
  refine ⟨?_, by rw [routeObjective_S, routeObjective_S]; unfold routeCost; rw [hk, hco], fun n => by rw [routeNodeFlow_eq_S, routeNodeFlow_eq_S]; unfold nodeCoef; rw [hk]⟩
  rw [routeFeasible_iff] at hx ⊢
  obtain ⟨⟨h1, h2, h3⟩, hl, hx0, hrows⟩ := hx
  have hns : d'.nonStorages = d.nonStorages := by unfold Data.nonStorages; rw [hn, hk]
  refine ⟨⟨by rwa [hn], h2, by rwa [hns]⟩, hl, hx0, fun o ho => ?_⟩
  unfold routeLines at ho hrows
  simp only [List.mem_append, List.mem_map, List.mem_flatMap] at ho
  have get : ∀ o, o ∈ (d.nonStorages.map (nodeLine d) ++ d.cross.map (crossLine d) ++ d.storages.map (fun s => some (storageLine d s)) ++ d.virtuals.map (fun v => some (virtualLine d v)) ++
    d.aggs.flatMap factorLines ++ d.aggs.map aggLine) → ∃ L, o = some L ∧ L.Built routes ∧ L.Holds routes x := hrows
  simp only [List.mem_append, List.mem_map, List.mem_flatMap] at get
  rcases ho with ((((⟨n, hnm, rfl⟩ | ⟨c, hc, rfl⟩) | ⟨s', hs', rfl⟩) | ⟨v', hv', rfl⟩) | ⟨a', ha', ho⟩) | ⟨a', ha', rfl⟩
  · rw [hns] at hnm
    have := get _ (.inl (.inl (.inl (.inl (.inl ⟨n, hnm, rfl⟩)))))
    unfold nodeLine at this ⊢
    rw [hk]
    exact limit_wider (hlim n (mem_nonStorages.1 hnm).1 (mem_nonStorages.1 hnm).2) this
  · rw [hcr] at hc
    have := get _ (.inl (.inl (.inl (.inl (.inr ⟨c, hc, rfl⟩)))))
    unfold crossLine at this ⊢
    rwa [hk]
  · obtain ⟨s, hs, ⟨e1, e2, e3⟩, ⟨b1, b2, b3⟩, o1, o2⟩ := forall₂_left hst s' hs'
    obtain ⟨L, hL, hb, hh⟩ := get _ (.inl (.inl (.inl (.inr ⟨s, hs, rfl⟩))))
    cases hL
    refine ⟨_, rfl, ?_, ?_⟩
    · unfold Line.Built storageLine at *
      simp only [e1, e2] at *
      exact hb
    · unfold Line.Holds storageLine at *
      simp only [e1, e2, e3, hd] at *
      exact storage_wider hpos b1 b2 b3 o1 o2 hh
  · obtain ⟨v, hv, ⟨e1, e2, e3, e4⟩, ⟨b1, b2, b3⟩, o1, o2⟩ := forall₂_left hvi v' hv'
    obtain ⟨L, hL, hb, hh⟩ := get _ (.inl (.inl (.inr ⟨v, hv, rfl⟩)))
    cases hL
    refine ⟨_, rfl, ?_, ?_⟩
    · unfold Line.Built virtualLine routeFactors at *
      simp only [e1, e2] at *
      exact hb
    · unfold Line.Holds virtualLine routeFactors at *
      simp only [e1, e2, e3, e4, hd] at *
      exact virtual_wider hpos b1 b2 b3 o1 o2 hh
  · obtain ⟨a, ha, ⟨e1, e2, e3⟩, -⟩ := forall₂_left hag a' ha'
    refine get _ (.inl (.inr ⟨a, ha, ?_⟩))
    unfold factorLines at *
    rwa [e1, e3] at ho
  · obtain ⟨a, ha, ⟨e1, e2, e3⟩, hw⟩ := forall₂_left hag a' ha'
    have := get _ (.inr ⟨a, ha, rfl⟩)
    unfold aggLine lastWeight AggData.weightList at this ⊢
    rw [e1, e2]
    exact limit_wider hw this

/-- **C119 (wider limits, edge solver).** -/
theorem C119_edge_relaxed_partial (d d' : Data) (h : Relaxed d d') (g : Graph) (y : List Rat) (hy : EdgeFeasible d g y) :
    EdgeFeasible d' g y ∧ edgeObjective d' g y = edgeObjective d g y ∧ ∀ n, edgeNodeFlow d' g y n = edgeNodeFlow d g y n := by
  obtain ⟨hk, hn, hco, hcr, ⟨hd, hpos⟩, hlim, hst, hvi, hag⟩ := h
  refine ⟨?_, by rw [edgeObjective_S, edgeObjective_S]; unfold eCost; rw [hk, hco, hn], fun n => by rw [edgeNodeFlow_S, edgeNodeFlow_S]; unfold share; rw [hk]⟩
  rw [edgeFeasible_iff] at hy ⊢
  obtain ⟨⟨h1, h2, h3⟩, hl, hx0, hrows⟩ := hy
  have hns : d'.nonStorages = d.nonStorages := by unfold Data.nonStorages; rw [hn, hk]
  have hm : meets d' g = meets d g := by funext n e; unfold meets; rw [hk]
  refine ⟨⟨by rwa [hn], h2, by rwa [hns]⟩, hl, hx0, fun o ho => ?_⟩
  unfold edgeLines at ho hrows
  simp only [List.mem_append, List.mem_map, List.mem_flatMap] at ho
  have get : ∀ o, o ∈ (d.nonStorages.map (nodeLineE d g) ++ d.cross.map (crossLineE d g) ++ (d.nodes.filter fun n => d.kind n == .link).map (fun n => some (balanceLine g n)) ++
    d.storages.map (fun s => some (storageLineE d g s)) ++ d.virtuals.map (fun v => some (virtualLineE d g v)) ++ d.aggs.flatMap (factorLinesE d g) ++ d.aggs.map (aggLineE d g)) →
    ∃ L, o = some L ∧ L.Built g.edges ∧ L.Holds g.edges y := hrows
  simp only [List.mem_append, List.mem_map, List.mem_flatMap] at get
  rcases ho with (((((⟨n, hnm, rfl⟩ | ⟨c, hc, rfl⟩) | ⟨n, hnm, rfl⟩) | ⟨s', hs', rfl⟩) | ⟨v', hv', rfl⟩) | ⟨a', ha', ho⟩) | ⟨a', ha', rfl⟩
  · rw [hns] at hnm
    have := get _ (.inl (.inl (.inl (.inl (.inl (.inl ⟨n, hnm, rfl⟩))))))
    unfold nodeLineE at this ⊢
    rw [hk, hm]
    exact limit_wider (hlim n (mem_nonStorages.1 hnm).1 (mem_nonStorages.1 hnm).2) this
  · rw [hcr] at hc
    have := get _ (.inl (.inl (.inl (.inl (.inl (.inr ⟨c, hc, rfl⟩))))))
    unfold crossLineE at this ⊢
    rwa [hm]
  · rw [hn, hk] at hnm
    exact get _ (.inl (.inl (.inl (.inl (.inr ⟨n, hnm, rfl⟩)))))
  · obtain ⟨s, hs, ⟨e1, e2, e3⟩, ⟨b1, b2, b3⟩, o1, o2⟩ := forall₂_left hst s' hs'
    obtain ⟨L, hL, hb, hh⟩ := get _ (.inl (.inl (.inl (.inr ⟨s, hs, rfl⟩))))
    cases hL
    refine ⟨_, rfl, ?_, ?_⟩
    · unfold Line.Built storageLineE at *
      simp only [e1, e2] at *
      exact hb
    · unfold Line.Holds storageLineE at *
      simp only [e1, e2, e3, hd] at *
      exact storage_wider hpos b1 b2 b3 o1 o2 hh
  · obtain ⟨v, hv, ⟨e1, e2, e3, e4⟩, ⟨b1, b2, b3⟩, o1, o2⟩ := forall₂_left hvi v' hv'
    obtain ⟨L, hL, hb, hh⟩ := get _ (.inl (.inl (.inr ⟨v, hv, rfl⟩)))
    cases hL
    refine ⟨_, rfl, ?_, ?_⟩
    · unfold Line.Built virtualLineE edgeWeights at *
      simp only [e1, e2, hm] at *
      exact hb
    · unfold Line.Holds virtualLineE edgeWeights at *
      simp only [e1, e2, e3, e4, hd, hm] at *
      exact virtual_wider hpos b1 b2 b3 o1 o2 hh
  · obtain ⟨a, ha, ⟨e1, e2, e3⟩, -⟩ := forall₂_left hag a' ha'
    refine get _ (.inl (.inr ⟨a, ha, ?_⟩))
    unfold factorLinesE at *
    rwa [e1, e3, hm] at ho
  · obtain ⟨a, ha, ⟨e1, e2, e3⟩, hw⟩ := forall₂_left hag a' ha'
    have := get _ (.inr ⟨a, ha, rfl⟩)
    unfold aggLineE lastWeight AggData.weightList at this ⊢
    rw [e1, e2, hm]
    exact limit_wider hw this

/-- **C119 (least cost).** Wider limits never raise the least cost. -/
theorem C119_cost_partial (d d' : Data) (h : Relaxed d d') (routes : List (List Nat)) (x x' : List Rat) (hx : Optimal d routes x) (hx' : Optimal d' routes x') :
    routeObjective d' routes x' ≤ routeObjective d routes x := by
  obtain ⟨h1, h2, -⟩ := C119_relaxed_partial d d' h routes x hx.1
  rw [← h2]
  exact hx'.2 x h1

/-- **C119 (least cost, edge solver).** -/
theorem C119_edge_cost_partial (d d' : Data) (h : Relaxed d d') (g : Graph) (y y' : List Rat) (hy : EdgeOptimal d g y) (hy' : EdgeOptimal d' g y') :
    edgeObjective d' g y' ≤ edgeObjective d g y := by
  obtain ⟨h1, h2, -⟩ := C119_edge_relaxed_partial d d' h g y hy.1
  rw [← h2]
  exact hy'.2 y h1

/-! ## Further supplies -/

theorem zero_admitted {d : Data} {n : Nat} (h : Optional d n) {r : Row} (hr : flowRow true (d.minFlow n) (d.maxFlow n) = .stored r) : r.Admits 0 := by
  have hE : ∀ q, F.effective (.fin q) = .fin (rnd q) := by intro q; simp only [F.effective, rnd]; split <;> rfl
  have h0 : rnd 0 = 0 := by unfold rnd; split <;> rfl
  obtain ⟨ha, hb, hlo, hhi⟩ := h
  obtain ⟨r', hr', hadm⟩ := admits_iff ha hb
  rw [hr'] at hr
  cases hr
  refine (hadm 0).2 ?_
  have h1 : (d.minFlow n).effective.AtLeast 0 := atLeast_mono hlo (by rw [hE, h0]; exact le_refl _)
  have h2 : (d.maxFlow n).effective.AtMost 0 := atMost_mono hhi (by rw [hE, h0]; exact le_refl _)
  by_cases hc : Close (d.minFlow n).effective (d.maxFlow n).effective
  · refine .inl ⟨hc, ?_⟩
    rcases ha with ha | ⟨p, ha, -⟩ <;> rcases hb with hb | ⟨q, hb, -⟩ <;> simp only [ha, hb] at hc hlo hhi <;> rw [ha]
    · simp [F.effective, Close] at hc
    · simp [F.effective, Close] at hc
    · simp [F.effective, Close] at hc
    · rw [hE] at hc ⊢
      rw [hE] at hc
      rw [(rnd_apart (p := p) (q := q) hlo hhi hc).1]
  · exact .inr ⟨hc, h1, h2⟩

theorem S_zero_off {α : Type} (q : α → Bool) (l : List α) (x : List Rat) (h : x.length = l.length) (hz : ∀ v ∈ pick (fun a => !q a) l x, v = 0) (f f' : α → Rat)
    (hf : ∀ a ∈ l, q a = true → f a = f' a) : S l x f = S (l.filter q) (pick q l x) f' := by
  rw [S_both q (fun a => !q a) l x h f fun a _ => rfl]
  have : S (l.filter fun a => !q a) (pick (fun a => !q a) l x) f = 0 := by
    rw [S_zip]
    refine sum_map_zero fun p hp => ?_
    rw [hz p.2 (List.of_mem_zip hp).2, mul_zero]
  rw [this, add_zero]
  exact S_congr fun a ha => hf a (List.mem_filter.1 ha).1 (List.mem_filter.1 ha).2

/-- Any values on the columns of `q`, zero on the others. -/
private theorem extend {α : Type} (q : α → Bool) (l : List α) (x : List Rat) (h : x.length = (l.filter q).length) :
    ∃ z : List Rat, z.length = l.length ∧ pick q l z = x ∧ ∀ v ∈ pick (fun a => !q a) l z, v = 0 := by
  obtain ⟨z, h1, h2, h3⟩ := merge q (fun a => !q a) l (fun _ _ => rfl) x (List.replicate (l.filter fun a => !q a).length 0) h (by simp)
  exact ⟨z, h1, h2, fun v hv => by rw [h3] at hv; exact (List.mem_replicate.1 hv).2⟩

private theorem only_old {α : Type} {q : α → Bool} {l : List α} {x z : List Rat} (hl : z.length = l.length) (h1 : pick q l z = x) (h2 : ∀ v ∈ pick (fun a => !q a) l z, v = 0) (p : α × Rat)
    (hp : p ∈ l.zip z) (h0 : p.2 ≠ 0) : p ∈ (l.filter q).zip x := by
  rw [← h1, zip_filter q l z hl]
  refine List.mem_filter.2 ⟨hp, ?_⟩
  by_contra hq
  refine h0 (h2 p.2 ?_)
  unfold pick
  exact List.mem_map.2 ⟨p, List.mem_filter.2 ⟨hp, by simpa using hq⟩, rfl⟩

private theorem extend_nonneg {α : Type} {q : α → Bool} {l : List α} {z : List Rat} (hl : z.length = l.length) (h1 : ∀ v ∈ pick q l z, 0 ≤ v) (h2 : ∀ v ∈ pick (fun a => !q a) l z, v = 0) :
    ∀ v ∈ z, 0 ≤ v := (pick_nonneg q (fun a => !q a) l z hl fun _ _ => rfl).2 ⟨h1, fun v hv => by rw [h2 v hv]⟩

/-- **C119 (further nodes and routes, route solver).** Nodes that need not carry any water and the routes through them do no harm: if the larger problem can be built at all, every solution
is still a solution, with nothing on the new routes, at the same cost and with the same flows of all nodes. -/
theorem C119_added (d : Data) (new : List Nat) (routes : List (List Nat)) (old : List Nat → Bool) (hb : ∃ rows, routeRows { d with nodes := d.nodes ++ new } routes = .ok rows)
    (hnew : ∀ n ∈ new, Optional d n) (hold : ∀ r ∈ routes, old r = true → ∀ n ∈ new, n ∉ r) (x : List Rat) (hx : RouteFeasible d (routes.filter old) x) :
    ∃ z, RouteFeasible { d with nodes := d.nodes ++ new } routes z ∧ routeObjective { d with nodes := d.nodes ++ new } routes z = routeObjective d (routes.filter old) x ∧
      (∀ n, routeNodeFlow { d with nodes := d.nodes ++ new } routes z n = routeNodeFlow d (routes.filter old) x n) ∧ ∀ p ∈ routes.zip z, p.2 ≠ 0 → p ∈ (routes.filter old).zip x := by
  rw [routeRows_ok] at hb
  rw [routeFeasible_iff] at hx
  obtain ⟨hbase, hbuilt⟩ := hb
  obtain ⟨-, hl, hx0, hrows⟩ := hx
  obtain ⟨z, hz, hp, h0⟩ := extend old routes x hl
  refine ⟨z, ?_, ?_, fun n => ?_, fun p => only_old hz hp h0 p⟩
  · rw [routeFeasible_iff]
    refine ⟨hbase, hz, extend_nonneg hz (by rw [hp]; exact hx0) h0, fun o ho => ?_⟩
    obtain ⟨L, hL, hLb⟩ := hbuilt o ho
    refine ⟨L, hL, hLb, ?_⟩
    by_cases hmem : o ∈ routeLines d
    · obtain ⟨L', hL', -, hh⟩ := hrows o hmem
      rw [hL] at hL'
      cases hL'
      unfold Line.Holds at hh ⊢
      rw [S_zero_off old routes z hz h0 L.coef L.coef fun _ _ _ => rfl, hp]
      exact hh
    · have : ∃ n ∈ new, nodeLine d n = o := by
        unfold routeLines at ho hmem
        simp only [List.mem_append, List.mem_map, List.mem_flatMap, not_or] at ho hmem
        rcases ho with ((((⟨n, hn, rfl⟩ | ho) | ho) | ho) | ho) | ho
        · have hn' := mem_nonStorages.1 hn
          rcases List.mem_append.1 hn'.1 with hn1 | hn1
          · exact absurd ⟨n, mem_nonStorages.2 ⟨hn1, hn'.2⟩, rfl⟩ hmem.1.1.1.1.1
          · exact ⟨n, hn1, rfl⟩
        · exact absurd ho hmem.1.1.1.1.2
        · exact absurd ho hmem.1.1.1.2
        · exact absurd ho hmem.1.1.2
        · exact absurd ho hmem.1.2
        · exact absurd ho hmem.2
      obtain ⟨n, hn, rfl⟩ := this
      unfold nodeLine limitLine at hL
      cases hf : flowRow true (d.minFlow n) (d.maxFlow n) with
      | stored r =>
        rw [hf] at hL
        simp only [Option.some.injEq] at hL
        subst hL
        unfold Line.Holds
        rw [S_zero_off old routes z hz h0 _ (fun _ => 0) fun r hr ho => by dsimp only; rw [passes_false (hold r hr ho n hn)]; rfl, S_zero]
        exact zero_admitted (hnew n hn) hf
      | glpkError => rw [hf] at hL; cases hL
      | storedNan => rw [hf] at hL; cases hL
  · rw [routeObjective_S, routeObjective_S, S_zero_off old routes z hz h0 _ _ fun _ _ _ => rfl, hp]
    rfl
  · rw [routeNodeFlow_eq_S, routeNodeFlow_eq_S, S_zero_off old routes z hz h0 _ _ fun _ _ _ => rfl, hp]
    rfl

/-- **C119 (further nodes and connections, edge solver).** -/
theorem C119_edge_added (d : Data) (new : List Nat) (g : Graph) (old : Nat × Nat → Bool) (hb : ∃ rows, edgeRows { d with nodes := d.nodes ++ new } g = .ok rows)
    (hnew : ∀ n ∈ new, Optional d n) (hold : ∀ e ∈ g.edges, old e = true → ∀ n ∈ new, e.1 ≠ n ∧ e.2 ≠ n) (y : List Rat) (hy : EdgeFeasible d ⟨g.edges.filter old, g.domain⟩ y) :
    ∃ z, EdgeFeasible { d with nodes := d.nodes ++ new } g z ∧ edgeObjective { d with nodes := d.nodes ++ new } g z = edgeObjective d ⟨g.edges.filter old, g.domain⟩ y ∧
      (∀ n, edgeNodeFlow { d with nodes := d.nodes ++ new } g z n = edgeNodeFlow d ⟨g.edges.filter old, g.domain⟩ y n) ∧ ∀ p ∈ g.edges.zip z, p.2 ≠ 0 → p ∈ (g.edges.filter old).zip y := by
  rw [edgeRows_ok] at hb
  rw [edgeFeasible_iff] at hy
  obtain ⟨hbase, hbuilt⟩ := hb
  obtain ⟨-, hl, hx0, hrows⟩ := hy
  obtain ⟨z, hz, hp, h0⟩ := extend old g.edges y hl
  refine ⟨z, ?_, ?_, fun n => ?_, fun p => only_old hz hp h0 p⟩
  · rw [edgeFeasible_iff]
    refine ⟨hbase, hz, extend_nonneg hz (by rw [hp]; exact hx0) h0, fun o ho => ?_⟩
    obtain ⟨L, hL, hLb⟩ := hbuilt o ho
    refine ⟨L, hL, hLb, ?_⟩
    by_cases hmem : o ∈ edgeLines d ⟨g.edges.filter old, g.domain⟩
    · obtain ⟨L', hL', -, hh⟩ := hrows o hmem
      rw [hL] at hL'
      cases hL'
      unfold Line.Holds at hh ⊢
      rw [S_zero_off old g.edges z hz h0 L.coef L.coef fun _ _ _ => rfl, hp]
      exact hh
    · have : ∃ n ∈ new, nodeLineE d g n = o ∨ some (balanceLine g n) = o := by
        have hsame : edgeLines d ⟨g.edges.filter old, g.domain⟩ = edgeLines d g := rfl
        rw [hsame] at hmem
        unfold edgeLines at ho hmem
        simp only [List.mem_append, List.mem_map, List.mem_flatMap, not_or] at ho hmem
        rcases ho with (((((⟨n, hn, rfl⟩ | ho) | ⟨n, hn, rfl⟩) | ho) | ho) | ho) | ho
        · have hn' := mem_nonStorages.1 hn
          rcases List.mem_append.1 hn'.1 with hn1 | hn1
          · exact absurd ⟨n, mem_nonStorages.2 ⟨hn1, hn'.2⟩, rfl⟩ hmem.1.1.1.1.1.1
          · exact ⟨n, hn1, .inl rfl⟩
        · exact absurd ho hmem.1.1.1.1.1.2
        · have hn' := List.mem_filter.1 hn
          rcases List.mem_append.1 hn'.1 with hn1 | hn1
          · exact absurd ⟨n, List.mem_filter.2 ⟨hn1, hn'.2⟩, rfl⟩ hmem.1.1.1.1.2
          · exact ⟨n, hn1, .inr rfl⟩
        · exact absurd ho hmem.1.1.1.2
        · exact absurd ho hmem.1.1.2
        · exact absurd ho hmem.1.2
        · exact absurd ho hmem.2
      obtain ⟨n, hn, rfl | rfl⟩ := this
      · unfold nodeLineE limitLine at hL
        cases hf : flowRow true (d.minFlow n) (d.maxFlow n) with
        | stored r =>
          rw [hf] at hL
          simp only [Option.some.injEq] at hL
          subst hL
          unfold Line.Holds
          rw [S_zero_off old g.edges z hz h0 _ (fun _ => 0) fun e he ho => by dsimp only; rw [meets_false (hold e he ho n hn)]; rfl, S_zero]
          exact zero_admitted (hnew n hn) hf
        | glpkError => rw [hf] at hL; cases hL
        | storedNan => rw [hf] at hL; cases hL
      · cases hL
        unfold Line.Holds
        rw [S_zero_off old g.edges z hz h0 _ (fun _ => 0) fun e he ho => by
          have := hold e he ho n hn
          unfold balanceLine
          simp [enters_false this.2, leaves_false this.1, term], S_zero]
        rfl
  · rw [edgeObjective_S, edgeObjective_S, S_zero_off old g.edges z hz h0 _ (eCost d ⟨g.edges.filter old, g.domain⟩) fun e he ho => ?_, hp]
    unfold eCost
    simp only [List.map_append, List.sum_append]
    rw [sum_map_zero (l := new) fun n hn => by
      have := hold e he ho n hn
      rw [enters_false this.2, leaves_false this.1]
      simp [one], add_zero]
    rfl
  · rw [edgeNodeFlow_S, edgeNodeFlow_S, S_zero_off old g.edges z hz h0 _ _ fun _ _ _ => rfl, hp]
    rfl

/-! ## What goes wrong -/

/-- An input and an output, both fixed at five. -/
def fixedPair (lower : Rat) : Data where
  kind := fun n => match n with | 0 => .input | 1 => .output | _ => .other
  nodes := [0, 1]
  minFlow := fun n => match n with | 0 => .fin lower | _ => .fin 5
  maxFlow := fun _ => .fin 5
  cost := fun _ => 0
  storages := []
  virtuals := []
  aggs := []
  cross := []
  days := 1

/-- **C119 fails below 1e-8.** An input and an output with minimum and maximum flow five can be supplied. When the minimum flow of the input is lowered by 5e-9, nothing is feasible any more:
limits closer than 1e-8 fix the flow at the lower limit. -/
theorem C119_relaxed_fails : RouteFeasible (fixedPair 5) [[0, 1]] [5] ∧ (fixedPair (5 - 1 / 200000000)).maxFlow = (fixedPair 5).maxFlow ∧
    ∀ x, ¬RouteFeasible (fixedPair (5 - 1 / 200000000)) [[0, 1]] x := by
  refine ⟨?_, rfl, ?_⟩
  · refine ⟨[⟨[(0, 1)], ⟨.fx, 5, 5⟩⟩, ⟨[(0, 1)], ⟨.fx, 5, 5⟩⟩], ?_, rfl, ?_, ?_⟩
    · have hD := dblMax_gt
      have hf : flowRow true (.fin 5) (.fin 5) = .stored ⟨.fx, 5, 5⟩ := by
        simp [flowRow, infToDblMax, roundTiny, setRowBnds, constraintType, e8]
        norm_num
      simp only [routeRows, fixedPair, Data.nonStorages]
      simp [collect, concat, nodeRow, nodeCols, colsOf, limitRow, setMatRow, const, hf]
    · simp
    · simp [Row.Admits, rowVal]
  · intro x hx
    rw [routeFeasible_iff] at hx
    obtain ⟨-, hl, -, hrows⟩ := hx
    have hD := dblMax_gt
    have hf : flowRow true (.fin 5) (.fin 5) = .stored ⟨.fx, 5, 5⟩ := by
      simp [flowRow, infToDblMax, roundTiny, setRowBnds, constraintType, e8]
      norm_num
    have hf' : flowRow true (.fin (5 - 1 / 200000000)) (.fin 5) = .stored ⟨.fx, 5 - 1 / 200000000, 5⟩ := by
      have e1 : ¬|(5 : Rat) - 1 / 200000000| < e8 := by rw [abs_of_pos (by norm_num)]; unfold e8; norm_num
      have e2 : ¬|(5 : Rat)| < e8 := by rw [abs_of_pos (by norm_num)]; unfold e8; norm_num
      have e3 : |(5 : Rat) - 1 / 200000000 - 5| < e8 := by rw [abs_of_neg (by norm_num)]; unfold e8; norm_num
      simp only [flowRow, infToDblMax, roundTiny, e1, e2, if_false, setRowBnds, constraintType, e3, if_true]
    obtain ⟨L, hL, -, h1⟩ := hrows (nodeLine (fixedPair (5 - 1 / 200000000)) 0) (by simp [routeLines, Data.nonStorages, fixedPair])
    obtain ⟨L', hL', -, h2⟩ := hrows (nodeLine (fixedPair (5 - 1 / 200000000)) 1) (by simp [routeLines, Data.nonStorages, fixedPair])
    have m0 : (fixedPair (5 - 1 / 200000000)).minFlow 0 = .fin (5 - 1 / 200000000) := rfl
    have m1 : (fixedPair (5 - 1 / 200000000)).minFlow 1 = .fin 5 := rfl
    have m2 : ∀ n, (fixedPair (5 - 1 / 200000000)).maxFlow n = .fin 5 := fun _ => rfl
    unfold nodeLine limitLine at hL hL'
    rw [m0, m2, hf'] at hL
    rw [m1, m2, hf] at hL'
    simp only [Option.some.injEq] at hL hL'
    subst hL hL'
    unfold Line.Holds at h1 h2
    simp [Row.Admits, S, fixedPair, passes, term] at h1 h2
    rw [h1] at h2
    norm_num at h2

/-! ## Examples -/

example : Relaxed twoSupplies { twoSupplies with maxFlow := fun n => match n with | 0 => .fin 8 | 1 => .fin 3 | _ => .posInf } := by
  have hD := dblMax_gt
  have hbig : (10 : Rat) < dblMax - 1 := by
    unfold dblMax
    exact_mod_cast (by decide +kernel : (10 : Int) < 2 ^ 1024 - 2 ^ 971 - 1)
  have ord : ∀ q : Rat, 0 ≤ q → q ≤ 10 → OrdinaryDouble q := fun q h1 h2 => ⟨by linarith, by linarith⟩
  have z : LowerLimit (.fin 0) := .inr ⟨0, rfl, ord 0 (by norm_num) (by norm_num)⟩
  have wide : ∀ b b' : F, UpperLimit b → UpperLimit b' → LimitLe (.fin 0) b → LimitLe b b' → Wider (.fin 0) b (.fin 0) b' :=
    fun b b' h1 h2 h3 h4 => ⟨⟨z, h1, z, h2⟩, h3, by simp [LimitLe], h4, .inl rfl⟩
  have up : ∀ q : Rat, 0 ≤ q → q ≤ 10 → UpperLimit (.fin q) := fun q h1 h2 => .inr ⟨q, rfl, ord q h1 h2⟩
  refine ⟨rfl, rfl, rfl, rfl, ⟨rfl, by norm_num [twoSupplies]⟩, ?_, .nil, .nil, .cons ⟨⟨rfl, rfl, rfl⟩, ⟨⟨.inl rfl, .inl rfl, .inl rfl, .inl rfl⟩, by simp [LimitLe], by simp [LimitLe],
    by simp [LimitLe], .inl rfl⟩⟩ .nil⟩
  intro n hn _
  simp only [twoSupplies, List.mem_cons, List.not_mem_nil, or_false] at hn
  rcases hn with rfl | rfl | rfl | rfl | rfl
  · exact wide (.fin 5) (.fin 8) (up 5 (by norm_num) (by norm_num)) (up 8 (by norm_num) (by norm_num)) (show (0 : Rat) ≤ 5 by norm_num) (show (5 : Rat) ≤ 8 by norm_num)
  · exact wide (.fin 3) (.fin 3) (up 3 (by norm_num) (by norm_num)) (up 3 (by norm_num) (by norm_num)) (show (0 : Rat) ≤ 3 by norm_num) (show (3 : Rat) ≤ 3 by norm_num)
  · exact wide (.fin 7) .posInf (up 7 (by norm_num) (by norm_num)) (.inl rfl) (show (0 : Rat) ≤ 7 by norm_num) trivial
  · exact wide .posInf .posInf (.inl rfl) (.inl rfl) trivial trivial
  · exact wide .posInf .posInf (.inl rfl) (.inl rfl) trivial trivial

example : Optional twoSupplies 2 ∧ ∀ r ∈ ([[0, 1], [2, 1]] : List (List Nat)), (r == [0, 1]) = true → ∀ n ∈ [2], n ∉ r := by
  refine ⟨⟨.inr ⟨0, rfl, ?_⟩, .inr ⟨7, rfl, ?_⟩, by simp [LimitLe, twoSupplies], by simp [LimitLe, twoSupplies]⟩, by decide⟩ <;>
  · have hbig : (10 : Rat) < dblMax - 1 := by
      unfold dblMax
      exact_mod_cast (by decide +kernel : (10 : Int) < 2 ^ 1024 - 2 ^ 971 - 1)
    constructor <;> linarith

end Verif.Lp

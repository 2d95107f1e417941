import Verif.Spec.Priority
import Verif.Proof.Priority
import Verif.Props.SolverDomains
/-!
C108: the order in which demands are met and supplies are used.
-/

namespace Verif.Priority

open Verif Verif.Lp Verif.Bounds Verif.Composite

private theorem brings_eq (s : StorageData) (r : List Nat) :
    (if (inList r.getLast? s.outputs && !inList r.head? s.inputs) = true then (1 : Rat) else 0) +
      (if (inList r.head? s.inputs && !inList r.getLast? s.outputs) = true then -1 else 0) = brings s r := by
  have h : ∀ (o : Option Nat) (l : List Nat), inList o l = true ↔ ∃ n ∈ l, o = some n := by
    intro o l
    rcases o with _ | n
    · simp [inList]
    · simp [inList]
  unfold brings
  have h1 := h r.getLast? s.outputs
  have h2 := h r.head? s.inputs
  rw [if_congr h1.symm rfl rfl, if_congr h2.symm rfl rfl]
  cases inList r.getLast? s.outputs <;> cases inList r.head? s.inputs <;> simp

/-- **C108 (exchange).** In an optimal solution, no change along routes that would lower the total cost is possible: something stands against it. What this can be is listed in `Obstacle`. -/
theorem C108_exchange (d : Data) (routes : List (List Nat)) (hs : Sound d routes) (x : List Rat) (hx : Optimal d routes x) (c : Change)
    (hmore : ∀ r, c.more = some r → r ∈ routes) (hless : ∀ r, c.less = some r → ∃ i : Nat, routes[i]? = some r ∧ 0 < x.getD i 0)
    (hcost : c.of (fun r => roundCost (routeCost d r)) < 0) : Obstacle d routes x c := by
  obtain ⟨rows, hrows, hlen, hx0, hsat⟩ := hx.1
  have hw := hs.routed
  have hless' : ∀ r, c.less = some r → r ∈ routes := fun r hr => by
    obtain ⟨i, hi, -⟩ := hless r hr
    exact List.mem_of_getElem? hi
  have key : ∀ row ∈ rows, ∃ w : List Nat → Rat, (∀ x, rowVal x row.entries = S routes x w) ∧ (Tight row.bounds (rowVal x row.entries) (c.of w) → Obstacle d routes x c) := by
    intro row hrow
    have hadm := hsat row hrow
    rcases routeRows_mem hrows hrow with ⟨n, hn, hr⟩ | ⟨b, hb, hr⟩ | ⟨t, ht, hr⟩ | ⟨v, hv, hr⟩ | ⟨a, ha, l, hl, hr⟩ | ⟨a, ha, hr⟩
    · obtain ⟨hn1, hn2⟩ := mem_nonStorages.1 hn
      obtain ⟨he, hb, -⟩ := nodeRow_ok hr
      refine ⟨fun r => if Carries d r n then 1 else 0, fun x => by rw [he, rowVal_nodeCols hn2], fun htt => ?_⟩
      rw [he, node_value hw hn2] at htt
      rcases tight_limits (hs.limits n hn1).1 (hs.limits n hn1).2 hb htt with ⟨h1, h2⟩ | ⟨h1, h2⟩
      · exact .most n hn1 h1 h2
      · exact .least n hn1 h1 h2
    · have hS := crossRow_S hr (by rw [hs.cross b hb]; simp)
      refine ⟨_, fun x => (hS x).1, fun htt => .border b hb ?_⟩
      by_contra hno
      push Not at hno
      apply tight_ne htt
      have hcar : ∀ r, Carries d r b.1 ↔ r.getLast? = some b.1 := by
        intro r; unfold Carries; rw [hs.cross b hb]
      rw [of_add, of_sum_ite b.2 (fun i r => r.head? = some i.1) _ fun i hi => hno.2 i hi, add_zero]
      simp only [hcar]
      exact of_ite hno.1 (-1)
    · refine ⟨brings t, fun x => (storageRow_S hr x).trans (S_congr fun r _ => brings_eq t r), fun htt => ?_⟩
      obtain ⟨h1, h2, h3, h4⟩ := hs.storages t ht
      obtain ⟨e, hb⟩ := storage_value hw x h1 h2 h3 h4 hr
      rw [e, hb] at htt hadm
      rcases tight_storage hs.days hadm htt with ⟨h5, h6⟩ | ⟨h5, h6⟩
      · exact .full t ht h5 h6
      · exact .empty t ht h5 h6
    · refine ⟨fun r => -(routeFactors v r).sum, fun x => virtualRow_S hr x, fun htt => ?_⟩
      obtain ⟨-, -, hb⟩ := boundRow_ok hr
      have hact : v.active = true ∨ v.mx = v.mn := by
        by_contra hno
        push Not at hno
        rw [hb] at htt
        have : VirtualStorage.vRow v.active v.volume v.mx v.mn d.days = ⟨.fr, -dblMax, dblMax⟩ := by
          unfold VirtualStorage.vRow
          rw [if_neg hno.2, if_pos (by simpa using hno.1)]
        rw [this] at htt
        simp [Tight] at htt
      refine .virtual v hv ?_ hact fun hp => ?_
      · by_contra hno
        push Not at hno
        apply tight_ne htt
        rw [of_neg, of_congr hmore hless' fun r hr => routeFactors_members v (hw r hr).1,
          of_sum_ite v.nodes.dedup (fun m r => m ∈ r) _ fun m hm => hno m (List.mem_dedup.1 hm), neg_zero]
      · obtain ⟨e, -⟩ := virtual_value hw x hp.1 hp.2 hr
        have hcount : c.of (fun r => -(routeFactors v r).sum) = -c.of (counts (v.nodes.zip v.factors)) := by
          rw [of_neg]
          congr 1
          exact of_congr hmore hless' fun r hr => routeFactors_sum hp.1 (hw r hr).1
        have hrow' : VirtualStorage.vRow v.active v.volume v.mx v.mn d.days = Storage.storageRow v.volume v.mx v.mn d.days := by
          unfold VirtualStorage.vRow
          rcases hact with h | h
          · rw [h]
            by_cases hm : v.mx = v.mn
            · rw [if_pos hm]; unfold Storage.storageRow; rw [if_pos hm]
            · rw [if_neg hm]; rfl
          · rw [if_pos h]; unfold Storage.storageRow; rw [if_pos h]
        rw [hb, hrow', e, depletion_uses, hcount] at htt
        rw [hb, hrow', e, depletion_uses] at hadm
        rcases tight_storage hs.days hadm htt with ⟨h5, h6⟩ | ⟨h5, h6⟩
        · exact .inr ⟨by linarith, h6⟩
        · exact .inl ⟨by linarith, h6⟩
    · have hf : a.factors ≠ none := by
        intro h
        unfold factorRowsR at hl
        rw [h] at hl
        cases hl
        cases hr
      obtain ⟨n, hn, m, hm, k, hval⟩ := factorRow_S hl hr
      refine ⟨_, hval, fun htt => .ratio a ha hf ?_⟩
      by_contra hno
      push Not at hno
      apply tight_ne htt
      simp only [List.contains_iff_mem]
      rw [of_add, of_ite (p := fun r => n ∈ r) (hno n hn), of_ite (p := fun r => m ∈ r) (hno m hm), add_zero]
    · refine ⟨_, fun x => aggRow_S hr x, fun htt => .group a ha ?_ fun hp => ?_⟩
      · by_contra hno
        push Not at hno
        exact tight_ne htt (lastWeight_of a hno)
      · obtain ⟨e, hb⟩ := agg_value hw x hp.1 hp.2 hr
        have hcount : c.of (fun r => (lastWeight a fun n => r.contains n).getD 0) = c.of (counts (a.nodes.zip a.weightList)) := by
          refine of_congr hmore hless' fun r hr => ?_
          rw [lastWeight_sum a _ (hp.2 r hr)]
          unfold counts
          congr 1
          apply List.map_congr_left
          intro p _
          simp
        rw [e, hcount] at htt
        exact tight_limits (hs.groups a ha).1 (hs.groups a ha).2 hb htt
  choose! w hw1 hw2 using key
  obtain ⟨row, hrow, htt⟩ := stopped hx c hmore hless hcost rows hrows w hw1
  exact hw2 row hrow htt

/-! ## Routes that pay, and routes that cost -/

private theorem unitCost_eq {d : Data} {routes : List (List Nat)} (hw : WellRouted d routes) {r : List Nat} (hr : r ∈ routes) : routeCost d r = unitCost d r := by
  unfold routeCost unitCost
  rw [filter_carries hw hr]

private theorem round_neg {q : Rat} (h : q ≤ -(1 / 100000000)) : roundCost q < 0 := by
  have h8 : e8 = 1 / 100000000 := rfl
  unfold roundCost
  rw [if_neg]
  · norm_num at h ⊢; linarith
  · rw [abs_of_nonpos (by norm_num at h ⊢; linarith), h8]; linarith

private theorem round_pos {q : Rat} (h : 1 / 100000000 ≤ q) : 0 < roundCost q := by
  have h8 : e8 = 1 / 100000000 := rfl
  unfold roundCost
  rw [if_neg]
  · norm_num at h ⊢; linarith
  · rw [abs_of_nonneg (by norm_num at h ⊢; linarith), h8]; linarith

private theorem round_lt {p q : Rat} (h : p + 2 / 100000000 ≤ q) : roundCost p < roundCost q := by
  have h8 : e8 = 1 / 100000000 := rfl
  unfold roundCost
  split_ifs with h1 h2 h2
  · have := abs_lt.1 h1; have := abs_lt.1 h2; rw [h8] at *; linarith
  · have := abs_lt.1 h1; rw [h8] at *; linarith
  · have := abs_lt.1 h2; rw [h8] at *; linarith
  · norm_num at h; linarith

private theorem of_more (r : List Nat) (f : List Nat → Rat) : (Change.mk (some r) none).of f = f r := by simp [Change.of]
private theorem of_less (r : List Nat) (f : List Nat → Rat) : (Change.mk none (some r)).of f = -f r := by simp [Change.of]

/-- **C108 (routes that pay are used).** In an optimal solution of a network without virtual storages, aggregated nodes and connections between domains, for every route whose cost is negative: some node on it is at its maximum, or
it ends in a full storage, or it starts in an empty one. -/
theorem C108_used (d : Data) (routes : List (List Nat)) (hs : Sound d routes) (h1 : d.virtuals = []) (h2 : d.aggs = []) (h3 : d.cross = []) (x : List Rat) (hx : Optimal d routes x)
    (r : List Nat) (hr : r ∈ routes) (hc : unitCost d r ≤ -(1 / 100000000)) :
    (∃ n ∈ d.nodes, Carries d r n ∧ NoMore (d.minFlow n) (d.maxFlow n) (routeNodeFlow d routes x n)) ∨
    (∃ s ∈ d.storages, (∃ n ∈ s.outputs, r.getLast? = some n) ∧ Full s.volume s.mx s.mn (storageFlow (routeNodeFlow d routes x) s) d.days) ∨
    (∃ s ∈ d.storages, (∃ n ∈ s.inputs, r.head? = some n) ∧ Empty s.volume s.mx s.mn (storageFlow (routeNodeFlow d routes x) s) d.days) := by
  have h := C108_exchange d routes hs x hx ⟨some r, none⟩ (by rintro _ ⟨⟩; exact hr) (by rintro _ ⟨⟩) (by rw [of_more, unitCost_eq hs.routed hr]; exact round_neg hc)
  cases h with
  | most n hn hc h =>
    rw [of_more] at hc
    refine .inl ⟨n, hn, ?_, h⟩
    by_contra hno
    rw [if_neg hno] at hc
    exact lt_irrefl _ hc
  | least n hn hc h =>
    rw [of_more] at hc
    exfalso
    split_ifs at hc
    · linarith
    · exact lt_irrefl _ hc
  | full s hs' hc h =>
    rw [of_more] at hc
    refine .inr (.inl ⟨s, hs', ?_, h⟩)
    by_contra hno
    unfold brings at hc
    rw [if_neg hno] at hc
    split_ifs at hc <;> linarith
  | empty s hs' hc h =>
    rw [of_more] at hc
    refine .inr (.inr ⟨s, hs', ?_, h⟩)
    by_contra hno
    unfold brings at hc
    rw [if_neg hno] at hc
    split_ifs at hc <;> linarith
  | virtual v hv => rw [h1] at hv; cases hv
  | group a ha => rw [h2] at ha; cases ha
  | ratio a ha => rw [h2] at ha; cases ha
  | border b hb => rw [h3] at hb; cases hb

/-- **C108 (routes that cost are used only if they must be).** If a route of positive cost carries flow, some node on it is at its minimum, or it ends in an empty storage, or it starts in a full one. -/
theorem C108_unused (d : Data) (routes : List (List Nat)) (hs : Sound d routes) (h1 : d.virtuals = []) (h2 : d.aggs = []) (h3 : d.cross = []) (x : List Rat) (hx : Optimal d routes x)
    (i : Nat) (r : List Nat) (hr : routes[i]? = some r) (hf : 0 < x.getD i 0) (hc : 1 / 100000000 ≤ unitCost d r) :
    (∃ n ∈ d.nodes, Carries d r n ∧ NoLess (d.minFlow n) (d.maxFlow n) (routeNodeFlow d routes x n)) ∨
    (∃ s ∈ d.storages, (∃ n ∈ s.outputs, r.getLast? = some n) ∧ Empty s.volume s.mx s.mn (storageFlow (routeNodeFlow d routes x) s) d.days) ∨
    (∃ s ∈ d.storages, (∃ n ∈ s.inputs, r.head? = some n) ∧ Full s.volume s.mx s.mn (storageFlow (routeNodeFlow d routes x) s) d.days) := by
  have hm : r ∈ routes := List.mem_of_getElem? hr
  have h := C108_exchange d routes hs x hx ⟨none, some r⟩ (by rintro _ ⟨⟩) (by rintro _ ⟨⟩; exact ⟨i, hr, hf⟩)
    (by rw [of_less, unitCost_eq hs.routed hm]; have := round_pos hc; linarith)
  cases h with
  | most n hn hc h =>
    rw [of_less] at hc
    exfalso
    split_ifs at hc <;> linarith
  | least n hn hc h =>
    rw [of_less] at hc
    refine .inl ⟨n, hn, ?_, h⟩
    by_contra hno
    rw [if_neg hno] at hc
    linarith
  | full s hs' hc h =>
    rw [of_less] at hc
    refine .inr (.inr ⟨s, hs', ?_, h⟩)
    by_contra hno
    unfold brings at hc
    rw [if_neg hno] at hc
    split_ifs at hc <;> linarith
  | empty s hs' hc h =>
    rw [of_less] at hc
    refine .inr (.inl ⟨s, hs', ?_, h⟩)
    by_contra hno
    unfold brings at hc
    rw [if_neg hno] at hc
    split_ifs at hc <;> linarith
  | virtual v hv => rw [h1] at hv; cases hv
  | group a ha => rw [h2] at ha; cases ha
  | ratio a ha => rw [h2] at ha; cases ha
  | border b hb => rw [h3] at hb; cases hb

/-! ## Priorities -/

private theorem S_pos {α : Type} {l : List α} {x : List Rat} (hx : ∀ v ∈ x, 0 ≤ v) {p : α → Prop} [DecidablePred p]
    (h : 0 < S l x (fun a => if p a then 1 else 0)) : ∃ (i : Nat) (a : α), l[i]? = some a ∧ p a ∧ 0 < x.getD i 0 := by
  by_contra hno
  push Not at hno
  have : S l x (fun a => if p a then 1 else 0) = 0 := by
    unfold S
    apply List.sum_eq_zero
    intro v hv
    obtain ⟨q, hq, rfl⟩ := List.mem_map.1 hv
    have hm := List.mem_zipIdx' hq
    by_cases hp : p q.1
    · have h1 := hno q.2 q.1 (by rw [List.getElem?_eq_getElem hm.1]; exact congrArg some hm.2.symm) hp
      have h2 := getD_nonneg hx q.2
      rw [le_antisymm h1 h2, mul_zero]
    · simp only [if_neg hp, zero_mul]
  rw [this] at h
  exact lt_irrefl _ h

private theorem of_both (r r' : List Nat) (f : List Nat → Rat) : (Change.mk (some r) (some r')).of f = f r - f r' := by simp [Change.of]

/-- **C108 (demands).** Of two outputs that can be reached in the same ways, the cheaper one is served first: if the other one gets anything, the first is at its maximum (or is the output of a storage that is full), unless the
other one gets no more than its minimum (or is the output of a storage that would otherwise be emptied). -/
theorem C108_demand (d : Data) (routes : List (List Nat)) (hs : Sound d routes) (x : List Rat) (hx : Optimal d routes x) (a b : Nat) (ha : d.kind a = .output) (hb : d.kind b = .output)
    (fa : Free d a) (fb : Free d b) (hsame : ∀ p, p ++ [b] ∈ routes → p ++ [a] ∈ routes) (hc : d.cost a + 2 / 100000000 ≤ d.cost b) (hflow : 0 < routeNodeFlow d routes x b) :
    NoMore (d.minFlow a) (d.maxFlow a) (routeNodeFlow d routes x a) ∨ NoLess (d.minFlow b) (d.maxFlow b) (routeNodeFlow d routes x b) ∨
    (∃ s ∈ d.storages, a ∈ s.outputs ∧ b ∉ s.outputs ∧ Full s.volume s.mx s.mn (storageFlow (routeNodeFlow d routes x) s) d.days) ∨
    (∃ s ∈ d.storages, b ∈ s.outputs ∧ a ∉ s.outputs ∧ Empty s.volume s.mx s.mn (storageFlow (routeNodeFlow d routes x) s) d.days) := by
  have hw := hs.routed
  have hab : a ≠ b := by rintro rfl; linarith
  obtain ⟨-, -, hlen, hx0, -⟩ := hx.1
  rw [routeNodeFlow_eq hw] at hflow
  obtain ⟨i, r, hi, hcar, hpos⟩ := S_pos hx0 hflow
  have hr : r ∈ routes := List.mem_of_getElem? hi
  obtain ⟨s0, mid, t, rfl, hk0, hkt⟩ := route_shape hw hr
  have hlast : ∀ t : Nat, (s0 :: (mid ++ [t])).getLast? = some t := by
    intro t
    rw [← List.cons_append, List.getLast?_append]; simp
  have htb : t = b := by
    unfold Carries at hcar
    rw [hb] at hcar
    simp only at hcar
    rw [hlast] at hcar
    exact Option.some.inj hcar
  subst htb
  have hra : s0 :: (mid ++ [a]) ∈ routes := by
    have := hsame (s0 :: mid) (by simpa using hr)
    simpa using this
  have h := C108_exchange d routes hs x hx ⟨some (s0 :: (mid ++ [a])), some (s0 :: (mid ++ [t]))⟩ (by rintro _ ⟨⟩; exact hra) (by rintro _ ⟨⟩; exact ⟨i, hi, hpos⟩) (by
    rw [of_both]
    have e : ∀ u : Nat, routeCost d (s0 :: (mid ++ [u])) = (([s0] ++ mid.filter fun n => d.kind n == .link).map d.cost).sum + d.cost u := by
      intro u
      unfold routeCost
      rw [hlast]
      have : (s0 :: (mid ++ [u])).tail.dropLast = mid := by simp
      rw [this]
      simp [add_assoc]
    have := round_lt (p := routeCost d (s0 :: (mid ++ [a]))) (q := routeCost d (s0 :: (mid ++ [t]))) (by rw [e, e]; linarith)
    linarith)
  have hmem : ∀ n : Nat, n ≠ a → n ≠ t → (n ∈ s0 :: (mid ++ [a]) ↔ n ∈ s0 :: (mid ++ [t])) := by
    intro n h1 h2
    simp [h1, h2]
  have hcarry : ∀ n : Nat, n ≠ a → n ≠ t → (Carries d (s0 :: (mid ++ [a])) n ↔ Carries d (s0 :: (mid ++ [t])) n) := by
    intro n h1 h2
    unfold Carries
    cases d.kind n with
    | input => simp
    | output => simp only [hlast]; simp [Ne.symm h1, Ne.symm h2]
    | link => exact hmem n h1 h2
    | other => exact Iff.rfl
  have hcc : ∀ u n : Nat, d.kind n = .output → (Carries d (s0 :: (mid ++ [u])) n ↔ u = n) := by
    intro u n hn
    unfold Carries
    rw [hn]
    simp only [hlast, Option.some.injEq]
  have hbr : ∀ s ∈ d.storages, brings s (s0 :: (mid ++ [a])) - brings s (s0 :: (mid ++ [t])) = (if a ∈ s.outputs then 1 else 0) - (if t ∈ s.outputs then 1 else 0) := by
    intro s _
    have e : ∀ u : Nat, (∃ n ∈ s.outputs, (s0 :: (mid ++ [u])).getLast? = some n) ↔ u ∈ s.outputs := by
      intro u; rw [hlast]; simp
    unfold brings
    have eh : (if ∃ n ∈ s.inputs, (s0 :: (mid ++ [a])).head? = some n then (1 : Rat) else 0) = if ∃ n ∈ s.inputs, (s0 :: (mid ++ [t])).head? = some n then 1 else 0 :=
      if_congr (by simp) rfl rfl
    rw [if_congr (e a) rfl rfl, if_congr (e t) rfl rfl, eh]
    ring
  have hdiff : ∀ (p : List Nat → Prop), (p (s0 :: (mid ++ [a])) ↔ p (s0 :: (mid ++ [t]))) → ¬ (Change.mk (some (s0 :: (mid ++ [a]))) (some (s0 :: (mid ++ [t])))).Differ p := by
    intro p hp
    unfold Change.Differ
    rw [not_not]
    simpa using hp
  cases h with
  | most n hn hc h =>
    rw [of_both] at hc
    by_cases hna : n = a
    · rw [hna] at h; exact .inl h
    · exfalso
      by_cases hnt : n = t
      · rw [hnt, if_neg (by rw [hcc a t hb]; exact hab), if_pos ((hcc t t hb).2 rfl)] at hc
        linarith
      · rw [if_congr (hcarry n hna hnt) rfl rfl, sub_self] at hc
        exact lt_irrefl _ hc
  | least n hn hc h =>
    rw [of_both] at hc
    by_cases hnt : n = t
    · rw [hnt] at h; exact .inr (.inl h)
    · exfalso
      by_cases hna : n = a
      · rw [hna, if_pos ((hcc a a ha).2 rfl), if_neg (by rw [hcc t a ha]; exact Ne.symm hab)] at hc
        linarith
      · rw [if_congr (hcarry n hna hnt) rfl rfl, sub_self] at hc
        exact lt_irrefl _ hc
  | full s hs' hc h =>
    rw [of_both, hbr s hs'] at hc
    refine .inr (.inr (.inl ⟨s, hs', ?_, ?_, h⟩))
    · by_contra hno; rw [if_neg hno] at hc; split_ifs at hc <;> linarith
    · intro hno; rw [if_pos hno] at hc; split_ifs at hc <;> linarith
  | empty s hs' hc h =>
    rw [of_both, hbr s hs'] at hc
    refine .inr (.inr (.inr ⟨s, hs', ?_, ?_, h⟩))
    · by_contra hno; rw [if_neg hno] at hc; split_ifs at hc <;> linarith
    · intro hno; rw [if_pos hno] at hc; split_ifs at hc <;> linarith
  | virtual v hv ht =>
    obtain ⟨n, hn, hd⟩ := ht
    exact absurd hd (hdiff _ (hmem n (fun e => fa.virtuals v hv (e ▸ hn)) fun e => fb.virtuals v hv (e ▸ hn)))
  | group v hv ht =>
    obtain ⟨n, hn, hd⟩ := ht
    exact absurd hd (hdiff _ (hmem n (fun e => fa.aggs v hv (e ▸ hn)) fun e => fb.aggs v hv (e ▸ hn)))
  | ratio v hv _ ht =>
    obtain ⟨n, hn, hd⟩ := ht
    exact absurd hd (hdiff _ (hmem n (fun e => fa.aggs v hv (e ▸ hn)) fun e => fb.aggs v hv (e ▸ hn)))
  | border b' hb' ht =>
    rcases ht with hd | ⟨i, hi, hd⟩
    · refine absurd hd (hdiff _ ?_)
      simp only [hlast, Option.some.injEq]
      exact ⟨fun e => absurd e (fa.cross b' hb').1, fun e => absurd e (fb.cross b' hb').1⟩
    · refine absurd hd (hdiff _ ?_)
      simp

/-- **C108 (supplies).** Of two inputs from which the same can be reached, the cheaper one is used first: if the other one gives anything, the first is at its maximum (or belongs to a storage that is empty), unless the other
one gives no more than its minimum (or belongs to a storage that would otherwise overflow). -/
theorem C108_supply (d : Data) (routes : List (List Nat)) (hs : Sound d routes) (x : List Rat) (hx : Optimal d routes x) (a b : Nat) (ha : d.kind a = .input) (hb : d.kind b = .input)
    (fa : Free d a) (fb : Free d b) (hsame : ∀ p, b :: p ∈ routes → a :: p ∈ routes) (hc : d.cost a + 2 / 100000000 ≤ d.cost b) (hflow : 0 < routeNodeFlow d routes x b) :
    NoMore (d.minFlow a) (d.maxFlow a) (routeNodeFlow d routes x a) ∨ NoLess (d.minFlow b) (d.maxFlow b) (routeNodeFlow d routes x b) ∨
    (∃ s ∈ d.storages, a ∈ s.inputs ∧ b ∉ s.inputs ∧ Empty s.volume s.mx s.mn (storageFlow (routeNodeFlow d routes x) s) d.days) ∨
    (∃ s ∈ d.storages, b ∈ s.inputs ∧ a ∉ s.inputs ∧ Full s.volume s.mx s.mn (storageFlow (routeNodeFlow d routes x) s) d.days) := by
  have hw := hs.routed
  have hab : a ≠ b := by rintro rfl; linarith
  obtain ⟨-, -, hlen, hx0, -⟩ := hx.1
  rw [routeNodeFlow_eq hw] at hflow
  obtain ⟨i, r, hi, hcar, hpos⟩ := S_pos hx0 hflow
  have hr : r ∈ routes := List.mem_of_getElem? hi
  obtain ⟨s0, mid, t, rfl, hk0, hkt⟩ := route_shape hw hr
  have hlast : ∀ s : Nat, (s :: (mid ++ [t])).getLast? = some t := by
    intro s
    rw [← List.cons_append, List.getLast?_append]; simp
  have hsb : s0 = b := by
    unfold Carries at hcar
    rw [hb] at hcar
    simpa using hcar
  subst hsb
  have hra : a :: (mid ++ [t]) ∈ routes := hsame _ hr
  have h := C108_exchange d routes hs x hx ⟨some (a :: (mid ++ [t])), some (s0 :: (mid ++ [t]))⟩ (by rintro _ ⟨⟩; exact hra) (by rintro _ ⟨⟩; exact ⟨i, hi, hpos⟩) (by
    rw [of_both]
    have e : ∀ u : Nat, routeCost d (u :: (mid ++ [t])) = d.cost u + (((mid.filter fun n => d.kind n == .link) ++ [t]).map d.cost).sum := by
      intro u
      unfold routeCost
      rw [hlast]
      have : (u :: (mid ++ [t])).tail.dropLast = mid := by simp
      rw [this]
      simp
    have := round_lt (p := routeCost d (a :: (mid ++ [t]))) (q := routeCost d (s0 :: (mid ++ [t]))) (by rw [e, e]; linarith)
    linarith)
  have hmem : ∀ n : Nat, n ≠ a → n ≠ s0 → (n ∈ a :: (mid ++ [t]) ↔ n ∈ s0 :: (mid ++ [t])) := by
    intro n h1 h2
    simp [h1, h2]
  have hcarry : ∀ n : Nat, n ≠ a → n ≠ s0 → (Carries d (a :: (mid ++ [t])) n ↔ Carries d (s0 :: (mid ++ [t])) n) := by
    intro n h1 h2
    unfold Carries
    cases d.kind n with
    | input => simp [Ne.symm h1, Ne.symm h2]
    | output => simp only [hlast]
    | link => exact hmem n h1 h2
    | other => exact Iff.rfl
  have hcc : ∀ u n : Nat, d.kind n = .input → (Carries d (u :: (mid ++ [t])) n ↔ u = n) := by
    intro u n hn
    unfold Carries
    rw [hn]
    simp
  have hbr : ∀ s ∈ d.storages, brings s (a :: (mid ++ [t])) - brings s (s0 :: (mid ++ [t])) = (if s0 ∈ s.inputs then 1 else 0) - (if a ∈ s.inputs then 1 else 0) := by
    intro s _
    have e : ∀ u : Nat, (∃ n ∈ s.inputs, (u :: (mid ++ [t])).head? = some n) ↔ u ∈ s.inputs := by
      intro u; simp
    unfold brings
    have eh : (if ∃ n ∈ s.outputs, (a :: (mid ++ [t])).getLast? = some n then (1 : Rat) else 0) = if ∃ n ∈ s.outputs, (s0 :: (mid ++ [t])).getLast? = some n then 1 else 0 :=
      if_congr (by rw [hlast, hlast]) rfl rfl
    rw [if_congr (e a) rfl rfl, if_congr (e s0) rfl rfl, eh]
    ring
  have hdiff : ∀ (p : List Nat → Prop), (p (a :: (mid ++ [t])) ↔ p (s0 :: (mid ++ [t]))) → ¬ (Change.mk (some (a :: (mid ++ [t]))) (some (s0 :: (mid ++ [t])))).Differ p := by
    intro p hp
    unfold Change.Differ
    rw [not_not]
    simpa using hp
  cases h with
  | most n hn hc h =>
    rw [of_both] at hc
    by_cases hna : n = a
    · rw [hna] at h; exact .inl h
    · exfalso
      by_cases hnt : n = s0
      · rw [hnt, if_neg (by rw [hcc a s0 hb]; exact hab), if_pos ((hcc s0 s0 hb).2 rfl)] at hc
        linarith
      · rw [if_congr (hcarry n hna hnt) rfl rfl, sub_self] at hc
        exact lt_irrefl _ hc
  | least n hn hc h =>
    rw [of_both] at hc
    by_cases hnt : n = s0
    · rw [hnt] at h; exact .inr (.inl h)
    · exfalso
      by_cases hna : n = a
      · rw [hna, if_pos ((hcc a a ha).2 rfl), if_neg (by rw [hcc s0 a ha]; exact Ne.symm hab)] at hc
        linarith
      · rw [if_congr (hcarry n hna hnt) rfl rfl, sub_self] at hc
        exact lt_irrefl _ hc
  | full s hs' hc h =>
    rw [of_both, hbr s hs'] at hc
    refine .inr (.inr (.inr ⟨s, hs', ?_, ?_, h⟩))
    · by_contra hno; rw [if_neg hno] at hc; split_ifs at hc <;> linarith
    · intro hno; rw [if_pos hno] at hc; split_ifs at hc <;> linarith
  | empty s hs' hc h =>
    rw [of_both, hbr s hs'] at hc
    refine .inr (.inr (.inl ⟨s, hs', ?_, ?_, h⟩))
    · by_contra hno; rw [if_neg hno] at hc; split_ifs at hc <;> linarith
    · intro hno; rw [if_pos hno] at hc; split_ifs at hc <;> linarith
  | virtual v hv ht =>
    obtain ⟨n, hn, hd⟩ := ht
    exact absurd hd (hdiff _ (hmem n (fun e => fa.virtuals v hv (e ▸ hn)) fun e => fb.virtuals v hv (e ▸ hn)))
  | group v hv ht =>
    obtain ⟨n, hn, hd⟩ := ht
    exact absurd hd (hdiff _ (hmem n (fun e => fa.aggs v hv (e ▸ hn)) fun e => fb.aggs v hv (e ▸ hn)))
  | ratio v hv _ ht =>
    obtain ⟨n, hn, hd⟩ := ht
    exact absurd hd (hdiff _ (hmem n (fun e => fa.aggs v hv (e ▸ hn)) fun e => fb.aggs v hv (e ▸ hn)))
  | border b' hb' ht =>
    rcases ht with hd | ⟨i, hi, hd⟩
    · refine absurd hd (hdiff _ ?_)
      simp only [hlast]
    · refine absurd hd (hdiff _ ?_)
      simp only [List.head?_cons, Option.some.injEq]
      exact ⟨fun e => absurd e ((fa.cross b' hb').2 i hi), fun e => absurd e ((fb.cross b' hb').2 i hi)⟩

/-! ## The edge solver -/

private theorem optimal_route {d : Data} {g : Graph} {routes : List (List Nat)} (hC : ComparableDomains d g routes) (hR : ∃ rows, routeRows d routes = .ok rows)
    (hcost : ∀ r ∈ routes, |routeCost d r| < e8 → routeCost d r = 0) {y : List Rat} (hy : EdgeOptimal d g y) (h0 : Idle g y) :
    ∃ x, Optimal d routes x ∧ ∀ n ∈ d.nodes, d.kind n ≠ .other → routeNodeFlow d routes x n = edgeNodeFlow d g y n := by
  obtain ⟨x, hx, hf⟩ := C24_domains_edge_to_route_partial d g routes hC hR y hy.1 h0
  refine ⟨x, ⟨hx, fun x' hx' => ?_⟩, hf⟩
  obtain ⟨rows, hrows, -⟩ := hy.1
  obtain ⟨y', hy', h0', hf'⟩ := C24_domains_route_to_edge_partial d g routes hC ⟨rows, hrows⟩ x' hx'
  rw [← C24_domains_objective d g routes hC hcost x hx y h0 fun n hn hk => (hf n hn hk).symm, ← C24_domains_objective d g routes hC hcost x' hx' y' h0' hf']
  exact hy.2 y' hy'

private theorem ends {d : Data} {g : Graph} {routes : List (List Nat)} (hC : ComparableDomains d g routes) {y : List Rat} (hy : EdgeFeasible d g y) :
    ∀ e ∈ g.within, (d.kind e.1 = .input ∨ d.kind e.1 = .link) ∧ (d.kind e.2 = .link ∨ d.kind e.2 = .output) := by
  obtain ⟨rows, hrows, -⟩ := hy
  obtain ⟨rows', hrows'⟩ := (setup_inner d g).1 ⟨rows, hrows⟩
  exact edge_ends (inner_one hC.connects) hrows'

private theorem storageFlow_same {d : Data} {g : Graph} {routes : List (List Nat)} (hC : ComparableDomains d g routes) {x y : List Rat}
    (hf : ∀ n ∈ d.nodes, d.kind n ≠ .other → routeNodeFlow d routes x n = edgeNodeFlow d g y n) {s : StorageData} (hs : s ∈ d.storages) :
    storageFlow (routeNodeFlow d routes x) s = storageFlow (edgeNodeFlow d g y) s := by
  obtain ⟨-, -, h1, h2⟩ := hC.storages s hs
  unfold storageFlow
  rw [List.map_congr_left fun n hn => hf n (h1 n hn).1 (by rw [(h1 n hn).2]; simp), List.map_congr_left fun n hn => hf n (h2 n hn).1 (by rw [(h2 n hn).2]; simp)]

/-- **C108 (demands, edge solver).** The same for the edge solver: what has to be connected to `a` is everything that is connected to `b`. Missing: models outside `ComparableDomains`. -/
theorem C108_demand_edge_partial (d : Data) (g : Graph) (routes : List (List Nat)) (hs : Sound d routes) (hC : ComparableDomains d g routes) (hR : ∃ rows, routeRows d routes = .ok rows)
    (hcost : ∀ r ∈ routes, |routeCost d r| < e8 → routeCost d r = 0) (y : List Rat) (hy : EdgeOptimal d g y) (h0 : Idle g y)
    (a b : Nat) (ha : a ∈ d.nodes ∧ d.kind a = .output) (hb : b ∈ d.nodes ∧ d.kind b = .output)
    (fa : Free d a) (fb : Free d b) (hsame : ∀ m, (m, b) ∈ g.within → (m, a) ∈ g.within) (hc : d.cost a + 2 / 100000000 ≤ d.cost b) (hflow : 0 < edgeNodeFlow d g y b) :
    NoMore (d.minFlow a) (d.maxFlow a) (edgeNodeFlow d g y a) ∨ NoLess (d.minFlow b) (d.maxFlow b) (edgeNodeFlow d g y b) ∨
    (∃ s ∈ d.storages, a ∈ s.outputs ∧ b ∉ s.outputs ∧ Full s.volume s.mx s.mn (storageFlow (edgeNodeFlow d g y) s) d.days) ∨
    (∃ s ∈ d.storages, b ∈ s.outputs ∧ a ∉ s.outputs ∧ Empty s.volume s.mx s.mn (storageFlow (edgeNodeFlow d g y) s) d.days) := by
  obtain ⟨x, hx, hf⟩ := optimal_route hC hR hcost hy h0
  have hends := ends hC hy.1
  have hroutes := (alike_domains hC).exact.2
  have ea := hf a ha.1 (by rw [ha.2]; simp)
  have eb := hf b hb.1 (by rw [hb.2]; simp)
  have h := C108_demand d routes hs x hx a b ha.2 hb.2 fa fb (by
    intro p hp
    rw [hroutes] at hp ⊢
    obtain ⟨h1, h2, ⟨s, h3, h4⟩, t, h5, h6⟩ := hp
    have h2' : (p ++ [b]).IsChain (fun a b => (a, b) ∈ g.within) := h2
    rw [List.isChain_append] at h2'
    have hpne : p ≠ [] := by
      rintro rfl
      simp only [List.nil_append, List.head?_cons, Option.some.injEq] at h3
      rw [← h3, hb.2] at h4
      cases h4
    have hnode : a ∉ p := by
      intro hm
      obtain ⟨l1, l2, rfl⟩ := List.append_of_mem hm
      have : ∃ c l, l2 ++ [b] = c :: l := by cases l2 <;> simp
      obtain ⟨c, l, hcl⟩ := this
      rw [List.append_assoc, List.cons_append, hcl, List.isChain_append] at h2
      have := h2.2.1
      rw [List.isChain_cons_cons] at this
      have := (hends _ this.1).1
      rw [ha.2] at this
      rcases this with h | h <;> cases h
    refine ⟨?_, ?_, ⟨s, ?_, h4⟩, a, by simp, ha.2⟩
    · rw [List.nodup_append] at h1 ⊢
      exact ⟨h1.1, by simp, fun u hu v hv => by rw [List.mem_singleton.1 hv]; rintro rfl; exact hnode hu⟩
    · show (p ++ [a]).IsChain (fun a b => (a, b) ∈ g.within)
      rw [List.isChain_append]
      refine ⟨h2'.1, List.isChain_singleton _, fun u hu v hv => ?_⟩
      obtain rfl : a = v := by simpa using hv
      exact hsame u (h2'.2.2 u hu b (by simp))
    · cases p with
      | nil => exact absurd rfl hpne
      | cons q p => simpa using h3) hc (by rw [eb]; exact hflow)
  rw [ea, eb] at h
  refine h.imp_right (Or.imp_right (Or.imp ?_ ?_))
  · rintro ⟨s, h1, h2, h3, h4⟩
    exact ⟨s, h1, h2, h3, by rw [← storageFlow_same hC hf h1]; exact h4⟩
  · rintro ⟨s, h1, h2, h3, h4⟩
    exact ⟨s, h1, h2, h3, by rw [← storageFlow_same hC hf h1]; exact h4⟩

/-- **C108 (supplies, edge solver).** The same for the edge solver: `a` has to be connected to everything that `b` is connected to. Missing: models outside `ComparableDomains`. -/
theorem C108_supply_edge_partial (d : Data) (g : Graph) (routes : List (List Nat)) (hs : Sound d routes) (hC : ComparableDomains d g routes) (hR : ∃ rows, routeRows d routes = .ok rows)
    (hcost : ∀ r ∈ routes, |routeCost d r| < e8 → routeCost d r = 0) (y : List Rat) (hy : EdgeOptimal d g y) (h0 : Idle g y)
    (a b : Nat) (ha : a ∈ d.nodes ∧ d.kind a = .input) (hb : b ∈ d.nodes ∧ d.kind b = .input)
    (fa : Free d a) (fb : Free d b) (hsame : ∀ m, (b, m) ∈ g.within → (a, m) ∈ g.within) (hc : d.cost a + 2 / 100000000 ≤ d.cost b) (hflow : 0 < edgeNodeFlow d g y b) :
    NoMore (d.minFlow a) (d.maxFlow a) (edgeNodeFlow d g y a) ∨ NoLess (d.minFlow b) (d.maxFlow b) (edgeNodeFlow d g y b) ∨
    (∃ s ∈ d.storages, a ∈ s.inputs ∧ b ∉ s.inputs ∧ Empty s.volume s.mx s.mn (storageFlow (edgeNodeFlow d g y) s) d.days) ∨
    (∃ s ∈ d.storages, b ∈ s.inputs ∧ a ∉ s.inputs ∧ Full s.volume s.mx s.mn (storageFlow (edgeNodeFlow d g y) s) d.days) := by
  obtain ⟨x, hx, hf⟩ := optimal_route hC hR hcost hy h0
  have hends := ends hC hy.1
  have hroutes := (alike_domains hC).exact.2
  have ea := hf a ha.1 (by rw [ha.2]; simp)
  have eb := hf b hb.1 (by rw [hb.2]; simp)
  have h := C108_supply d routes hs x hx a b ha.2 hb.2 fa fb (by
    intro p hp
    rw [hroutes] at hp ⊢
    obtain ⟨h1, h2, -, t, h5, h6⟩ := hp
    cases p with
    | nil =>
      exfalso
      simp only [List.getLast?_singleton, Option.some.injEq] at h5
      rw [← h5, hb.2] at h6
      cases h6
    | cons c p =>
      have h2' : (b :: c :: p).IsChain (fun a b => (a, b) ∈ g.within) := h2
      rw [List.isChain_cons_cons] at h2'
      have hnode : a ∉ c :: p := by
        intro hm
        obtain ⟨l1, l2, hl⟩ := List.append_of_mem hm
        rw [show b :: c :: p = (b :: l1) ++ a :: l2 by rw [hl]; rfl, List.isChain_append] at h2
        have hl : ∃ u, (b :: l1).getLast? = some u := ⟨(b :: l1).getLast (by simp), List.getLast?_eq_some_getLast (by simp)⟩
        obtain ⟨u, hu⟩ := hl
        have := (hends _ (h2.2.2 u hu a (by simp))).2
        rw [ha.2] at this
        rcases this with h | h <;> cases h
      refine ⟨?_, ?_, ⟨a, rfl, ha.2⟩, t, ?_, h6⟩
      · exact List.nodup_cons.2 ⟨hnode, (List.nodup_cons.1 h1).2⟩
      · show (a :: c :: p).IsChain (fun a b => (a, b) ∈ g.within)
        rw [List.isChain_cons_cons]
        exact ⟨hsame c h2'.1, h2'.2⟩
      · simpa using h5) hc (by rw [eb]; exact hflow)
  rw [ea, eb] at h
  refine h.imp_right (Or.imp_right (Or.imp ?_ ?_))
  · rintro ⟨s, h1, h2, h3, h4⟩
    exact ⟨s, h1, h2, h3, by rw [← storageFlow_same hC hf h1]; exact h4⟩
  · rintro ⟨s, h1, h2, h3, h4⟩
    exact ⟨s, h1, h2, h3, by rw [← storageFlow_same hC hf h1]; exact h4⟩

/-! ## Instance: two supplies, two demands and a compensation flow around one link -/

/-- Supplies 0 (up to 7, cost 1) and 4 (up to 9, cost 3); demands 2 (up to 6, cost -10) and 3 (up to 5, cost -5); at least 1 to 5. -/
private def sample : Data where
  kind := fun n => match n with | 0 => .input | 1 => .link | 2 => .output | 3 => .output | 4 => .input | 5 => .output | _ => .other
  nodes := [0, 1, 2, 3, 4, 5]
  minFlow := fun n => if n = 5 then .fin 1 else .fin 0
  maxFlow := fun n => match n with | 0 => .fin 7 | 2 => .fin 6 | 3 => .fin 5 | 4 => .fin 9 | _ => .posInf
  cost := fun n => match n with | 0 => 1 | 2 => -10 | 3 => -5 | 4 => 3 | _ => 0
  storages := []
  virtuals := []
  aggs := []
  cross := []
  days := 1

private def sampleGraph : Graph := ⟨[(0, 1), (4, 1), (1, 2), (1, 3), (1, 5)], fun _ => 0⟩

private def sampleRoutes : List (List Nat) := [[0, 1, 2], [0, 1, 3], [0, 1, 5], [4, 1, 2], [4, 1, 3], [4, 1, 5]]

private def sampleInfo : Routes.NodeInfo := ⟨fun n => toString n, fun n => toString n, fun _ => 0⟩

private theorem sample_routes : Routes.findAllRoutes ⟨sample.nodes, sampleGraph.edges⟩ sampleInfo (.cls fun n => sample.kind n == .input)
    (.cls fun n => sample.kind n == .output) (some fun n => sample.kind n != .other) none .strict = .ok sampleRoutes := by
  have h1 : sample.nodes.mergeSort (fun a b => decide (sampleInfo.name a ≤ sampleInfo.name b)) = sample.nodes :=
    List.mergeSort_of_pairwise (by decide +kernel)
  have h2 : sampleRoutes.mergeSort (fun a b => decide (a.map sampleInfo.fqn ≤ b.map sampleInfo.fqn)) = sampleRoutes :=
    List.mergeSort_of_pairwise (by decide +kernel)
  have h3 : Routes.filterM (Routes.routeOk sampleInfo (some fun n => sample.kind n != .other) none .strict)
      ((sample.nodes.filter fun n => sample.kind n == .input).flatMap fun s =>
        (sample.nodes.filter fun n => sample.kind n == .output).flatMap fun t =>
          Digraph.allSimplePaths ⟨sample.nodes, sampleGraph.edges⟩ s t none) = .ok sampleRoutes := by decide +kernel
  unfold Routes.findAllRoutes Routes.candidatePaths Routes.selectNodes
  simp only [h1, h3, h2]

private theorem sample_comparable : ComparableDomains sample sampleGraph sampleRoutes := by
  refine ⟨by unfold Connects; decide +kernel, by decide, by decide, by decide +kernel, ⟨_, rfl, sample_routes⟩, by decide +kernel, ?_, by decide +kernel, by decide +kernel⟩
  rintro ⟨u, hu⟩
  have key : ∀ a b, (a, b) ∈ sampleGraph.within → (if a = 4 then 0 else a) < (if b = 4 then 0 else b) := by
    intro a b h
    simp [sampleGraph, Graph.within] at h
    rcases h with ⟨rfl, rfl⟩ | ⟨rfl, rfl⟩ | ⟨rfl, rfl⟩ | ⟨rfl, rfl⟩ | ⟨rfl, rfl⟩ <;> simp
  have : ∀ a b, Relation.TransGen (Digraph.Edge ⟨sample.nodes, sampleGraph.within⟩) a b →
      (if a = 4 then 0 else a) < (if b = 4 then 0 else b) := by
    intro a b h
    induction h with
    | single h => exact key _ _ h
    | tail _ h ih => exact lt_trans ih (key _ _ h)
  exact lt_irrefl _ (this u u hu)

private theorem ordinary (q : Rat) (h0 : 0 ≤ q) (h1 : q ≤ 9) : OrdinaryDouble q := by
  have : (10 : Rat) < dblMax := (by decide +kernel)
  constructor <;> linarith

private theorem sample_sound : Sound sample sampleRoutes := by
  have l0 : LowerLimit (.fin 0) := .inr ⟨0, rfl, ordinary 0 (by norm_num) (by norm_num)⟩
  have l1 : LowerLimit (.fin 1) := .inr ⟨1, rfl, ordinary 1 (by norm_num) (by norm_num)⟩
  refine ⟨by decide +kernel, ?_, (fun _ h => nomatch h), (fun _ h => nomatch h), (fun _ h => nomatch h), by decide +kernel⟩
  intro n hn
  simp only [sample, List.mem_cons, List.not_mem_nil, or_false] at hn
  rcases hn with rfl | rfl | rfl | rfl | rfl | rfl
  · exact ⟨l0, .inr ⟨7, rfl, ordinary 7 (by norm_num) (by norm_num)⟩⟩
  · exact ⟨l0, .inl rfl⟩
  · exact ⟨l0, .inr ⟨6, rfl, ordinary 6 (by norm_num) (by norm_num)⟩⟩
  · exact ⟨l0, .inr ⟨5, rfl, ordinary 5 (by norm_num) (by norm_num)⟩⟩
  · exact ⟨l0, .inr ⟨9, rfl, ordinary 9 (by norm_num) (by norm_num)⟩⟩
  · exact ⟨l1, .inl rfl⟩

/-- The dearer supply gives 5 although it could give 9, and the lesser demand gets its 5 as the greater one has its 6. -/
private theorem sample_optimal : Optimal sample sampleRoutes [6, 0, 1, 0, 5, 0] := by
  refine ⟨by decide +kernel, fun x hx => ?_⟩
  have lim : ∀ n ∈ sample.nodes, sample.kind n ≠ .other → Limited (sample.minFlow n) (sample.maxFlow n) (routeNodeFlow sample sampleRoutes x n) := fun n hn hk =>
    C22_route _ _ sample_sound.routed x hx n hn hk (sample_sound.limits n hn).1 (sample_sound.limits n hn).2
  have b0 := (C22_between 0 7 _ (by norm_num) (lim 0 (by decide) (by decide))).2
  have b2 := (C22_between 0 6 _ (by norm_num) (lim 2 (by decide) (by decide))).2
  have b3 := (C22_between 0 5 _ (by norm_num) (lim 3 (by decide) (by decide))).2
  have b5 := lim 5 (by decide) (by decide)
  have e : ∀ q ∈ [(1 : Rat), 5, 6, 7], (F.fin q).effective = .fin q := by decide +kernel
  have ep : (F.posInf).effective = .posInf := by decide +kernel
  rw [e 7 (by simp)] at b0
  rw [e 6 (by simp)] at b2
  rw [e 5 (by simp)] at b3
  have b5' : 1 ≤ routeNodeFlow sample sampleRoutes x 5 := by
    have h1 : sample.minFlow 5 = .fin 1 := rfl
    unfold Limited at b5
    rw [h1, e 1 (by simp)] at b5
    rcases b5 with ⟨h, -⟩ | ⟨-, h⟩
    · simpa [F.AtLeast] using h
    · exact le_of_eq (by simpa using h)
  obtain ⟨-, -, hlen, -, -⟩ := hx
  match x, hlen with
  | [a, b, c, p, q, r], _ =>
    have o : ∀ a b c p q r : Rat, routeObjective sample sampleRoutes [a, b, c, p, q, r] = -9 * a - 4 * b + c - 7 * p - 2 * q + 3 * r := by
      intro a b c p q r
      have k : sampleRoutes.map (fun r => roundCost (routeCost sample r)) = [-9, -4, 1, -7, -2, 3] := by decide +kernel
      simp only [sampleRoutes, List.map_cons, List.map_nil, List.cons.injEq, and_true] at k
      obtain ⟨k1, k2, k3, k4, k5, k6⟩ := k
      rw [objective_S]
      simp [S, sampleRoutes, k1, k2, k3, k4, k5, k6]
      ring
    have f : ∀ n, routeNodeFlow sample sampleRoutes [a, b, c, p, q, r] n =
        nodeCoef sample [0, 1, 2] n * a + nodeCoef sample [0, 1, 3] n * b + nodeCoef sample [0, 1, 5] n * c +
        nodeCoef sample [4, 1, 2] n * p + nodeCoef sample [4, 1, 3] n * q + nodeCoef sample [4, 1, 5] n * r := by
      intro n
      rw [routeNodeFlow_eq_S]
      simp [S, sampleRoutes]
      ring
    have k : ∀ n ∈ [0, 2, 3, 5], sampleRoutes.map (nodeCoef sample · n) =
        if n = 0 then [1, 1, 1, 0, 0, 0] else if n = 2 then [1, 0, 0, 1, 0, 0] else if n = 3 then [0, 1, 0, 0, 1, 0] else [0, 0, 1, 0, 0, 1] := by decide +kernel
    simp only [sampleRoutes, List.map_cons, List.map_nil] at k
    have k0 := k 0 (by simp)
    have k2 := k 2 (by simp)
    have k3 := k 3 (by simp)
    have k5 := k 5 (by simp)
    simp at k0 k2 k3 k5
    simp only [F.AtMost] at b0 b2 b3
    rw [f] at b0 b2 b3 b5'
    simp only [k0, k2, k3, k5] at b0 b2 b3 b5'
    rw [o, o]
    linarith

example : Sound sample sampleRoutes ∧ Optimal sample sampleRoutes [6, 0, 1, 0, 5, 0] ∧ Free sample 2 ∧ Free sample 3 ∧ Free sample 0 ∧ Free sample 4 ∧
    (∀ p, p ++ [3] ∈ sampleRoutes → p ++ [2] ∈ sampleRoutes) ∧ (∀ p, 4 :: p ∈ sampleRoutes → 0 :: p ∈ sampleRoutes) ∧
    sample.cost 2 + 2 / 100000000 ≤ sample.cost 3 ∧ sample.cost 0 + 2 / 100000000 ≤ sample.cost 4 ∧
    routeNodeFlow sample sampleRoutes [6, 0, 1, 0, 5, 0] 3 = 5 ∧ routeNodeFlow sample sampleRoutes [6, 0, 1, 0, 5, 0] 4 = 5 ∧
    unitCost sample [0, 1, 2] = -9 ∧ unitCost sample [0, 1, 5] = 1 := by
  have free : ∀ n, Free sample n := fun n => ⟨fun _ h => (nomatch h), fun _ h => (nomatch h), fun _ h => (nomatch h)⟩
  refine ⟨sample_sound, sample_optimal, free _, free _, free _, free _, ?_, ?_, by decide +kernel, by decide +kernel, by decide +kernel, by decide +kernel, by decide +kernel, by decide +kernel⟩
  · intro p hp
    have : ∀ r ∈ sampleRoutes, r.getLast? = some 3 → r.dropLast ++ [2] ∈ sampleRoutes := by decide +kernel
    simpa using this _ hp (by simp)
  · intro p hp
    have : ∀ r ∈ sampleRoutes, r.head? = some 4 → 0 :: r.tail ∈ sampleRoutes := by decide +kernel
    simpa using this _ hp (by simp)

example : ComparableDomains sample sampleGraph sampleRoutes ∧ (∃ rows, routeRows sample sampleRoutes = .ok rows) ∧ (∀ r ∈ sampleRoutes, |routeCost sample r| < e8 → routeCost sample r = 0) ∧
    EdgeOptimal sample sampleGraph [7, 5, 6, 5, 1] ∧ Idle sampleGraph [7, 5, 6, 5, 1] ∧ (∀ m, (m, 3) ∈ sampleGraph.within → (m, 2) ∈ sampleGraph.within) ∧
    (∀ m, (4, m) ∈ sampleGraph.within → (0, m) ∈ sampleGraph.within) ∧ edgeNodeFlow sample sampleGraph [7, 5, 6, 5, 1] 3 = 5 ∧ edgeNodeFlow sample sampleGraph [7, 5, 6, 5, 1] 4 = 5 := by
  have hc : ∀ r ∈ sampleRoutes, |routeCost sample r| < e8 → routeCost sample r = 0 := by decide +kernel
  have hf : EdgeFeasible sample sampleGraph [7, 5, 6, 5, 1] := by decide +kernel
  have hr : ∃ rows, routeRows sample sampleRoutes = .ok rows := by
    obtain ⟨rows, h, -⟩ := sample_optimal.1
    exact ⟨rows, h⟩
  have he : ∃ rows, edgeRows sample sampleGraph = .ok rows := by
    obtain ⟨rows, h, -⟩ := hf
    exact ⟨rows, h⟩
  have h := ((C24_domains_same_optimum_partial _ _ _ sample_comparable he hr hc _).1 ⟨⟨_, sample_optimal.1, rfl⟩, sample_optimal.2⟩).2
  refine ⟨sample_comparable, hr, hc, ⟨hf, fun z hz => le_trans (le_of_eq (by decide +kernel)) (h z hz)⟩, by unfold Idle; decide +kernel, ?_, ?_, by decide +kernel, by decide +kernel⟩
  · intro m hm
    simp [sampleGraph, Graph.within] at hm ⊢
    exact hm
  · intro m hm
    simp [sampleGraph, Graph.within] at hm ⊢
    exact hm

/-- A supply of 5 and two demands of up to 5, of costs -9e-9 and 0. -/
def smallCosts : Data where
  kind := fun n => match n with | 0 => .input | 1 => .output | 2 => .output | _ => .other
  nodes := [0, 1, 2]
  minFlow := fun _ => .fin 0
  maxFlow := fun _ => .fin 5
  cost := fun n => if n = 1 then -9 / 1000000000 else 0
  storages := []
  virtuals := []
  aggs := []
  cross := []
  days := 1

/-- **C108 fails** for costs that are very close: the route solver treats costs of routes below 1e-8 as zero, so that it may give all water to the demand of higher cost. -/
theorem C108_small_fails : Sound smallCosts [[0, 1], [0, 2]] ∧ Optimal smallCosts [[0, 1], [0, 2]] [0, 5] ∧ smallCosts.cost 1 < smallCosts.cost 2 ∧
    routeNodeFlow smallCosts [[0, 1], [0, 2]] [0, 5] 1 = 0 ∧ routeNodeFlow smallCosts [[0, 1], [0, 2]] [0, 5] 2 = 5 ∧ smallCosts.maxFlow 1 = .fin 5 ∧
    smallCosts.minFlow 2 = .fin 0 := by
  refine ⟨⟨by decide +kernel, fun n _ => ⟨?_, ?_⟩, by simp [smallCosts], by simp [smallCosts], by simp [smallCosts], by decide +kernel⟩, ⟨by decide +kernel, fun x' _ => ?_⟩, by decide +kernel,
    by decide +kernel, by decide +kernel, rfl, rfl⟩
  · exact .inr ⟨0, rfl, ordinary 0 (by norm_num) (by norm_num)⟩
  · exact .inr ⟨5, rfl, ordinary 5 (by norm_num) (by norm_num)⟩
  · have c1 : roundCost (routeCost smallCosts [0, 1]) = 0 := by decide +kernel
    have c2 : roundCost (routeCost smallCosts [0, 2]) = 0 := by decide +kernel
    have h0 : ∀ x, routeObjective smallCosts [[0, 1], [0, 2]] x = 0 := by
      intro x
      rw [objective_S]
      rcases x with _ | ⟨a, _ | ⟨b, l⟩⟩ <;> simp [S, c1, c2]
    rw [h0, h0]

end Verif.Priority

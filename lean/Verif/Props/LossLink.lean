import Verif.Spec.Composite
import Verif.Proof.Chain
import Verif.Props.RouteLp
import Verif.Props.EdgeLp
/-! # C28: loss links -/

namespace Verif.Composite

open Verif Verif.Lp Verif.Bounds

/-- A route passes the gross link iff it passes the net link or ends in the loss output, never both. -/
private theorem route_split {d : Data} {routes : List (List Nat)} {edges : List (Nat × Nat)} {gross net out : Nat} {s : LossState} {p : Rat}
    (hw : WellRouted d routes) (hf : Follow edges routes) (hl : HasLossLink d gross net out s p) (hwire : Wired edges gross net out)
    {r : List Nat} (hr : r ∈ routes) :
    (if Carries d r gross then (1 : Rat) else 0) = (if Carries d r net then 1 else 0) + (if Carries d r out then 1 else 0) := by
  obtain ⟨hnd, ⟨a, ha, hak⟩, ⟨z, hz, hzk⟩, -⟩ := hw r hr
  have hc := hf r hr
  have hnetout : net ≠ out := fun h => by have := hl.netNode.2; rw [h, hl.outNode.2] at this; cases this
  have cg : Carries d r gross ↔ gross ∈ r := by unfold Carries; rw [hl.grossNode.2]
  have cn : Carries d r net ↔ net ∈ r := by unfold Carries; rw [hl.netNode.2]
  have co : Carries d r out ↔ r.getLast? = some out := by unfold Carries; rw [hl.outNode.2]
  have head_ne : ∀ n, d.kind n ≠ .input → r.head? ≠ some n := fun n hn h => by rw [ha] at h; cases h; exact hn hak
  have pn : net ∈ r → ∃ i, ∃ h : i + 1 < r.length, r[i + 1] = net ∧ r[i] = gross := by
    intro h
    obtain ⟨i, hi, e, he⟩ := pred_index hc h (head_ne _ (by rw [hl.netNode.2]; simp))
    exact ⟨i, hi, e, (hwire _ he).2.1 rfl⟩
  have po : out ∈ r → ∃ i, ∃ h : i + 1 < r.length, r[i + 1] = out ∧ r[i] = gross := by
    intro h
    obtain ⟨i, hi, e, he⟩ := pred_index hc h (head_ne _ (by rw [hl.outNode.2]; simp))
    exact ⟨i, hi, e, (hwire _ he).2.2.1 rfl⟩
  have olast : out ∈ r → r.getLast? = some out := by
    intro h
    by_contra hlast
    obtain ⟨i, hi, e, he⟩ := succ_index hc h hlast
    exact (hwire _ he).2.2.2 rfl
  have sg : gross ∈ r → net ∈ r ∨ out ∈ r := by
    intro h
    have : r.getLast? ≠ some gross := fun h' => by
      rw [hz] at h'; cases h'; rw [hl.grossNode.2] at hzk; cases hzk
    obtain ⟨i, hi, e, he⟩ := succ_index hc h this
    rcases (hwire _ he).1 rfl with h | h
    · exact .inl (by simp only at h; rw [← h]; exact List.getElem_mem hi)
    · exact .inr (by simp only at h; rw [← h]; exact List.getElem_mem hi)
  have excl : net ∈ r → out ∈ r → False := by
    intro h1 h2
    obtain ⟨i, hi, e1, e2⟩ := pn h1
    obtain ⟨j, hj, e3, e4⟩ := po h2
    have : i = j := (List.getElem_inj hnd).1 (e2.trans e4.symm)
    subst this
    exact hnetout (e1.symm.trans e3)
  rw [if_congr cg rfl rfl, if_congr cn rfl rfl, if_congr co rfl rfl]
  by_cases hn : net ∈ r
  · have hg : gross ∈ r := by obtain ⟨i, hi, -, e⟩ := pn hn; rw [← e]; exact List.getElem_mem _
    have ho : r.getLast? ≠ some out := fun h => excl hn (List.mem_of_getLast? h)
    rw [if_pos hn, if_pos hg, if_neg ho]; norm_num
  · by_cases ho : out ∈ r
    · have hg : gross ∈ r := by obtain ⟨i, hi, -, e⟩ := po ho; rw [← e]; exact List.getElem_mem _
      rw [if_neg hn, if_pos hg, if_pos (olast ho)]; norm_num
    · have hg : gross ∉ r := fun h => (sg h).elim hn ho
      rw [if_neg hn, if_neg hg, if_neg (fun h => ho (List.mem_of_getLast? h))]; norm_num

private theorem limited_zero {a : F} {x : Rat} (h : Limited a (.fin 0) x) (hx : 0 ≤ x) : x = 0 := by
  have he : (F.fin 0).effective = .fin 0 := by
    unfold F.effective; simp only [abs_zero]; split <;> rfl
  unfold Limited at h
  rw [he] at h
  rcases h with ⟨-, h⟩ | ⟨hc, h⟩
  · exact le_antisymm h hx
  · cases a with
    | fin q =>
      unfold F.effective at h hc
      simp only at h hc
      by_cases hq : |q| < e8
      · rw [if_pos hq] at h; injection h with h; exact h.symm
      · rw [if_neg hq] at h hc
        injection h with h; subst h
        simp only [Close, sub_zero] at hc
        exact absurd hc hq
    | posInf => cases h
    | negInf => cases h
    | nan => cases h

/-- From the flows to the rule. -/
private theorem rule_core {d : Data} {gross net out : Nat} {s0 s : LossState} {f : Factor} {t : LossType} {p : Rat} {flow : Nat → Rat}
    (hs : s0.setup f t = .ok s) (hl : HasLossLink d gross net out s p)
    (hsplit : flow gross = flow net + flow out)
    (hlim : ∀ n, n = net ∨ n = out → d.maxFlow n = .fin 0 → flow n = 0)
    (hprop : ∀ a ∈ d.aggs, ∀ fs, a.factors = some fs → a.nodes = [net, out] → fs.length = 2 →
      ∃ c, ∀ q ∈ a.nodes.zip fs, q.2 ≠ 0 ∧ flow q.1 = c * q.2) :
    LossRule t (f.value p) (flow gross) (flow net) := by
  have hN := hlim net (.inl rfl)
  have hO := hlim out (.inr rfl)
  rw [hl.netMax] at hN
  rw [hl.outMax] at hO
  have hP : ∀ u v : Factor, s.factors = some [u, v] → ∃ c, u.value p ≠ 0 ∧ v.value p ≠ 0 ∧ flow net = c * u.value p ∧ flow out = c * v.value p := by
    intro u v huv
    obtain ⟨c, hc⟩ := hprop _ hl.agg [u.value p, v.value p] (by simp [LossState.agg, huv]) rfl rfl
    have h1 := hc (net, u.value p) (by simp [LossState.agg])
    have h2 := hc (out, v.value p) (by simp [LossState.agg])
    exact ⟨c, h1.1, h2.1, h1.2, h2.2⟩
  unfold LossState.setup at hs
  cases f with
  | number q =>
    simp only at hs
    split_ifs at hs with h0 h1
    · cases hs
      have := hO rfl
      rw [this, add_zero] at hsplit
      subst h0
      cases t <;> simp [LossRule, Factor.value, hsplit]
    · cases hs
      have := hN rfl
      obtain ⟨rfl, rfl⟩ := h1
      simp [LossRule, Factor.value, this]
    · cases t with
      | net =>
        cases hs
        obtain ⟨c, -, -, e1, e2⟩ := hP _ _ rfl
        simp only [Factor.value] at e1 e2
        simp only [LossRule, Factor.value]
        rw [hsplit, e1, e2]; ring
      | gross =>
        cases hs
        obtain ⟨c, -, -, e1, e2⟩ := hP _ _ rfl
        simp only [Factor.value] at e1 e2
        simp only [LossRule, Factor.value]
        rw [hsplit, e1, e2]; ring
      | unknown => cases hs
  | parameter =>
    cases t with
    | net =>
      cases hs
      obtain ⟨c, -, -, e1, e2⟩ := hP _ _ rfl
      simp only [Factor.value] at e1 e2
      simp only [LossRule, Factor.value]
      rw [hsplit, e1, e2]; ring
    | gross => cases hs
    | unknown => cases hs

private theorem ordinary_zero : OrdinaryDouble 0 := by
  have := dblMax_gt
  constructor <;> linarith

private theorem upper_zero : UpperLimit (.fin 0) := .inr ⟨0, rfl, ordinary_zero⟩

private theorem lower_zero : LowerLimit (.fin 0) := .inr ⟨0, rfl, ordinary_zero⟩

/-- **C28 (route solver).** In every solution the loss is the configured share: for type "net" the gross flow is the net flow times 1 + f, for type "gross"
the net flow is the gross flow times 1 - f; `f` may be any number, or a parameter with value `p`. -/
theorem C28_route (d : Data) (routes : List (List Nat)) (edges : List (Nat × Nat)) (gross net out : Nat) (s0 s : LossState) (f : Factor)
    (t : LossType) (p : Rat) (x : List Rat) (hs : s0.setup f t = .ok s) (hl : HasLossLink d gross net out s p)
    (hwire : Wired edges gross net out) (hf : Follow edges routes) (hw : WellRouted d routes) (hmin : LowerLimit (d.minFlow net))
    (hx : RouteFeasible d routes x) :
    LossRule t (f.value p) (routeNodeFlow d routes x gross) (routeNodeFlow d routes x net) := by
  have hx0 : ∀ v ∈ x, 0 ≤ v := by obtain ⟨-, -, -, h, -⟩ := hx; exact h
  have hpos : ∀ n, 0 ≤ routeNodeFlow d routes x n := fun n => by
    rw [routeNodeFlow_eq hw]; exact S_nonneg hx0 fun r _ => by split_ifs <;> norm_num
  refine rule_core hs hl ?_ ?_ ?_
  · rw [routeNodeFlow_eq hw, routeNodeFlow_eq hw, routeNodeFlow_eq hw, ← S_add]
    exact S_congr fun r hr => route_split hw hf hl hwire hr
  · intro n hn hm
    rcases hn with rfl | rfl
    · have := C22_route d routes hw x hx n hl.netNode.1 (by rw [hl.netNode.2]; simp) hmin (by rw [hm]; exact upper_zero)
      rw [hm] at this
      exact limited_zero this (hpos _)
    · have := C22_route d routes hw x hx n hl.outNode.1 (by rw [hl.outNode.2]; simp) (by rw [hl.outMin]; exact lower_zero) (by rw [hm]; exact upper_zero)
      rw [hm] at this
      exact limited_zero this (hpos _)
  · intro a ha fs hfs hn hlen
    refine C21_route_partial d routes hw x hx a ha fs hfs (by rw [hn, hlen]; rfl) ?_
    intro n hn'
    rw [hn] at hn'
    simp only [List.mem_cons, List.not_mem_nil, or_false] at hn'
    intro r hr hnr
    rcases hn' with rfl | rfl
    · unfold Carries; rw [hl.netNode.2]; exact hnr
    · unfold Carries; rw [hl.outNode.2]
      by_contra hlast
      obtain ⟨i, hi, e, he⟩ := succ_index (hf r hr) hnr hlast
      exact (hwire _ he).2.2.2 rfl

/-- **C28 (edge solver).** The same for the edge solver, in a model with one domain. -/
theorem C28_edge_partial (d : Data) (g : Graph) (gross net out : Nat) (s0 s : LossState) (f : Factor)
    (t : LossType) (p : Rat) (y : List Rat) (hs : s0.setup f t = .ok s) (hl : HasLossLink d gross net out s p)
    (hwire : Wired g.edges gross net out) (h1 : OneDomain d g) (hmin : LowerLimit (d.minFlow net)) (hy : EdgeFeasible d g y) :
    LossRule t (f.value p) (edgeNodeFlow d g y gross) (edgeNodeFlow d g y net) := by
  have hy0 : ∀ v ∈ y, 0 ≤ v := by obtain ⟨-, -, -, h, -⟩ := hy; exact h
  have hnetout : net ≠ out := fun h => by have := hl.netNode.2; rw [h, hl.outNode.2] at this; cases this
  have hnet : edgeNodeFlow d g y net = inFlow g y net := by
    rw [edgeNodeFlow_thru h1 hy hl.netNode.1 (by rw [hl.netNode.2]; simp), thru_other (by rw [hl.netNode.2]; simp),
      (edge_structure h1 hy).2.2 net hl.netNode.1 hl.netNode.2]
  have hout : edgeNodeFlow d g y out = inFlow g y out := by
    rw [edgeNodeFlow_thru h1 hy hl.outNode.1 (by rw [hl.outNode.2]; simp), thru_output hl.outNode.2]
  have hgross : edgeNodeFlow d g y gross = outFlow g y gross := by
    rw [edgeNodeFlow_thru h1 hy hl.grossNode.1 (by rw [hl.grossNode.2]; simp), thru_other (by rw [hl.grossNode.2]; simp)]
  refine rule_core hs hl ?_ ?_ ?_
  · rw [hgross, hnet, hout]
    unfold inFlow outFlow
    rw [← S_add]
    apply S_congr
    intro e he
    obtain ⟨w1, w2, w3, -⟩ := hwire e he
    by_cases h : e.1 = gross
    · rcases w1 h with h' | h'
      · rw [if_pos h, if_pos h', if_neg (by rw [h']; exact hnetout)]; norm_num
      · rw [if_pos h, if_pos h', if_neg (by rw [h']; exact hnetout.symm)]; norm_num
    · rw [if_neg h, if_neg (fun h' => h (w2 h')), if_neg (fun h' => h (w3 h'))]; norm_num
  · intro n hn hm
    rcases hn with rfl | rfl
    · have := C22_edge_partial d g h1 y hy n hl.netNode.1 (by rw [hl.netNode.2]; simp) hmin (by rw [hm]; exact upper_zero)
      rw [hm] at this
      exact limited_zero this (by rw [hnet]; exact S_nonneg hy0 fun r _ => by split_ifs <;> norm_num)
    · have := C22_edge_partial d g h1 y hy n hl.outNode.1 (by rw [hl.outNode.2]; simp) (by rw [hl.outMin]; exact lower_zero)
        (by rw [hm]; exact upper_zero)
      rw [hm] at this
      exact limited_zero this (by rw [hout]; exact S_nonneg hy0 fun r _ => by split_ifs <;> norm_num)
  · intro a ha fs hfs hn hlen
    refine C21_edge_partial d g h1 y hy a ha ?_ fs hfs (by rw [hn, hlen]; rfl)
    intro n hn'
    rw [hn] at hn'
    simp only [List.mem_cons, List.not_mem_nil, or_false] at hn'
    rcases hn' with rfl | rfl
    · exact ⟨hl.netNode.1, by rw [hl.netNode.2]; simp⟩
    · exact ⟨hl.outNode.1, by rw [hl.outNode.2]; simp⟩

/-- A small network: input 0, gross 1, net 2, loss output 3, demand 4; loss factor from `s`. -/
def lossModel (s : LossState) (p : Rat) : Data :=
  ⟨fun n => match n with | 0 => .input | 1 => .link | 2 => .link | 3 => .output | 4 => .output | _ => .other, [0, 1, 2, 3, 4],
    fun _ => .fin 0, fun n => if n = 3 then s.outputMax else if n = 2 then s.netMax else .posInf, fun _ => 0, [], [], [s.agg 2 3 p], [], 1⟩

/-- The hypotheses of `C28_route` are met: 25 % net loss, 8 units of net flow, 10 units of gross flow. -/
example : ∃ (s : LossState) (x : List Rat), LossState.setup ⟨none, .posInf, .posInf⟩ (.number (1 / 4)) .net = .ok s ∧
    HasLossLink (lossModel s 0) 1 2 3 s 0 ∧ Wired [(0, 1), (1, 3), (1, 2), (2, 4)] 1 2 3 ∧
    Follow [(0, 1), (1, 3), (1, 2), (2, 4)] [[0, 1, 2, 4], [0, 1, 3]] ∧ WellRouted (lossModel s 0) [[0, 1, 2, 4], [0, 1, 3]] ∧
    RouteFeasible (lossModel s 0) [[0, 1, 2, 4], [0, 1, 3]] x ∧ routeNodeFlow (lossModel s 0) [[0, 1, 2, 4], [0, 1, 3]] x 1 = 10 := by
  refine ⟨⟨some [.number 1, .number (1 / 4)], .posInf, .posInf⟩, [8, 2], ?_, ?_, ?_, ?_, by decide +kernel, ?_, by decide +kernel⟩
  · simp only [LossState.setup]; rw [if_neg (by norm_num), if_neg (by norm_num)]
  · exact ⟨by decide +kernel, by decide +kernel, by decide +kernel, by decide, by simp [lossModel], rfl, rfl, rfl⟩
  · unfold Wired; decide +kernel
  · unfold Follow; decide +kernel
  · decide +kernel

/-- **C28 fails** for a loss factor given as a parameter in a timestep in which its value is 0 (documented: "If zero then no-losses are calculated"): the
solver divides by the factor, so no solution is computed, whatever the network. -/
theorem C28_zero_parameter_fails (s0 s : LossState) (hs : s0.setup .parameter .net = .ok s) (d : Data) (gross net out : Nat)
    (hl : HasLossLink d gross net out s 0) (routes : List (List Nat)) (g : Graph) :
    (∀ x, ¬ RouteFeasible d routes x) ∧ ∀ y, ¬ EdgeFeasible d g y := by
  cases hs
  have hbad : ∀ (fs : List Rat), (0 : Rat) ∈ fs → factorsNorm fs = .error .zeroDivision := by
    intro fs h
    unfold factorsNorm
    rw [if_pos (by rw [List.any_eq_true]; exact ⟨0, h, by simp⟩)]
  constructor
  · rintro x ⟨rows, hrows, -⟩
    obtain ⟨l, h, -⟩ := (routeRows_parts hrows).2.2.2.2.1 _ hl.agg
    unfold factorRowsR LossState.agg at h
    simp only [Option.map_some] at h
    rw [if_neg (by simp), hbad _ (by simp [Factor.value])] at h
    cases h
  · rintro y ⟨rows, hrows, -⟩
    obtain ⟨l, h, -⟩ := (edgeRows_parts hrows).2.2.2.2.2.1 _ hl.agg
    unfold factorRowsE LossState.agg at h
    simp only [Option.map_some] at h
    rw [if_neg (by simp), hbad _ (by simp [Factor.value])] at h
    cases h

/-- Repeated `setup`: after a gross loss of 100 %, a smaller loss factor leaves the net flow blocked (`net.max_flow` stays 0), so nothing can pass
the node although its loss factor is below 1. -/
theorem C28_resetup_fails (s0 : LossState) (q : Rat) (t : LossType) (h0 : q ≠ 0) (h1 : q ≠ 1) (s1 s2 : LossState)
    (hs1 : s0.setup (.number 1) .gross = .ok s1) (hs2 : s1.setup (.number q) t = .ok s2) : s2.netMax = .fin 0 := by
  unfold LossState.setup at hs1 hs2
  simp only [one_ne_zero, if_false, true_and, if_true] at hs1
  cases hs1
  simp only [h0, h1, if_false, false_and] at hs2
  cases t <;> cases hs2 <;> rfl

end Verif.Composite

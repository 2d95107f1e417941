import Verif.Spec.FixedOnce
import Verif.Props.RouteLp
import Mathlib.Algebra.BigOperators.Group.List.Basic
/-! # C68: values written once -/

namespace Verif.Once

open Verif.Bounds Verif.Lp

private theorem runs_append (o : Options) (sh : Shape) (es fs : List Ev) (st : St) :
    runs o sh st (es ++ fs) = (runs o sh st es).bind fun st => runs o sh st fs := by
  induction es generalizing st with
  | nil => rfl
  | cons e es ih =>
    cases e with
    | setup j c => simp only [List.cons_append, runs, ih]
    | reset c =>
      simp only [List.cons_append, runs]
      cases reset c st with
      | none => rfl
      | some st => simp only [Option.bind_some, ih]
    | solve c s => simp only [List.cons_append, runs, ih]

/-- What no later event changes: the lists and the fixed costs. -/
private structure Same (a b : St) : Prop where
  constBounds : b.constBounds = a.constBounds
  dynBounds : b.dynBounds = a.dynBounds
  dynCost : b.dynCost = a.dynCost
  aggConst : b.aggConst = a.aggConst
  aggDyn : b.aggDyn = a.aggDyn
  edgeFixed : b.edgeFixed = a.edgeFixed
  costs : ∀ n, n ∉ a.dynCost → b.costs n = a.costs n

private theorem Same.refl (a : St) : Same a a := ⟨rfl, rfl, rfl, rfl, rfl, rfl, fun _ _ => rfl⟩

private theorem Same.trans {a b c : St} (h : Same a b) (k : Same b c) : Same a c :=
  ⟨k.1.trans h.1, k.2.trans h.2, k.3.trans h.3, k.4.trans h.4, k.5.trans h.5, k.6.trans h.6,
    fun n hn => (k.7 n (by rw [h.3]; exact hn)).trans (h.7 n hn)⟩

private theorem same_reset {c : Conf} {st st' : St} (h : reset c st = some st') : Same st st' := by
  unfold reset at h
  split at h
  · cases h; exact ⟨rfl, rfl, rfl, rfl, rfl, rfl, fun _ _ => rfl⟩
  · cases h

private theorem solve_costs (c : Conf) (s : Nat) (st : St) (n : Nat) :
    (solve c s st).costs n = if n ∈ st.dynCost then (c.cost n).get s else st.costs n := rfl

private theorem solve_bounds (c : Conf) (s : Nat) (st : St) (n : Nat) :
    (solve c s st).bounds n = if n ∈ st.dynBounds then ((c.mn n).get s, (c.mx n).get s) else st.bounds n := rfl

private theorem solve_factors (c : Conf) (s : Nat) (st : St) (i : Nat) :
    (solve c s st).factors i = if i ∈ st.aggDyn then (c.factors i).map (fun p => p.get s) else st.factors i := rfl

private theorem setup_costs (o : Options) (sh : Shape) (junk : Nat → Rat) (c : Conf) (n : Nat) :
    (setup o sh junk c).costs n = if n ∈ sh.nodes.filter (fun n => o.costs && (c.cost n).fixed) then (c.cost n).get 0 else junk n := rfl

private theorem same_solve (c : Conf) (s : Nat) (st : St) : Same st (solve c s st) :=
  ⟨rfl, rfl, rfl, rfl, rfl, rfl, fun n hn => by rw [solve_costs, if_neg hn]⟩

private theorem same_runs (o : Options) (sh : Shape) (es : List Ev) (h : ∀ e ∈ es, e.isSetup = false) (st st' : St) (hr : runs o sh st es = some st') :
    Same st st' := by
  induction es generalizing st with
  | nil => cases hr; exact Same.refl _
  | cons e es ih =>
    have h' := fun e he => h e (List.mem_cons_of_mem _ he)
    cases e with
    | setup j c => exact absurd (h _ List.mem_cons_self) (by simp [Ev.isSetup])
    | reset c =>
      simp only [runs] at hr
      cases hc : reset c st with
      | none => rw [hc] at hr; cases hr
      | some st1 => rw [hc] at hr; exact (same_reset hc).trans (ih h' _ hr)
    | solve c s => exact (same_solve c s st).trans (ih h' _ hr)

private theorem keeps_runs (o : Options) (sh : Shape) (es : List Ev) (h : ∀ e ∈ es, e.isSolve = true) (st st' : St) (hr : runs o sh st es = some st') :
    (∀ n, n ∉ st.dynBounds → st'.bounds n = st.bounds n) ∧ ∀ i, i ∉ st.aggDyn → st'.factors i = st.factors i := by
  induction es generalizing st with
  | nil => cases hr; exact ⟨fun _ _ => rfl, fun _ _ => rfl⟩
  | cons e es ih =>
    have h' := fun e he => h e (List.mem_cons_of_mem _ he)
    cases e with
    | setup j c => exact absurd (h _ List.mem_cons_self) (by simp [Ev.isSolve])
    | reset c => exact absurd (h _ List.mem_cons_self) (by simp [Ev.isSolve])
    | solve c s =>
      obtain ⟨a, b⟩ := ih h' _ hr
      constructor
      · intro n hn
        rw [a n hn, solve_bounds, if_neg hn]
      · intro n hn
        rw [b n hn, solve_factors, if_neg hn]

private theorem sound_get {α : Type} {a : Attr α} (h : a.Sound) {v : α} (hv : a.constant = some v) (s : Nat) : a.get s = v := by
  cases a with
  | lit w => exact Option.some.inj hv
  | par c vs => have hv : c = some v := hv; subst hv; exact h s

private theorem consts_map (l m : List (Attr Rat)) (h : l.map Attr.constant = m.map Attr.constant) (hs : ∀ p ∈ m, p.Sound) (hc : ∀ p ∈ m, p.constant.isSome)
    (s : Nat) : l.mapM Attr.constant = some (m.map fun p => p.get s) := by
  induction m generalizing l with
  | nil =>
    have : l = [] := by simpa using h
    subst this; rfl
  | cons p m ih =>
    cases l with
    | nil => simp at h
    | cons q l =>
      simp only [List.map_cons, List.cons.injEq] at h
      obtain ⟨v, hv⟩ := Option.isSome_iff_exists.1 (hc p List.mem_cons_self)
      rw [List.mapM_cons, h.1, hv, ih l h.2 (fun p hp => hs p (List.mem_cons_of_mem _ hp)) fun p hp => hc p (List.mem_cons_of_mem _ hp)]
      simp [sound_get (hs p List.mem_cons_self) hv]

/-- The values in memory are those of the moment. -/
private theorem values (o : Options) (sh : Shape) (st0 st : St) (pre mid tail : List Ev) (junk : Nat → Rat) (c0 c1 c : Conf) (s : Nat)
    (hrun : runs o sh st0 (pre ++ [.setup junk c0] ++ mid ++ [.reset c1] ++ tail) = some st)
    (hmid : ∀ e ∈ mid, e.isSetup = false) (htail : ∀ e ∈ tail, e.isSolve = true) (hs : Steady o sh c0 c1 c) (hc : c.Sound) :
    (∀ n ∈ sh.nonStorages, (solve c s st).bounds n = ((c.mn n).get s, (c.mx n).get s)) ∧
    (∀ n ∈ sh.nodes, (solve c s st).costs n = (c.cost n).get s) ∧
    (∀ i < sh.aggs, sh.hasFactors i = true → (solve c s st).factors i = (c.factors i).map fun p => p.get s) ∧
    ∀ col, (solve c s st).edgeCost sh c s col = (sh.nodes.map fun n => edgePart sh ((c.cost n).get s) n col).sum := by
  rw [runs_append, runs_append, runs_append, runs_append] at hrun
  cases h0 : runs o sh st0 pre with
  | none => rw [h0] at hrun; cases hrun
  | some s0 =>
  rw [h0] at hrun
  simp only [Option.bind_some, runs] at hrun
  cases h1 : runs o sh (setup o sh junk c0) mid with
  | none => rw [h1] at hrun; cases hrun
  | some s1 =>
  rw [h1] at hrun
  simp only [Option.bind_some] at hrun
  cases h2 : reset c1 s1 with
  | none => rw [h2] at hrun; cases hrun
  | some s2 =>
  rw [h2] at hrun
  simp only [Option.bind_some] at hrun
  have htail' : ∀ e ∈ tail, e.isSetup = false := by
    intro e he
    have := htail e he
    cases e <;> simp_all [Ev.isSolve, Ev.isSetup]
  have e1 := same_runs o sh mid hmid _ _ h1
  have e2 := e1.trans (same_reset h2)
  have e3 := e2.trans (same_runs o sh tail htail' _ _ hrun)
  have e4 := e3.trans (same_solve c s st)
  obtain ⟨k1, k2⟩ := keeps_runs o sh tail htail _ _ hrun
  have hb2 : s2.bounds = write s1.bounds s1.constBounds c1.constBound ∧ s2.factors = write s1.factors s1.aggConst fun i => (c1.constFactorList i).getD [] := by
    unfold reset at h2
    split at h2
    · cases h2; exact ⟨rfl, rfl⟩
    · cases h2
  refine ⟨?_, ?_, ?_, ?_⟩
  · intro n hn
    have hnn : n ∈ sh.nodes := (List.mem_filter.1 hn).1
    rw [solve_bounds]
    by_cases hd : n ∈ st.dynBounds
    · rw [if_pos hd]
    · rw [if_neg hd]
      rw [e3.dynBounds] at hd
      have hcf : (o.flows && c0.constFlows n) = true := by
        by_contra hx
        exact hd (List.mem_filter.2 ⟨hn, by rw [eq_false_of_ne_true hx]; rfl⟩)
      rw [k1 n (by rw [e2.dynBounds]; exact hd), hb2.1]
      unfold write
      have hmem : n ∈ s1.constBounds := by rw [e1.constBounds]; exact List.mem_filter.2 ⟨hn, hcf⟩
      rw [if_pos hmem]
      rw [Bool.and_eq_true] at hcf
      obtain ⟨hf, hcf⟩ := hcf
      unfold Conf.constFlows at hcf
      rw [Bool.and_eq_true] at hcf
      obtain ⟨a1, a2, a3, a4⟩ := hs.flows hf n hnn hcf.2 hcf.1
      obtain ⟨u, hu⟩ := Option.isSome_iff_exists.1 a3
      obtain ⟨v, hv⟩ := Option.isSome_iff_exists.1 a4
      unfold Conf.constBound
      rw [a1, a2, hu, hv, sound_get (hc.mn n) hu, sound_get (hc.mx n) hv]
      rfl
  · intro n hn
    rw [solve_costs]
    by_cases hd : n ∈ st.dynCost
    · rw [if_pos hd]
    · rw [if_neg hd]
      rw [e3.dynCost] at hd
      have hcf : (o.costs && (c0.cost n).fixed) = true := by
        by_contra hx
        exact hd (List.mem_filter.2 ⟨hn, by rw [eq_false_of_ne_true hx]; rfl⟩)
      rw [e3.costs n hd]
      rw [setup_costs, if_pos (List.mem_filter.2 ⟨hn, hcf⟩)]
      rw [Bool.and_eq_true] at hcf
      cases hcn : c0.cost n with
      | par vs => rw [hcn] at hcf; simp [Cost.fixed] at hcf
      | lit v => rw [hs.costs hcf.1 n hn v hcn]; rfl
  · intro i hi hfi
    rw [solve_factors]
    by_cases hd : i ∈ st.aggDyn
    · rw [if_pos hd]
    · rw [if_neg hd]
      rw [e3.aggDyn] at hd
      have hcf : (o.factors && c0.constFactors i) = true := by
        by_contra hx
        exact hd (List.mem_filter.2 ⟨List.mem_range.2 hi, by rw [eq_false_of_ne_true hx, hfi]; rfl⟩)
      rw [k2 i (by rw [e2.aggDyn]; exact hd), hb2.2]
      unfold write
      have hmem : i ∈ s1.aggConst := by
        rw [e1.aggConst]; exact List.mem_filter.2 ⟨List.mem_range.2 hi, by rw [hfi]; exact hcf⟩
      rw [if_pos hmem]
      rw [Bool.and_eq_true] at hcf
      obtain ⟨hf, hcf⟩ := hcf
      obtain ⟨a1, a2⟩ := hs.factors hf i hi hfi (by simpa [Conf.constFactors] using hcf)
      unfold Conf.constFactorList
      simp only
      rw [consts_map _ _ a1 (hc.factors i) a2 s]
      rfl
  · intro col
    unfold St.edgeCost
    rw [e4.edgeFixed, e4.dynCost]
    show ((sh.nodes.filter fun n => o.costs && (c0.cost n).fixed).map fun n => edgePart sh ((c0.cost n).get 0) n col).sum +
      ((sh.nodes.filter fun n => !(o.costs && (c0.cost n).fixed)).map fun n => edgePart sh ((c.cost n).get s) n col).sum = _
    have hcosts := hs.costs
    generalize sh.nodes = ns at hcosts ⊢
    induction ns with
    | nil => simp
    | cons n ns ih =>
      have ih := ih fun hf m hm => hcosts hf m (List.mem_cons_of_mem _ hm)
      by_cases hcf : (o.costs && (c0.cost n).fixed) = true
      · rw [List.filter_cons_of_pos (p := fun n => o.costs && (c0.cost n).fixed) hcf,
          List.filter_cons_of_neg (p := fun n => !(o.costs && (c0.cost n).fixed)) (by simpa using hcf), List.map_cons, List.map_cons, List.sum_cons, List.sum_cons, ← ih]
        have : (c0.cost n).get 0 = (c.cost n).get s := by
          rw [Bool.and_eq_true] at hcf
          cases hcn : c0.cost n with
          | par vs => rw [hcn] at hcf; simp [Cost.fixed] at hcf
          | lit v => rw [hcosts hcf.1 n List.mem_cons_self v hcn]; rfl
        rw [this]; ring
      · rw [List.filter_cons_of_neg (p := fun n => o.costs && (c0.cost n).fixed) hcf,
          List.filter_cons_of_pos (p := fun n => !(o.costs && (c0.cost n).fixed)) (by rw [eq_false_of_ne_true hcf]; rfl), List.map_cons, List.map_cons, List.sum_cons, List.sum_cons, ← ih]
        ring

private theorem collect_congr {α β : Type} (f g : α → Except Err β) (l : List α) (h : ∀ a ∈ l, f a = g a) : collect f l = collect g l := by
  induction l with
  | nil => rfl
  | cons a l ih => simp only [collect, h a List.mem_cons_self, ih fun b hb => h b (List.mem_cons_of_mem _ hb)]

private theorem attr_says {α : Type} : (Attr.get : Attr α → Nat → α) = Attr.says := by
  funext a s; cases a <;> rfl

private theorem cost_says : Cost.get = Cost.says := by
  funext a s; cases a <;> rfl

private theorem aggs_eq (sh : Shape) (st : St) (c : Conf) (s : Nat) (d : Data) (hd : d.aggs.length = sh.aggs)
    (h : ∀ i < sh.aggs, sh.hasFactors i = true → st.factors i = (c.factors i).map fun p => p.get s) : (st.data sh d).aggs = (c.now sh s d).aggs := by
  show List.map _ _ = List.map _ _
  simp only [← attr_says]
  apply List.map_congr_left
  intro q hq
  have hlt := List.snd_lt_of_mem_zipIdx hq
  by_cases hf : sh.hasFactors q.2 = true
  · rw [if_pos hf, if_pos hf, h q.2 (by omega) hf]
  · rw [if_neg hf, if_neg hf]

/-- **C68 (written once).** Whatever setups, resets and solves have happened, with any of the options on or off: if since the last setup no
constant limit or factor has become variable and no fixed cost has changed, and since the last reset no constant value has changed,
then the problem solved next, by routes or by edges, is the problem with the values the model has now: the same rows (or the same
exception), the same objective. -/
theorem C68_same (o : Options) (sh : Shape) (st0 st : St) (pre mid tail : List Ev) (junk : Nat → Rat) (c0 c1 c : Conf) (s : Nat)
    (hrun : runs o sh st0 (pre ++ [.setup junk c0] ++ mid ++ [.reset c1] ++ tail) = some st)
    (hmid : ∀ e ∈ mid, e.isSetup = false) (htail : ∀ e ∈ tail, e.isSolve = true) (hs : Steady o sh c0 c1 c) (hc : c.Sound)
    (d : Data) (hk : d.kind = sh.kind) (hn : d.nodes = sh.nodes) (ha : d.aggs.length = sh.aggs) (routes : List (List Nat))
    (hr : ∀ r ∈ routes, ∀ n ∈ r, n ∈ sh.nodes) :
    routeRows ((solve c s st).data sh d) routes = routeRows (c.now sh s d) routes ∧
    (∀ x, routeObjective ((solve c s st).data sh d) routes x = routeObjective (c.now sh s d) routes x) ∧
    edgeRows ((solve c s st).data sh d) sh.graph = edgeRows (c.now sh s d) sh.graph ∧
    ∀ col, (solve c s st).edgeCost sh c s col = edgeCost (c.now sh s d) sh.graph col := by
  obtain ⟨v1, v2, v3, v4⟩ := values o sh st0 st pre mid tail junk c0 c1 c s hrun hmid htail hs hc
  have hagg := aggs_eq sh (solve c s st) c s d ha v3
  simp only [attr_says, cost_says] at v1 v2 v4
  have hns : ((solve c s st).data sh d).nonStorages = (c.now sh s d).nonStorages := rfl
  have hmem : ∀ n ∈ (c.now sh s d).nonStorages, n ∈ sh.nonStorages := by
    intro n hx
    have hx : n ∈ d.nodes.filter fun n => d.kind n != .other := hx
    rw [hk, hn] at hx
    exact hx
  refine ⟨?_, ?_, ?_, ?_⟩
  · unfold routeRows
    rw [hns, hagg]
    rw [collect_congr (nodeRow ((solve c s st).data sh d) routes) (nodeRow (c.now sh s d) routes) _ fun n hx => ?_]
    · rfl
    · have := v1 n (hmem n hx)
      show (if nodeCols (d.kind n) n routes = [] then _ else limitRow _ ((solve c s st).bounds n).1 ((solve c s st).bounds n).2) = _
      rw [this]; rfl
  · intro x
    unfold routeObjective
    congr 1
    apply List.map_congr_left
    intro q hq
    congr 2
    have hq' : q.1 ∈ routes := (List.mem_zipIdx' hq).2 ▸ List.getElem_mem _
    show List.sum (List.map _ _) = List.sum (List.map _ _)
    congr 1
    apply List.map_congr_left
    intro n hnm
    apply v2 n (hr _ hq' n _)
    simp only [List.mem_append, Option.mem_toList, List.mem_filter] at hnm
    rcases hnm with (h | h) | h
    · exact List.mem_of_mem_head? h
    · exact List.mem_of_mem_tail (List.mem_of_mem_dropLast h.1)
    · exact List.mem_of_mem_getLast? h
  · unfold edgeRows
    rw [hns, hagg]
    rw [collect_congr (nodeRowE ((solve c s st).data sh d) sh.graph) (nodeRowE (c.now sh s d) sh.graph) _ fun n hx => ?_]
    · rfl
    · have := v1 n (hmem n hx)
      unfold nodeRowE
      show (if _ then _ else if _ then _ else if _ then _ else limitRow _ ((solve c s st).bounds n).1 ((solve c s st).bounds n).2) = _
      rw [this]; rfl
  · intro col
    rw [v4]
    unfold Lp.edgeCost
    show _ = (d.nodes.map _).sum
    rw [hn]
    congr 1
    apply List.map_congr_left
    intro n _
    unfold edgePart
    rw [← hk]
    rfl

/-- **C68 (off).** With the options off (the default) nothing needs to stay the same. -/
theorem C68_off (sh : Shape) (c0 c1 c : Conf) : Steady ⟨false, false, false⟩ sh c0 c1 c :=
  ⟨fun h => absurd h (by simp), fun h => absurd h (by simp), fun h => absurd h (by simp)⟩

/-! ## Changes that are not noticed -/

/-- One input, one output, one route. -/
def pairShape : Shape := ⟨fun n => if n = 0 then .input else .output, [0, 1], 0, fun _ => false, ⟨[(0, 1)], fun _ => 0⟩⟩

/-- The other data of the pair. -/
def pairData : Data := ⟨pairShape.kind, [0, 1], fun _ => .fin 0, fun _ => .fin 0, fun _ => 0, [], [], [], [], 1⟩

/-- Limits 0 to 10, cost of the input `v`. -/
def pairConf (v : Rat) (mx : Attr F) : Conf := ⟨fun n => if n = 0 then .lit v else .lit 0, fun _ => .lit (.fin 0), fun _ => mx, fun _ => []⟩

/-- **C68 fails (changed cost).** With `set_fixed_costs_once`, a cost given as a number that is changed after the first run is
ignored by all further runs: setting it does not make the model dirty, and a reset does not read it again. -/
theorem C68_cost_fails : ∃ st, runs ⟨true, false, false⟩ pairShape (setup ⟨true, false, false⟩ pairShape (fun _ => 0) (pairConf 1 (.lit (.fin 10))))
      [.setup (fun _ => 0) (pairConf 1 (.lit (.fin 10))), .reset (pairConf 1 (.lit (.fin 10))), .solve (pairConf 1 (.lit (.fin 10))) 0,
        .reset (pairConf 5 (.lit (.fin 10)))] = some st ∧
    routeObjective ((solve (pairConf 5 (.lit (.fin 10))) 0 st).data pairShape pairData) [[0, 1]] [1] = 1 ∧
    routeObjective ((pairConf 5 (.lit (.fin 10))).now pairShape 0 pairData) [[0, 1]] [1] = 5 :=
  ⟨_, rfl, by decide +kernel, by decide +kernel⟩

/-- **C68 fails (replaced limit).** With `set_fixed_flows_once`, replacing a limit given as a number by a parameter whose value
varies makes the next run fail: the reset still takes the limit for constant, reads NaN, and GLPK refuses it.  Without the option the
run goes on. -/
theorem C68_replaced_fails :
    runs ⟨false, true, false⟩ pairShape (setup ⟨false, true, false⟩ pairShape (fun _ => 0) (pairConf 1 (.lit (.fin 10))))
      [.setup (fun _ => 0) (pairConf 1 (.lit (.fin 10))), .reset (pairConf 1 (.lit (.fin 10))), .solve (pairConf 1 (.lit (.fin 10))) 0,
        .reset (pairConf 1 (.par none fun _ => .fin 7))] = none ∧
    (runs ⟨false, false, false⟩ pairShape (setup ⟨false, false, false⟩ pairShape (fun _ => 0) (pairConf 1 (.lit (.fin 10))))
      [.setup (fun _ => 0) (pairConf 1 (.lit (.fin 10))), .reset (pairConf 1 (.lit (.fin 10))), .solve (pairConf 1 (.lit (.fin 10))) 0,
        .reset (pairConf 1 (.par none fun _ => .fin 7))]).isSome = true := by
  constructor
  · have : (runs ⟨false, true, false⟩ pairShape (setup ⟨false, true, false⟩ pairShape (fun _ => 0) (pairConf 1 (.lit (.fin 10))))
        [.setup (fun _ => 0) (pairConf 1 (.lit (.fin 10))), .reset (pairConf 1 (.lit (.fin 10))), .solve (pairConf 1 (.lit (.fin 10))) 0,
          .reset (pairConf 1 (.par none fun _ => .fin 7))]).isNone = true := by decide +kernel
    exact Option.isNone_iff_eq_none.1 this
  · decide +kernel

/-- **C68 fails (replaced factor).** With `set_fixed_factors_once`, an aggregated node whose factors were all constant when the solver was made and one of which varies by the time of a later run
makes every such run raise; without the option the reset is accepted whatever the factors are. -/
theorem C68_factor_fails (o : Options) (sh : Shape) (st0 : St) (junk : Nat → Rat) (c0 c1 : Conf) (i : Nat) (p : Attr Rat) (ho : o.factors = true) (hi : i < sh.aggs)
    (hf : sh.hasFactors i = true) (h0 : ∀ q ∈ c0.factors i, q.constant.isSome) (hp : p ∈ c1.factors i) (h1 : p.constant = none) :
    runs o sh st0 [.setup junk c0, .reset c1] = none ∧
      (o.flows = false → (runs { o with factors := false } sh st0 [.setup junk c0, .reset c1]).isSome = true) := by
  constructor
  · have hm : i ∈ (setup o sh junk c0).aggConst := by
      refine List.mem_filter.2 ⟨List.mem_range.2 hi, ?_⟩
      simp only [hf, ho, Conf.constFactors, Bool.true_and, List.all_eq_true]
      exact h0
    have hn : c1.constFactorList i = none := by
      have key : ∀ l : List (Attr Rat), p ∈ l → l.mapM Attr.constant = none := by
        intro l
        induction l with
        | nil => intro h; cases h
        | cons a l ih =>
          intro h
          rw [List.mapM_cons]
          rcases List.mem_cons.1 h with rfl | h
          · rw [h1]; rfl
          · rw [ih h]; cases Attr.constant a <;> rfl
      exact key _ hp
    show (reset c1 (setup o sh junk c0)).bind _ = none
    unfold reset
    rw [if_neg]
    · rfl
    · intro h
      rw [Bool.and_eq_true, List.all_eq_true, List.all_eq_true] at h
      have := h.2 i hm
      rw [hn] at this
      cases this
  · intro hfl
    show ((reset c1 (setup { o with factors := false } sh junk c0)).bind _).isSome = true
    have e1 : (setup { o with factors := false } sh junk c0).constBounds = [] := by
      refine List.filter_eq_nil_iff.2 fun n hn => ?_
      simp [hfl]
    have e2 : (setup { o with factors := false } sh junk c0).aggConst = [] := by
      refine List.filter_eq_nil_iff.2 fun n hn => ?_
      simp
    unfold reset
    rw [e1, e2]
    rfl

example : ∃ (sh : Shape) (c0 c1 : Conf), 0 < sh.aggs ∧ sh.hasFactors 0 = true ∧ (∀ q ∈ c0.factors 0, q.constant.isSome) ∧ (Attr.par none fun _ => (2 : Rat)) ∈ c1.factors 0 :=
  ⟨{ pairShape with aggs := 1, hasFactors := fun _ => true }, { pairConf 1 (.lit (.fin 10)) with factors := fun _ => [.lit 1, .lit 2] },
    { pairConf 1 (.lit (.fin 10)) with factors := fun _ => [.lit 1, .par none fun _ => 2] }, by decide, rfl, by simp [Attr.constant], by simp⟩

/-- A constant parameter whose value is changed between two runs: all hypotheses hold, and the limit in the row is the new one. -/
example : (runs ⟨true, true, true⟩ pairShape (setup ⟨true, true, true⟩ pairShape (fun _ => 0) (pairConf 1 (.par (some (.fin 10)) fun _ => .fin 10)))
      ([] ++ [.setup (fun _ => 0) (pairConf 1 (.par (some (.fin 10)) fun _ => .fin 10))] ++
        [.reset (pairConf 1 (.par (some (.fin 10)) fun _ => .fin 10)), .solve (pairConf 1 (.par (some (.fin 10)) fun _ => .fin 10)) 0] ++
        [.reset (pairConf 1 (.par (some (.fin 20)) fun _ => .fin 20))] ++ [])).map
      (fun st => ((solve (pairConf 1 (.par (some (.fin 20)) fun _ => .fin 20)) 0 st).bounds 1).2) = some (.fin 20) := by decide +kernel

example : Steady ⟨true, true, true⟩ pairShape (pairConf 1 (.par (some (.fin 10)) fun _ => .fin 10)) (pairConf 1 (.par (some (.fin 20)) fun _ => .fin 20))
      (pairConf 1 (.par (some (.fin 20)) fun _ => .fin 20)) ∧ (pairConf 1 (.par (some (.fin 20)) fun _ => .fin 20)).Sound :=
  ⟨⟨fun _ n _ _ _ => ⟨rfl, rfl, rfl, rfl⟩, fun _ n _ v h => h, fun _ i hi => absurd hi (Nat.not_lt_zero i)⟩,
    ⟨fun _ => trivial, fun _ _ => rfl, fun i p hp => absurd hp (by simp [pairConf])⟩⟩

end Verif.Once

import Verif.Spec.RunOff
import Verif.Props.Solvable
/-! # C128: inflows that can run off never make a model insoluble -/

namespace Verif.Lp

open Verif Verif.Bounds Verif.Composite

/-! ## Helpers -/

private theorem S_values {α : Type} (l : List α) (v : α → Rat) (f : α → Rat) : S l (l.map v) f = (l.map fun r => f r * v r).sum := by
  rw [S_zip]
  induction l with
  | nil => rfl
  | cons a l ih => simp only [List.map_cons, List.zip_cons_cons, List.sum_cons]; rw [ih]

private theorem sum_plus {α : Type} (l : List α) (f g : α → Rat) : (l.map fun a => f a + g a).sum = (l.map f).sum + (l.map g).sum := by
  induction l with
  | nil => simp
  | cons a l ih => simp only [List.map_cons, List.sum_cons, ih]; ring

private theorem sum_scaled {α : Type} (l : List α) (f : α → Rat) (c : Rat) : (l.map fun a => c * f a).sum = c * (l.map f).sum := by
  induction l with
  | nil => simp
  | cons a l ih => simp only [List.map_cons, List.sum_cons, ih]; ring

private theorem sum_none {α : Type} (l : List α) : (l.map fun _ => (0 : Rat)).sum = 0 := by
  induction l with
  | nil => rfl
  | cons a l ih => simp

private theorem sum_count {l : List (List Nat)} (hl : l.Nodup) (f : List Nat → Rat) (w : List (List Nat)) (hw : ∀ r ∈ w, r ∈ l) :
    (l.map fun r => f r * (w.count r : Rat)).sum = (w.map f).sum := by
  induction w with
  | nil => simp
  | cons a w ih =>
    have h1 : (l.map fun r => f r * ((a :: w).count r : Rat)).sum = (l.map fun r => f r * (w.count r : Rat) + (if a = r then f r else 0)).sum := by
      congr 1
      refine List.map_congr_left fun r _ => ?_
      rw [List.count_cons]
      by_cases h : a = r
      · simp [h]; ring
      · simp [h]
    rw [h1, sum_plus, ih fun r hr => hw r (by simp [hr]), List.map_cons, List.sum_cons]
    rw [sum_map_single hl (hw a (by simp)) (c := fun r => if a = r then f r else 0) fun b _ hb => by simp [hb.symm]]
    simp; ring

/-- The flow an inflow needs, and the flows of all routes if every inflow runs off. -/
private def need (d : Data) (n : Nat) : Rat := match d.minFlow n with
  | .fin q => rnd q
  | _ => 0

private def runOff (d : Data) (routes : List (List Nat)) (inflows : List Nat) (way : Nat → List (List Nat)) : List Rat :=
  routes.map fun r => (inflows.map fun n => need d n * ((way n).count r : Rat)).sum

variable {d : Data} {routes : List (List Nat)} {inflows : List Nat} {way : Nat → List (List Nat)}

private theorem S_runOff (h : RunsOff d routes inflows way) (f : List Nat → Rat) :
    S routes (runOff d routes inflows way) f = (inflows.map fun n => need d n * ((way n).map f).sum).sum := by
  unfold runOff
  rw [S_values]
  have hk := h.known
  revert hk
  generalize inflows = I
  intro hk
  induction I with
  | nil => simp
  | cons n I ih =>
    simp only [List.map_cons, List.sum_cons]
    have e : (routes.map fun r => f r * (need d n * ((way n).count r : Rat) + (I.map fun n => need d n * ((way n).count r : Rat)).sum)).sum =
        (routes.map fun r => need d n * (f r * ((way n).count r : Rat)) + f r * (I.map fun n => need d n * ((way n).count r : Rat)).sum).sum := by
      congr 1
      exact List.map_congr_left fun r _ => by ring
    rw [e, sum_plus, sum_scaled, sum_count h.routes f (way n) (hk n (by simp)), ih fun m hm => hk m (by simp [hm])]

private theorem need_nonneg (h : RunsOff d routes inflows way) {n : Nat} (hn : n ∈ inflows) : 0 ≤ need d n := by
  obtain ⟨-, -, -, h0, -⟩ := h.inflows n hn
  unfold need
  split
  · rename_i q hq
    rw [hq] at h0
    change 0 ≤ q at h0
    unfold rnd; split <;> linarith
  · exact le_refl _

private theorem need_admitted (h : RunsOff d routes inflows way) {n : Nat} (hn : n ∈ inflows) {r : Row} (hr : flowRow true (d.minFlow n) (d.maxFlow n) = .stored r) :
    r.Admits (need d n) := by
  obtain ⟨-, ha, hb, h0, hle⟩ := h.inflows n hn
  obtain ⟨r', hr', hadm⟩ := admits_iff ha hb
  rw [hr'] at hr
  cases hr
  have hE : ∀ q, F.effective (.fin q) = .fin (rnd q) := by intro q; simp only [F.effective, rnd]; split <;> rfl
  rcases ha with ha | ⟨p, ha, -⟩
  · rw [ha] at h0; exact h0.elim
  · have en : need d n = rnd p := by unfold need; rw [ha]
    rw [en]
    refine (hadm _).2 ?_
    rw [ha, hE]
    by_cases hc : Close (.fin (rnd p)) (d.maxFlow n).effective
    · exact .inl ⟨hc, rfl⟩
    · refine .inr ⟨hc, le_refl _, ?_⟩
      rw [ha] at hle
      rcases hb with hb | ⟨q, hb, -⟩
      · rw [hb]; trivial
      · rw [hb] at hle ⊢
        rw [hE]
        exact rnd_mono hle

private theorem open_admits {n : Nat} (h : Open d n) {r : Row} (hr : flowRow true (d.minFlow n) (d.maxFlow n) = .stored r) {x : Rat} (hx : 0 ≤ x) : r.Admits x := by
  obtain ⟨ha, h0, hb⟩ := h
  obtain ⟨r', hr', hadm⟩ := admits_iff ha (b := d.maxFlow n) (.inl hb)
  rw [hr'] at hr
  cases hr
  have hE : ∀ q, F.effective (.fin q) = .fin (rnd q) := by intro q; simp only [F.effective, rnd]; split <;> rfl
  refine (hadm x).2 (.inr ⟨?_, ?_, ?_⟩)
  · rw [hb]
    rcases ha with ha | ⟨p, ha, -⟩ <;> rw [ha]
    · simp [F.effective, Close]
    · rw [hE]; simp [F.effective, Close]
  · rcases ha with ha | ⟨p, ha, -⟩
    · rw [ha]; trivial
    · rw [ha] at h0 ⊢
      rw [hE]
      change p ≤ 0 at h0
      change rnd p ≤ x
      unfold rnd; split <;> linarith
  · rw [hb]; trivial

private theorem sum_way (f : List Nat → Rat) {n : Nat} (h : ∀ r ∈ way n, f r = 0) : ((way n).map f).sum = 0 :=
  List.sum_eq_zero fun v hv => by obtain ⟨r, hr, rfl⟩ := List.mem_map.1 hv; exact h r hr

private theorem total_zero (h : RunsOff d routes inflows way) (f : List Nat → Rat) (hf : ∀ n ∈ inflows, ((way n).map f).sum = 0) :
    S routes (runOff d routes inflows way) f = 0 := by
  rw [S_runOff h]
  refine List.sum_eq_zero fun v hv => ?_
  obtain ⟨n, hn, rfl⟩ := List.mem_map.1 hv
  rw [hf n hn, mul_zero]

private theorem passes_on {k : Kind} {n : Nat} {r : List Nat} (h : passes k n r = true) : n ∈ r := by
  unfold passes at h
  cases k with
  | input => exact List.mem_of_head? (by simpa using h)
  | output => exact List.mem_of_getLast? (by simpa using h)
  | link => simpa using h
  | other => simpa using h

private theorem node_holds (h : RunsOff d routes inflows way) {m : Nat} (hm : m ∈ d.nodes) (hk : d.kind m ≠ .other) {L : Line (List Nat)} (e : nodeLine d m = some L) :
    L.Holds routes (runOff d routes inflows way) := by
  unfold nodeLine limitLine at e
  split at e
  case h_2 => cases e
  case h_1 row hr =>
  cases e
  show row.Admits (S routes (runOff d routes inflows way) fun r => term (passes (d.kind m) m r) 1)
  by_cases hi : m ∈ inflows
  · have key : ∀ n ∈ inflows, ((way n).map fun r => term (passes (d.kind m) m r) 1).sum = if n = m then 1 else 0 := by
      intro n hn
      obtain ⟨r, l, ew, hx⟩ := h.starts n hn
      have hin := (h.inflows m hi).1
      rw [ew, List.map_cons, List.sum_cons, hin]
      have h2 : (l.map fun r => term (passes .input m r) 1).sum = 0 := by
        refine List.sum_eq_zero fun v hv => ?_
        obtain ⟨r', hr', rfl⟩ := List.mem_map.1 hv
        unfold term
        rw [if_neg]
        intro hp
        exact (hx m (List.mem_append_right _ (List.mem_flatten.2 ⟨r', hr', passes_on hp⟩))).1 hi
      rw [h2, add_zero]
      by_cases hnm : n = m
      · subst hnm; simp [term, passes]
      · simp [term, passes, hnm]
    rw [S_runOff h]
    have : (inflows.map fun n => need d n * ((way n).map fun r => term (passes (d.kind m) m r) 1).sum).sum = need d m := by
      rw [sum_map_single h.distinct hi (c := fun n => need d n * ((way n).map fun r => term (passes (d.kind m) m r) 1).sum)]
      · simp only [key m hi, if_true, mul_one]
      · intro b hb hbm
        simp only [key b hb, if_neg hbm, mul_zero]
    rw [this]
    exact need_admitted h hi hr
  · by_cases ho : Open d m
    · refine open_admits ho hr ?_
      rw [S_runOff h]
      refine List.sum_nonneg fun v hv => ?_
      obtain ⟨n, hn, rfl⟩ := List.mem_map.1 hv
      refine mul_nonneg (need_nonneg h hn) (List.sum_nonneg fun v hv => ?_)
      obtain ⟨r, -, rfl⟩ := List.mem_map.1 hv
      unfold term; split <;> norm_num
    · rw [total_zero h]
      · exact zero_admitted (h.others m hm hk hi) hr
      · intro n hn
        refine sum_way _ fun r hr' => ?_
        unfold term
        rw [if_neg]
        intro hp
        have hmr := passes_on hp
        obtain ⟨r0, l, ew, hx⟩ := h.starts n hn
        rw [ew, List.mem_cons] at hr'
        rcases hr' with rfl | hr'
        · rcases List.mem_cons.1 hmr with rfl | hmr
          · exact hi hn
          · exact ho (hx m (List.mem_append_left _ hmr)).2
        · exact ho (hx m (List.mem_append_right _ (List.mem_flatten.2 ⟨r, hr', hmr⟩))).2

private theorem inList_iff {o : Option Nat} {l : List Nat} : inList o l = true ↔ ∃ t, o = some t ∧ t ∈ l := by
  cases o <;> simp [inList]

private theorem store_coef (s : StorageData) (r : List Nat) :
    term (inList r.getLast? s.outputs && !inList r.head? s.inputs) 1 + term (inList r.head? s.inputs && !inList r.getLast? s.outputs) (-1) =
      term (inList r.getLast? s.outputs) 1 - term (inList r.head? s.inputs) 1 := by
  cases inList r.getLast? s.outputs <;> cases inList r.head? s.inputs <;> simp [term]

private theorem descends_sum {s : StorageData} (hs : s ∈ d.storages) (r : List Nat) (l : List (List Nat)) (hd : Descends d (r :: l)) :
    ((r :: l).map fun r => term (inList r.getLast? s.outputs) 1 - term (inList r.head? s.inputs) 1).sum = -term (inList r.head? s.inputs) 1 := by
  induction l generalizing r with
  | nil =>
    have : inList r.getLast? s.outputs = false := by
      rw [Bool.eq_false_iff]
      intro h
      obtain ⟨t, h1, h2⟩ := inList_iff.1 h
      exact hd s hs t h1 h2
    simp [this, term]
  | cons r' l ih =>
    rw [List.map_cons, List.sum_cons, ih r' hd.2]
    have : inList r.getLast? s.outputs = inList r'.head? s.inputs := by
      rw [Bool.eq_iff_iff, inList_iff, inList_iff]
      exact hd.1 s hs
    rw [this]; ring

/-! ## The theorems -/

/-- **C128 (a solve, routes).** If every inflow has a way down on which everything is open - through storages as well - and nothing else has to flow, the route problem has a solution, whatever the
inflows and whatever the volumes of the storages are. -/
theorem C128_route (d : Data) (routes : List (List Nat)) (inflows : List Nat) (way : Nat → List (List Nat)) (h : RunsOff d routes inflows way)
    (hb : ∃ rows, routeRows d routes = .ok rows) : ∃ x, RouteFeasible d routes x := by
  obtain ⟨ne, hbuilt⟩ := (routeRows_ok d routes).1 hb
  refine ⟨runOff d routes inflows way, (routeFeasible_iff d routes _).2 ⟨ne, by simp [runOff], fun v hv => ?_, fun o ho => ?_⟩⟩
  · obtain ⟨r, -, rfl⟩ := List.mem_map.1 hv
    refine List.sum_nonneg fun v hv => ?_
    obtain ⟨n, hn, rfl⟩ := List.mem_map.1 hv
    exact mul_nonneg (need_nonneg h hn) (by positivity)
  · obtain ⟨L, rfl, hL⟩ := hbuilt o ho
    refine ⟨L, rfl, hL, ?_⟩
    unfold routeLines at ho
    simp only [List.mem_append, List.mem_map, List.mem_flatMap] at ho
    rcases ho with ((((⟨n, hn, e⟩ | ⟨c, hc, e⟩) | ⟨s, hs, e⟩) | ⟨v, hv, e⟩) | ⟨a, ha, e⟩) | ⟨a, ha, e⟩
    · obtain ⟨hn, hk⟩ := List.mem_filter.1 hn
      exact node_holds h hn (by simpa using hk) e
    · unfold crossLine at e
      split at e
      · cases e
      · cases e
        unfold Line.Holds
        rw [total_zero h]
        · simp [Row.Admits]
        · intro n hn
          refine sum_way _ fun r hr => ?_
          have hu := fun k hk => (h.unmetered n hn r hr k hk).cross c hc
          have h1 : passes (d.kind c.1) c.1 r = false := by
            rw [Bool.eq_false_iff]; intro hp; exact (hu _ (passes_on hp)).1 rfl
          have h2 : (c.2.map fun i => term (r.head? == some i.1) (1 / i.2)).sum = 0 := by
            refine List.sum_eq_zero fun v hv => ?_
            obtain ⟨i, hi, rfl⟩ := List.mem_map.1 hv
            unfold term
            rw [if_neg]
            intro hp
            exact (hu i.1 (List.mem_of_head? (by simpa using hp))).2 i hi rfl
          show term (passes (d.kind c.1) c.1 r) (-1) + _ = 0
          rw [h1, h2]; simp [term]
    · cases e
      unfold Line.Holds
      rw [total_zero h]
      · exact storage_zero h.days
      · intro n hn
        obtain ⟨r, l, ew, -⟩ := h.starts n hn
        obtain ⟨h1, h2⟩ := h.descends n hn
        rw [ew] at h2
        have e1 : (storageLine d s).coef = fun r => term (inList r.getLast? s.outputs) 1 - term (inList r.head? s.inputs) 1 := funext fun r => store_coef s r
        rw [e1, ew, descends_sum hs _ _ h2]
        have : inList (n :: r).head? s.inputs = false := by
          rw [Bool.eq_false_iff]
          intro hp
          obtain ⟨t, h3, h4⟩ := inList_iff.1 hp
          cases h3
          exact h1 s hs h4
        rw [this]; simp [term]
    · cases e
      unfold Line.Holds
      rw [total_zero h]
      · exact virtual_zero h.days
      · intro n hn
        refine sum_way _ fun r hr => ?_
        have : routeFactors v r = [] := by
          unfold routeFactors
          rw [List.filterMap_eq_nil_iff]
          intro k hk
          have : v.nodes.idxOf? k = none := by
            rw [List.idxOf?_eq_none_iff]
            exact (h.unmetered n hn r hr k hk).virtuals v hv
          rw [this]; rfl
        simp [virtualLine, this]
    · unfold factorLines at e
      split at e
      · simp at e
      · rename_i fs hfs
        split at e
        · simp at e
        · rename_i n0 rest hnodes
          split at e
          · simp at e
          · split at e
            · simp at e
            · obtain ⟨p, hp, e⟩ := List.mem_map.1 e
              cases e
              unfold Line.Holds
              rw [total_zero h]
              · simp [Row.Admits]
              · intro n hn
                refine sum_way _ fun r hr => ?_
                have hu := fun k hk => (h.unmetered n hn r hr k hk).aggs a ha
                have h1 : r.contains n0 = false := by
                  rw [Bool.eq_false_iff]; intro hc; exact hu n0 (by simpa using hc) (by rw [hnodes]; simp)
                have h2 : r.contains p.1 = false := by
                  rw [Bool.eq_false_iff]; intro hc; exact hu p.1 (by simpa using hc) (by rw [hnodes]; simp [(List.of_mem_zip hp).1])
                simp only [h1, h2, term, add_zero, Bool.false_eq_true, if_false]
    · have e0 := limit_zero (h.aggs a ha) e
      have hc : L.coef = fun r => (lastWeight a fun n => r.contains n).getD 0 := by
        unfold aggLine limitLine at e
        split at e
        · cases e; rfl
        · cases e
      unfold Line.Holds
      rw [total_zero h]
      · exact e0
      · intro n hn
        refine sum_way _ fun r hr => ?_
        have hu := fun k hk => (h.unmetered n hn r hr k hk).aggs a ha
        rw [hc]
        have : (a.nodes.zip a.weightList).filter (fun p => r.contains p.1) = [] := by
          rw [List.filter_eq_nil_iff]
          intro p hp hc
          exact hu p.1 (by simpa using hc) (List.of_mem_zip hp).1
        show (lastWeight a fun n => r.contains n).getD 0 = 0
        unfold lastWeight
        rw [this]; rfl

/-- **C128 (a solve, edges).** The same for the edge problem, of a model in which both solvers describe the same network. -/
theorem C128_edge (d : Data) (g : Graph) (routes : List (List Nat)) (inflows : List Nat) (way : Nat → List (List Nat)) (h : RunsOff d routes inflows way)
    (hC : ComparableDomains d g routes) (hb : ∃ rows, routeRows d routes = .ok rows) (he : ∃ rows, edgeRows d g = .ok rows) : ∃ y, EdgeFeasible d g y ∧ Idle g y := by
  obtain ⟨x, hx⟩ := C128_route d routes inflows way h hb
  obtain ⟨y, hy, hi, -⟩ := C24_domains_route_to_edge_partial d g routes hC he x hx
  exact ⟨y, hy, hi⟩

/-- **C128 (least cost).** If moreover rewards have finite maxima, there is a solution of least cost. -/
theorem C128_best (d : Data) (routes : List (List Nat)) (inflows : List Nat) (way : Nat → List (List Nat)) (h : RunsOff d routes inflows way) (hw : WellRouted d routes)
    (hb : ∃ rows, routeRows d routes = .ok rows) (hc : CappedRewards d routes) : ∃ x, Optimal d routes x := C127_route_bounded d routes hw hc (C128_route d routes inflows way h hb)

/-- A catchment with a flow of 6 above an output that takes at most `hi`. -/
def stream (hi : F) : Data :=
  ⟨fun n => if n = 0 then .input else .output, [0, 1], fun n => if n = 0 then .fin 6 else .fin 0, fun n => if n = 0 then .fin 6 else hi, fun _ => 0, [], [], [], [], 1⟩

/-- **C128 (closed ways).** The ways have to be open: if the only output takes at most 5, an inflow of 6 leaves the problem without solution; if it takes 7 there is one. -/
theorem C128_blocked : (∀ x, ¬RouteFeasible (stream (.fin 5)) [[0, 1]] x) ∧ RouteFeasible (stream (.fin 7)) [[0, 1]] [6] := by
  refine ⟨fun x hx => ?_, by decide +kernel⟩
  have hw : WellRouted (stream (.fin 5)) [[0, 1]] := by
    intro r hr
    rw [List.mem_singleton] at hr
    subst hr
    exact ⟨by decide, ⟨0, rfl, rfl⟩, ⟨1, rfl, rfl⟩, by decide⟩
  have o : OrdinaryDouble 0 ∧ OrdinaryDouble 5 ∧ OrdinaryDouble 6 := by unfold OrdinaryDouble; decide +kernel
  have h0 := C22_route _ _ hw x hx 0 (by decide) (by decide) (.inr ⟨6, rfl, o.2.2⟩) (.inr ⟨6, rfl, o.2.2⟩)
  have h1 := C22_route _ _ hw x hx 1 (by decide) (by decide) (.inr ⟨0, rfl, o.1⟩) (.inr ⟨5, rfl, o.2.1⟩)
  have e : routeNodeFlow (stream (.fin 5)) [[0, 1]] x 0 = routeNodeFlow (stream (.fin 5)) [[0, 1]] x 1 := by
    rw [routeNodeFlow_eq hw, routeNodeFlow_eq hw]
    refine S_congr fun r hr => ?_
    rw [List.mem_singleton] at hr
    subst hr
    decide
  rw [e] at h0
  generalize routeNodeFlow (stream (.fin 5)) [[0, 1]] x 1 = v at h0 h1
  have hE : F.effective (.fin 0) = .fin 0 ∧ F.effective (.fin 5) = .fin 5 ∧ F.effective (.fin 6) = .fin 6 := by decide +kernel
  change Limited (.fin 6) (.fin 6) v at h0
  change Limited (.fin 0) (.fin 5) v at h1
  unfold Limited at h0 h1
  rw [hE.2.2] at h0
  rw [hE.1, hE.2.1] at h1
  have a : (6 : Rat) ≤ v := by
    rcases h0 with ⟨h, -⟩ | ⟨-, h⟩
    · exact h
    · cases h; norm_num
  have b : v ≤ 5 := by
    rcases h1 with ⟨-, h⟩ | ⟨h, -⟩
    · exact h
    · simp only [Close] at h; exact absurd h (by decide +kernel)
  linarith

end Verif.Lp

namespace Verif.Simulation

open Verif Verif.Lp Verif.Bounds Verif.Composite

variable {N : Net} {params : List Done → Values} {m0 : Moment} {inflows : List Done → List Nat} {way : List Done → Nat → List (List Nat)}

private theorem store_any {v : Values} {m m' : Moment} {s : StorageData} (hs : s ∈ (N.data v m').storages) :
    ∃ s' ∈ (N.data v m).storages, s'.inputs = s.inputs ∧ s'.outputs = s.outputs := by
  obtain ⟨q, hq, rfl⟩ := List.mem_map.1 (show s ∈ N.stores.zipIdx.map _ from hs)
  exact ⟨⟨q.1.1, q.1.2, (m.stores q.2).volume, (v.limits q.2).1, (v.limits q.2).2⟩, List.mem_map.2 ⟨q, hq, rfl⟩, rfl, rfl⟩

private theorem descends_any {v : Values} {m m' : Moment} (l : List (List Nat)) (h : Descends (N.data v m) l) : Descends (N.data v m') l := by
  induction l with
  | nil => trivial
  | cons r l ih =>
    cases l with
    | nil =>
      intro s hs t ht
      obtain ⟨s', hs', -, e⟩ := store_any (m := m) hs
      rw [← e]
      exact h s' hs' t ht
    | cons r' l =>
      refine ⟨fun s hs => ?_, ih h.2⟩
      obtain ⟨s', hs', e1, e2⟩ := store_any (m := m) hs
      rw [← e1, ← e2]
      exact h.1 s' hs'

theorem runsOff_any {v : Values} {m m' : Moment} {ins : List Nat} {w : Nat → List (List Nat)} (h : RunsOff (N.data v m) N.routes ins w) : RunsOff (N.data v m') N.routes ins w where
  days := h.days
  routes := h.routes
  distinct := h.distinct
  inflows := h.inflows
  others := h.others
  aggs := h.aggs
  starts := h.starts
  known := h.known
  unmetered n hn r hr k hk := by
    refine ⟨fun s hs => ?_, (h.unmetered n hn r hr k hk).aggs, (h.unmetered n hn r hr k hk).cross⟩
    obtain ⟨q, hq, rfl⟩ := List.mem_map.1 (show s ∈ N.virtuals.zipIdx.map _ from hs)
    exact (h.unmetered n hn r hr k hk).virtuals ⟨q.1.1, q.1.2, v.active q.2, (m.virtual v q.2).volume, (v.vlimits q.2).1, (v.vlimits q.2).2⟩ (List.mem_map.2 ⟨q, hq, rfl⟩)
  descends n hn := by
    refine ⟨fun s hs => ?_, descends_any _ (h.descends n hn).2⟩
    obtain ⟨s', hs', e, -⟩ := store_any (m := m) hs
    rw [← e]
    exact (h.descends n hn).1 s' hs'

/-- **C128 (a timestep).** Whatever has happened before and whatever the volumes are, the route solver finds a solution. -/
theorem C128_step (hu : ∀ h, RunsOff (N.data (params h) m0) N.routes (inflows h) (way h)) (hb : ∀ h, ∃ rows, routeRows (N.data (params h) m0) N.routes = .ok rows) (h : List Done) (m : Moment) :
    ∃ flow, routeAnswer N (N.data (params h) m) flow := by
  obtain ⟨x, hx⟩ := C128_route (N.data (params h) m) N.routes (inflows h) (way h) (runsOff_any (hu h)) (route_any (hb h))
  exact ⟨_, x, hx, rfl⟩

/-- **C128 (runs).** If in every timestep every inflow can run off and nothing else has to flow, every run can be continued for any number of timesteps: no sequence of inflows, however wet or dry, and no
state the reservoirs get into makes the route solver fail. -/
theorem C128_runs (hu : ∀ h, RunsOff (N.data (params h) m0) N.routes (inflows h) (way h)) (hb : ∀ h, ∃ rows, routeRows (N.data (params h) m0) N.routes = .ok rows)
    (h : List Done) (m : Moment) (hr : Runs N (routeAnswer N) params m0 h m) (k : Nat) : ∃ h' m', Runs N (routeAnswer N) params m0 (h ++ h') m' ∧ h'.length = k :=
  go_on (C128_step hu hb) hr k

/-- **C128 (runs, least cost).** The same with solutions of least cost in every timestep, if rewards have finite maxima. -/
theorem C128_best_runs (hN : N.Ok) (hu : ∀ h, RunsOff (N.data (params h) m0) N.routes (inflows h) (way h)) (hb : ∀ h, ∃ rows, routeRows (N.data (params h) m0) N.routes = .ok rows)
    (hc : ∀ h, CappedRewards (N.data (params h) m0) N.routes) (h : List Done) (m : Moment) (hr : Runs N (routeBest N) params m0 h m) (k : Nat) :
    ∃ h' m', Runs N (routeBest N) params m0 (h ++ h') m' ∧ h'.length = k := by
  refine go_on (fun h m => ?_) hr k
  obtain ⟨x, hx, hmin⟩ := C128_best (N.data (params h) m) N.routes (inflows h) (way h) (runsOff_any (hu h)) hN.routes (route_any (hb h)) (hc h)
  exact ⟨_, x, hx, hmin, rfl⟩

/-- **C128 (runs, edges).** The same with the edge solver, for models in which both solvers describe the same network. -/
theorem C128_edge_runs (hA : Alike N params m0) (hu : ∀ h, RunsOff (N.data (params h) m0) N.routes (inflows h) (way h))
    (h : List Done) (m : Moment) (hr : Runs N (edgeAnswer N) params m0 h m) (k : Nat) : ∃ h' m', Runs N (edgeAnswer N) params m0 (h ++ h') m' ∧ h'.length = k := by
  obtain ⟨h', m', hr', hl⟩ := C128_runs hu hA.route h m ((C88_solvers_partial hA h m).2 hr) k
  exact ⟨h', m', (C88_solvers_partial hA _ _).1 hr', hl⟩

/-- **C128 (scenarios).** The same for all scenarios of a model together. -/
theorem C128_scenarios {n : Nat} {params : List (Fin n → Done) → Fin n → Values} {start : Fin n → Moment} {inflows : List (Fin n → Done) → Fin n → List Nat}
    {way : List (Fin n → Done) → Fin n → Nat → List (List Nat)} (hu : ∀ h i, RunsOff (N.data (params h i) m0) N.routes (inflows h i) (way h i))
    (hb : ∀ h i, ∃ rows, routeRows (N.data (params h i) m0) N.routes = .ok rows) (h : List (Fin n → Done)) (m : Fin n → Moment)
    (hr : Ensemble N (routeAnswer N) params start h m) (k : Nat) : ∃ h' m', Ensemble N (routeAnswer N) params start (h ++ h') m' ∧ h'.length = k := by
  induction k with
  | zero => exact ⟨[], m, by simpa using hr, rfl⟩
  | succ k ih =>
    obtain ⟨h', m', hr', hl⟩ := ih
    have hs : ∀ i, ∃ flow, routeAnswer N (N.data (params (h ++ h') i) (m' i)) flow := fun i =>
      C128_step (params := fun _ => params (h ++ h') i) (inflows := fun _ => inflows (h ++ h') i) (way := fun _ => way (h ++ h') i) (fun _ => hu (h ++ h') i) (fun _ => hb (h ++ h') i) [] (m' i)
    choose flow hf using hs
    refine ⟨h' ++ [fun i => ⟨params (h ++ h') i, flow i⟩], fun i => N.next (params (h ++ h') i) (flow i) (m' i), ?_, by simp [hl]⟩
    rw [← List.append_assoc]
    exact .step hr' hf

/-! Not trivial: a catchment (0) above a reservoir (output 1, input 2) with a spill (3) to the sea (4) and a licensed customer (5); a second catchment (6) above a river with a maximum flow (7) and a spill. The flows
of the catchments are any sequences. -/

private def valleyNet : Net where
  kind n := if n ∈ [0, 2, 6] then .input else if n ∈ [1, 4, 5] then .output else .link
  nodes := [0, 1, 2, 3, 4, 5, 6, 7]
  stores := [([2], [1])]
  virtuals := [([5], [1])]
  routes := [[0, 1], [2, 3, 4], [2, 5], [6, 3, 4], [6, 7, 5]]
  graph := ⟨[(0, 1), (2, 3), (3, 4), (2, 5), (6, 7), (7, 5), (6, 3)], fun _ => 0⟩

private def valleyValues (a b : Rat) : Values where
  minFlow n := if n = 0 then .fin a else if n = 6 then .fin b else .fin 0
  maxFlow n := if n = 0 then .fin a else if n = 6 then .fin b else if n = 5 then .fin 10 else if n = 7 then .fin 3 else .posInf
  cost n := if n = 5 then -10 else 1
  limits _ := (100, 0)
  vlimits _ := (50, 0)
  active _ := true
  refill _ := none
  aggs := []
  cross := []
  days := 1

private def valleyWay : Nat → List (List Nat) := fun n => if n = 0 then [[0, 1], [2, 3, 4]] else [[6, 3, 4]]

private def valleyStart : Moment := ⟨fun _ => ⟨50, 0, 0, none⟩, fun _ => ⟨20, 0, 0, none⟩⟩

private theorem valley_runsOff {a b : Rat} (ha : OrdinaryDouble a) (hb : OrdinaryDouble b) (ha0 : 0 ≤ a) (hb0 : 0 ≤ b) : RunsOff (valleyNet.data (valleyValues a b) valleyStart) valleyNet.routes [0, 6] valleyWay where
  days := by show (0 : Rat) < 1; norm_num
  routes := by decide
  distinct := by decide
  inflows n hn := by
    simp only [List.mem_cons, List.not_mem_nil, or_false] at hn
    rcases hn with rfl | rfl
    · exact ⟨rfl, .inr ⟨a, rfl, ha⟩, .inr ⟨a, rfl, ha⟩, ha0, le_refl a⟩
    · exact ⟨rfl, .inr ⟨b, rfl, hb⟩, .inr ⟨b, rfl, hb⟩, hb0, le_refl b⟩
  others n _ _ hi := by
    simp only [List.mem_cons, List.not_mem_nil, or_false, not_or] at hi
    have h0 : OrdinaryDouble 0 ∧ OrdinaryDouble 10 ∧ OrdinaryDouble 3 := by unfold OrdinaryDouble; decide +kernel
    have e1 : (valleyNet.data (valleyValues a b) valleyStart).minFlow n = .fin 0 := by show (if n = 0 then _ else if n = 6 then _ else _) = _; rw [if_neg hi.1, if_neg hi.2]
    have e2 : (valleyNet.data (valleyValues a b) valleyStart).maxFlow n = if n = 5 then .fin 10 else if n = 7 then .fin 3 else .posInf := by
      show (if n = 0 then _ else if n = 6 then _ else _) = _; rw [if_neg hi.1, if_neg hi.2]
    refine ⟨.inr ⟨0, e1, h0.1⟩, ?_, by rw [e1]; exact le_refl (0 : Rat), ?_⟩ <;> rw [e2]
    · split
      · exact .inr ⟨10, rfl, h0.2.1⟩
      · split
        · exact .inr ⟨3, rfl, h0.2.2⟩
        · exact .inl rfl
    · split
      · show (0 : Rat) ≤ 10; norm_num
      · split
        · show (0 : Rat) ≤ 3; norm_num
        · trivial
  aggs a ha := by cases ha
  starts n hn := by
    have h0 : OrdinaryDouble 0 := by unfold OrdinaryDouble; decide +kernel
    have ho : ∀ k ∈ [1, 2, 3, 4], k ∉ [0, 6] ∧ Open (valleyNet.data (valleyValues a b) valleyStart) k := by
      intro k hk
      simp only [List.mem_cons, List.not_mem_nil, or_false] at hk
      rcases hk with rfl | rfl | rfl | rfl <;> exact ⟨by decide, .inr ⟨0, rfl, h0⟩, le_refl (0 : Rat), rfl⟩
    simp only [List.mem_cons, List.not_mem_nil, or_false] at hn
    rcases hn with rfl | rfl
    · exact ⟨[1], [[2, 3, 4]], rfl, fun k hk => ho k (by simpa using hk)⟩
    · exact ⟨[3, 4], [], rfl, fun k hk => ho k (by simp at hk; rcases hk with rfl | rfl <;> simp)⟩
  known := by decide
  unmetered n hn r hr k hk := by
    have : ∀ n ∈ [0, 6], ∀ r ∈ valleyWay n, ∀ k ∈ r, k ∉ [5] := by decide
    refine ⟨fun s hs => ?_, fun s hs => (by cases hs), fun s hs => (by cases hs)⟩
    rw [show (valleyNet.data (valleyValues a b) valleyStart).virtuals = [⟨[5], [1], true, 20, 50, 0⟩] from rfl, List.mem_singleton] at hs
    subst hs
    exact this n hn r hr k hk
  descends n hn := by
    have hs : ∀ s ∈ (valleyNet.data (valleyValues a b) valleyStart).storages, s.inputs = [2] ∧ s.outputs = [1] := by
      intro s hs
      rw [show (valleyNet.data (valleyValues a b) valleyStart).storages = [⟨[2], [1], 50, 100, 0⟩] from rfl, List.mem_singleton] at hs
      subst hs
      exact ⟨rfl, rfl⟩
    simp only [List.mem_cons, List.not_mem_nil, or_false] at hn
    rcases hn with rfl | rfl
    · refine ⟨fun s h => by rw [(hs s h).1]; decide, fun s h => ?_, fun s h t ht => ?_⟩
      · rw [(hs s h).1, (hs s h).2]; simp
      · rw [(hs s h).2]; cases ht; decide
    · refine ⟨fun s h => by rw [(hs s h).1]; decide, fun s h t ht => ?_⟩
      rw [(hs s h).2]; cases ht; decide

private theorem valley_rows {a b : Rat} (ha : OrdinaryDouble a) (hb : OrdinaryDouble b) (ha0 : 0 ≤ a) (hb0 : 0 ≤ b) : ∃ rows, routeRows (valleyNet.data (valleyValues a b) valleyStart) valleyNet.routes = .ok rows := by
  have h := valley_runsOff ha hb ha0 hb0
  have n0 : [0, 1, 2, 3, 4, 5, 6, 7] ≠ [] ∧ valleyNet.routes ≠ [] ∧ (valleyNet.data (valleyValues 0 0) valleyStart).nonStorages ≠ [] := by decide
  refine (routeRows_ok _ _).2 ⟨n0, fun o ho => ?_⟩
  unfold routeLines at ho
  simp only [List.mem_append, List.mem_map, List.mem_flatMap] at ho
  rcases ho with ((((⟨n, hn, rfl⟩ | ⟨c, hc, -⟩) | ⟨s, hs, rfl⟩) | ⟨s, hs, rfl⟩) | ⟨s, hs, -⟩) | ⟨s, hs, -⟩
  · have hn' : n ∈ [0, 1, 2, 3, 4, 5, 6, 7] := (List.mem_filter.1 hn).1
    have hl : LowerLimit ((valleyNet.data (valleyValues a b) valleyStart).minFlow n) ∧ UpperLimit ((valleyNet.data (valleyValues a b) valleyStart).maxFlow n) := by
      by_cases hi : n ∈ [0, 6]
      · exact ⟨(h.inflows n hi).2.1, (h.inflows n hi).2.2.1⟩
      · have := h.others n hn' (by simpa using (List.mem_filter.1 hn).2) hi
        exact ⟨this.1, this.2.1⟩
    obtain ⟨r, hr, -⟩ := admits_iff hl.1 hl.2
    have key : ∀ n ∈ [0, 1, 2, 3, 4, 5, 6, 7], (∃ r ∈ valleyNet.routes, one (passes ((valleyNet.data (valleyValues 0 0) valleyStart).kind n) n r) ≠ 0) ∧ ∀ r ∈ valleyNet.routes, one (passes ((valleyNet.data (valleyValues 0 0) valleyStart).kind n) n r) ≤ 1 := by decide
    unfold nodeLine limitLine
    rw [hr]
    exact ⟨_, rfl, fun _ _ => rfl, (key n hn').1, (key n hn').2⟩
  · cases hc
  · rw [show (valleyNet.data (valleyValues a b) valleyStart).storages = [⟨[2], [1], 50, 100, 0⟩] from rfl, List.mem_singleton] at hs
    subst hs
    have key : (∃ r ∈ valleyNet.routes, (storageLine (valleyNet.data (valleyValues 0 0) valleyStart) ⟨[2], [1], 50, 100, 0⟩).mult r ≠ 0) ∧
        ∀ r ∈ valleyNet.routes, (storageLine (valleyNet.data (valleyValues 0 0) valleyStart) ⟨[2], [1], 50, 100, 0⟩).mult r ≤ 1 := by decide +kernel
    exact ⟨_, rfl, fun _ _ => rfl, key.1, key.2⟩
  · rw [show (valleyNet.data (valleyValues a b) valleyStart).virtuals = [⟨[5], [1], true, 20, 50, 0⟩] from rfl, List.mem_singleton] at hs
    subst hs
    have key : (∃ r ∈ valleyNet.routes, (virtualLine (valleyNet.data (valleyValues 0 0) valleyStart) ⟨[5], [1], true, 20, 50, 0⟩).mult r ≠ 0) ∧
        ∀ r ∈ valleyNet.routes, (virtualLine (valleyNet.data (valleyValues 0 0) valleyStart) ⟨[5], [1], true, 20, 50, 0⟩).mult r ≤ 1 := by decide +kernel
    exact ⟨_, rfl, fun _ _ => rfl, key.1, key.2⟩
  · cases hs
  · cases hs

/-- The catchments have the flows `a 0, a 1, …` and `b 0, b 1, …`. -/
private def valleyParams (a b : Nat → Rat) (h : List Done) : Values := valleyValues (a h.length) (b h.length)

example (a b : Nat → Rat) (ha : ∀ i, OrdinaryDouble (a i) ∧ 0 ≤ a i) (hb : ∀ i, OrdinaryDouble (b i) ∧ 0 ≤ b i) (k : Nat) :
    ∃ h m, Runs valleyNet (routeAnswer valleyNet) (valleyParams a b) valleyStart h m ∧ h.length = k := by
  simpa using C128_runs (params := valleyParams a b) (inflows := fun _ => [0, 6]) (way := fun _ => valleyWay) (fun h => valley_runsOff (ha _).1 (hb _).1 (ha _).2 (hb _).2)
    (fun h => valley_rows (ha _).1 (hb _).1 (ha _).2 (hb _).2) [] valleyStart .start k

private def valleyInfo : Routes.NodeInfo := ⟨fun n => toString n, fun n => toString n, fun _ => 0⟩

private theorem valley_routes : Routes.findAllRoutes ⟨valleyNet.nodes, valleyNet.graph.edges⟩ valleyInfo (.cls fun n => valleyNet.kind n == .input)
    (.cls fun n => valleyNet.kind n == .output) (some fun n => valleyNet.kind n != .other) none .strict = .ok valleyNet.routes := by
  have h1 : valleyNet.nodes.mergeSort (fun a b => decide (valleyInfo.name a ≤ valleyInfo.name b)) = valleyNet.nodes :=
    List.mergeSort_of_pairwise (by decide +kernel)
  have h2 : valleyNet.routes.mergeSort (fun a b => decide (a.map valleyInfo.fqn ≤ b.map valleyInfo.fqn)) = valleyNet.routes :=
    List.mergeSort_of_pairwise (by decide +kernel)
  have h3 : Routes.filterM (Routes.routeOk valleyInfo (some fun n => valleyNet.kind n != .other) none .strict)
      ((valleyNet.nodes.filter fun n => valleyNet.kind n == .input).flatMap fun s =>
        (valleyNet.nodes.filter fun n => valleyNet.kind n == .output).flatMap fun t =>
          Digraph.allSimplePaths ⟨valleyNet.nodes, valleyNet.graph.edges⟩ s t none) = .ok valleyNet.routes := by decide +kernel
  unfold Routes.findAllRoutes Routes.candidatePaths Routes.selectNodes
  simp only [h1, h3, h2]

private theorem valley_acyclic : ¬ Digraph.Cyclic ⟨valleyNet.nodes, valleyNet.graph.within⟩ := by
  rintro ⟨u, hu⟩
  have key : ∀ a b, (a, b) ∈ valleyNet.graph.within → [0, 1, 0, 1, 2, 3, 0, 1].getD a 0 < [0, 1, 0, 1, 2, 3, 0, 1].getD b 0 := by
    have : ∀ e ∈ valleyNet.graph.within, [0, 1, 0, 1, 2, 3, 0, 1].getD e.1 0 < [0, 1, 0, 1, 2, 3, 0, 1].getD e.2 0 := by decide +kernel
    exact fun a b h => this _ h
  have : ∀ a b, Relation.TransGen (Digraph.Edge ⟨valleyNet.nodes, valleyNet.graph.within⟩) a b → [0, 1, 0, 1, 2, 3, 0, 1].getD a 0 < [0, 1, 0, 1, 2, 3, 0, 1].getD b 0 := by
    intro a b h
    induction h with
    | single h => exact key _ _ h
    | tail _ h ih => exact lt_trans ih (key _ _ h)
  exact lt_irrefl _ (this u u hu)

private def wet : List Done → Values := fun _ => valleyValues 120 30

private theorem valley_alike : Alike valleyNet wet valleyStart := by
  have o : OrdinaryDouble 120 ∧ OrdinaryDouble 30 := by unfold OrdinaryDouble; decide +kernel
  refine ⟨fun h => ?_, fun h => valley_rows o.1 o.2 (by norm_num) (by norm_num), fun h => ?_⟩
  · show ComparableDomains (valleyNet.data (valleyValues 120 30) valleyStart) valleyNet.graph valleyNet.routes
    exact ⟨by unfold Connects; decide +kernel, by decide, by decide, by decide, ⟨valleyInfo, rfl, valley_routes⟩, by decide +kernel, valley_acyclic, by decide +kernel,
      by decide +kernel⟩
  · have k : ((edgeRows (valleyNet.data (valleyValues 120 30) valleyStart) valleyNet.graph).toOption.isSome) = true := by decide +kernel
    show ∃ rows, edgeRows (valleyNet.data (valleyValues 120 30) valleyStart) valleyNet.graph = .ok rows
    cases he : edgeRows (valleyNet.data (valleyValues 120 30) valleyStart) valleyNet.graph with
    | error e => rw [he] at k; exact absurd k (by simp [Except.toOption])
    | ok rows => exact ⟨rows, rfl⟩

example (k : Nat) : ∃ h m, Runs valleyNet (edgeAnswer valleyNet) wet valleyStart h m ∧ h.length = k := by
  have o : OrdinaryDouble 120 ∧ OrdinaryDouble 30 := by unfold OrdinaryDouble; decide +kernel
  simpa using C128_edge_runs (inflows := fun _ => [0, 6]) (way := fun _ => valleyWay) valley_alike (fun h => valley_runsOff o.1 o.2 (by norm_num) (by norm_num)) [] valleyStart .start k

/-- With flows of 120 and 30 the reservoir, which has room for 50, cannot keep the water: it has to be spilled. -/
example : RouteFeasible (valleyNet.data (valleyValues 120 30) valleyStart) valleyNet.routes [120, 65, 5, 27, 3] ∧
    ¬RouteFeasible (valleyNet.data (valleyValues 120 30) valleyStart) valleyNet.routes [120, 5, 5, 27, 3] := by decide +kernel

end Verif.Simulation

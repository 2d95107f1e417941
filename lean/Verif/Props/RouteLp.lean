import Verif.Proof.RowValues
/-!
# The route-based solver: C20 (aggregated nodes), C21 (factors), C22 (flow limits), C23 (objective), C53 (mass balance), C54 (virtual storages)

All theorems quantify over every assignment `x` of the columns that satisfies the rows built by the code.
-/

namespace Verif.Lp

open Verif Verif.Bounds

/-- The routes the solver asks for (`cython_glpk.pyx:424`: `find_all_routes(BaseInput, BaseOutput, valid=(BaseLink, BaseInput,
BaseOutput))`, default strict domain matching) are well formed. -/
theorem wellRouted_of_findAllRoutes (d : Data) (g : Digraph) (hg : g.WF) (info : Routes.NodeInfo) (routes : List (List Nat))
    (hnodes : ∀ n ∈ g.nodes, n ∈ d.nodes)
    (h : Routes.findAllRoutes g info (.cls fun n => d.kind n == .input) (.cls fun n => d.kind n == .output)
      (some fun n => d.kind n != .other) none .strict = .ok routes) : WellRouted d routes := by
  intro r hr
  obtain ⟨-, hex⟩ := Routes.C26_routes_exact g hg info _ _ _ _ _ routes h
  obtain ⟨s, t, hs, ht, hne, ⟨hp1, hp2, hp3, hp4⟩, hv, -, -⟩ := (hex r).1 hr
  obtain ⟨hs1, hs2⟩ := hs
  obtain ⟨ht1, ht2⟩ := ht
  simp only [beq_iff_eq] at hs2 ht2
  refine ⟨hp4, ⟨s, hp1, hs2⟩, ⟨t, hp2, ht2⟩, fun n hn => ⟨?_, hnodes n ?_⟩⟩
  · by_cases h1 : n = s
    · rw [h1, hs2]; simp
    · by_cases h2 : n = t
      · rw [h2, ht2]; simp
      · simpa using hv _ rfl n hn h1 h2
  · have key : ∀ (a : Nat) (l : List Nat), a ∈ g.nodes → (a :: l).IsChain g.Edge → ∀ n ∈ a :: l, n ∈ g.nodes := by
      intro a l
      induction l generalizing a with
      | nil => intro ha _ n hn; simp at hn; exact hn ▸ ha
      | cons b l ih =>
        intro ha hc n hn
        rw [List.isChain_cons_cons] at hc
        rcases List.mem_cons.1 hn with rfl | hn
        · exact ha
        · exact ih b (hg.2.2 a b hc.1).2 hc.2 n hn
    cases r with
    | nil => cases hn
    | cons a l =>
      simp only [List.head?_cons, Option.some.injEq] at hp1
      exact key a l (hp1 ▸ hs1) hp3 n hn

/-- Feasibility can be computed. -/
instance (d : Data) (routes : List (List Nat)) (x : List Rat) : Decidable (RouteFeasible d routes x) :=
  match h : routeRows d routes with
  | .error e => isFalse (by rintro ⟨rows, h1, _⟩; rw [h] at h1; cases h1)
  | .ok rows =>
    have : Decidable (Satisfies rows routes.length x) := by unfold Satisfies; infer_instance
    if hs : Satisfies rows routes.length x then isTrue ⟨rows, h, hs⟩
    else isFalse (by rintro ⟨rows', h1, h2⟩; rw [h] at h1; cases h1; exact hs h2)

instance (d : Data) (routes : List (List Nat)) : Decidable (WellRouted d routes) := by
  unfold WellRouted
  have h : ∀ (r : List Nat) (k : Kind) (o : Option Nat), Decidable (∃ s, o = some s ∧ d.kind s = k) := by
    intro r k o
    cases o with
    | none => exact isFalse (by simp)
    | some s => exact decidable_of_iff (d.kind s = k) (by simp)
  have := fun r : List Nat => h r .input r.head?
  have := fun r : List Nat => h r .output r.getLast?
  infer_instance

/-! ## C22 -/

/-- **C22 (route solver).** In every solution of the constraints the flow reported for a node is within its limits. -/
theorem C22_route (d : Data) (routes : List (List Nat)) (hw : WellRouted d routes) (x : List Rat) (hx : RouteFeasible d routes x)
    (n : Nat) (hn : n ∈ d.nodes) (hk : d.kind n ≠ .other)
    (hmin : LowerLimit (d.minFlow n)) (hmax : UpperLimit (d.maxFlow n)) :
    Limited (d.minFlow n) (d.maxFlow n) (routeNodeFlow d routes x n) := by
  obtain ⟨rows, hrows, -, -, hsat⟩ := hx
  obtain ⟨row, hrow, hnr⟩ := (routeRows_parts hrows).1 n (mem_nonStorages.2 ⟨hn, hk⟩)
  obtain ⟨he, hb, -⟩ := nodeRow_ok hnr
  have h := hsat row hrow
  rw [he, rowVal_nodeCols hk, ← routeNodeFlow_eq hw] at h
  exact limited_of_admits hmin hmax hb h

/-- `Limited` means "between the limits" whenever the limits are in order. -/
theorem C22_between (a b x : Rat) (hle : a ≤ b) (h : Limited (.fin a) (.fin b) x) :
    (F.fin a).effective.AtLeast x ∧ (F.fin b).effective.AtMost x := by
  rcases h with h | ⟨_, h⟩
  · exact h
  · have he := e8_pos
    unfold F.effective at h ⊢
    simp only at h ⊢
    by_cases ha : |a| < e8 <;> by_cases hb : |b| < e8 <;> simp only [ha, hb, if_true, if_false] at h ⊢ <;>
      injection h with h <;> subst h <;> refine ⟨le_refl _, ?_⟩ <;> simp only [F.AtMost]
    · exact le_refl _
    · rw [abs_lt] at ha; rw [not_lt, le_abs] at hb; rcases hb with hb | hb <;> linarith
    · rw [abs_lt] at hb; rw [not_lt, le_abs] at ha; rcases ha with ha | ha <;> linarith
    · exact hle

/-! ## C23 -/

/-- **C23 (route solver).** The minimised quantity is the sum of node flow times node cost, up to 1e-8 per unit of flow; exactly so if no
route has a cost that is non-zero but smaller than 1e-8. -/
theorem C23_route (d : Data) (hd : d.nodes.Nodup) (routes : List (List Nat)) (hw : WellRouted d routes) (x : List Rat)
    (hlen : x.length = routes.length) (hx : ∀ v ∈ x, 0 ≤ v) :
    |routeObjective d routes x - (d.nodes.map fun n => routeNodeFlow d routes x n * d.cost n).sum| ≤ e8 * x.sum ∧
    ((∀ r ∈ routes, |routeCost d r| < e8 → routeCost d r = 0) →
      routeObjective d routes x = (d.nodes.map fun n => routeNodeFlow d routes x n * d.cost n).sum) := by
  have h1 : (d.nodes.map fun n => routeNodeFlow d routes x n * d.cost n).sum = S routes x (routeCost d) := by
    have : (d.nodes.map fun n => routeNodeFlow d routes x n * d.cost n) =
        d.nodes.map fun n => S routes x (fun r => if Carries d r n then d.cost n else 0) := by
      apply List.map_congr_left
      intro n _
      rw [routeNodeFlow_eq hw, mul_comm, ← S_mul]
      apply S_congr; intro r _; split_ifs <;> simp
    rw [this, ← S_sum]
    apply S_congr
    intro r hr
    rw [sum_carries hd hw hr]; rfl
  have h2 : routeObjective d routes x = S routes x (fun r => roundCost (routeCost d r)) := rfl
  rw [h1, h2]
  constructor
  · rw [← S_sub, abs_le]
    have hp : ∀ r : List Nat, |roundCost (routeCost d r) - routeCost d r| ≤ e8 := by
      intro r
      unfold roundCost
      split_ifs with h
      · rw [zero_sub, abs_neg]; exact h.le
      · rw [sub_self, abs_zero]; exact e8_pos.le
    have hS : S routes x (fun _ => e8) = e8 * x.sum := by
      rw [← S_one routes x hlen, ← S_mul]; simp
    constructor
    · rw [← hS, ← S_neg]
      exact S_le hx fun r _ => (abs_le.1 (hp r)).1
    · rw [← hS]
      exact S_le hx fun r _ => (abs_le.1 (hp r)).2
  · intro h
    apply S_congr
    intro r hr
    unfold roundCost
    split_ifs with hc
    · exact (h r hr hc).symm
    · rfl

/-! ## C53 -/

private theorem sum_kind {d : Data} (hd : d.nodes.Nodup) {routes : List (List Nat)} (hw : WellRouted d routes) {x : List Rat}
    (hlen : x.length = routes.length) (k : Kind) (hk : k = .input ∨ k = .output) :
    ((d.nodes.filter fun n => d.kind n == k).map fun n => routeNodeFlow d routes x n).sum = x.sum := by
  rw [← S_one routes x hlen, sum_map_filter]
  have : (d.nodes.map fun n => if (d.kind n == k) = true then routeNodeFlow d routes x n else 0) =
      d.nodes.map fun n => S routes x (fun r => if Carries d r n then (if d.kind n = k then 1 else 0) else 0) := by
    apply List.map_congr_left
    intro n _
    rw [routeNodeFlow_eq hw]
    by_cases h : d.kind n = k
    · simp [h]
    · simp only [beq_iff_eq, h, if_false, ite_self]; rw [S_zero]
  rw [this, ← S_sum]
  apply S_congr
  intro r hr
  rw [sum_carries hd hw hr (fun n => if d.kind n = k then 1 else 0)]
  obtain ⟨s, mid, t, rfl, hs, ht⟩ := route_shape hw hr
  have e2 : (s :: (mid ++ [t])).getLast? = some t := by
    rw [← List.cons_append, List.getLast?_append]; simp
  rw [e2]
  simp only [List.head?_cons, List.tail_cons, List.dropLast_concat, Option.toList_some, List.map_append, List.sum_append,
    List.map_cons, List.map_nil, List.sum_cons, List.sum_nil, hs, ht]
  have hmid : ((mid.filter fun n => d.kind n == .link).map fun n => if d.kind n = k then (1 : Rat) else 0).sum = 0 := by
    apply List.sum_eq_zero
    intro v hv
    obtain ⟨n, hn, rfl⟩ := List.mem_map.1 hv
    have := (List.mem_filter.1 hn).2
    simp only [beq_iff_eq] at this
    rw [this]
    rcases hk with rfl | rfl <;> simp
  rw [hmid]
  rcases hk with rfl | rfl <;> simp

private theorem sum_split {l m : List Nat} (hl : l.Nodup) (hm : m.Nodup) (hsub : ∀ n ∈ m, n ∈ l) (f : Nat → Rat) :
    (l.map f).sum = ((l.filter fun n => !m.contains n).map f).sum + (m.map f).sum := by
  have h1 : ((l.filter fun n => m.contains n).map f).sum = (m.map f).sum := by
    apply List.Perm.sum_eq
    apply List.Perm.map
    rw [List.perm_ext_iff_of_nodup (hl.filter _) hm]
    intro a
    simp only [List.mem_filter, List.contains_iff_mem]
    exact ⟨fun h => h.2, fun h => ⟨hsub a h, h⟩⟩
  rw [← h1, sum_map_filter, sum_map_filter, ← List.sum_map_add]
  congr 1
  apply List.map_congr_left
  intro n _
  cases m.contains n <;> simp

private theorem sum_flatMap_map {β : Type} (l : List β) (f : β → List Nat) (g : Nat → Rat) :
    ((l.flatMap f).map g).sum = (l.map fun b => ((f b).map g).sum).sum := by
  induction l with
  | nil => rfl
  | cons b l ih => simp [List.flatMap_cons, ih]

/-- The sub-nodes of the storages: distinct nodes of the model, inputs and outputs respectively. -/
def StoragesOk (d : Data) : Prop :=
  (d.storages.flatMap (·.inputs)).Nodup ∧ (d.storages.flatMap (·.outputs)).Nodup ∧
  (∀ s ∈ d.storages, ∀ n ∈ s.inputs, n ∈ d.nodes ∧ d.kind n = .input) ∧
  (∀ s ∈ d.storages, ∀ n ∈ s.outputs, n ∈ d.nodes ∧ d.kind n = .output)

theorem balance_core {d : Data} (hd : d.nodes.Nodup) (hs : StoragesOk d) (flow : Nat → Rat)
    (h : ((d.nodes.filter fun n => d.kind n == .input).map flow).sum = ((d.nodes.filter fun n => d.kind n == .output).map flow).sum) :
    ((d.nodes.filter fun n => d.kind n == .input && !(d.storages.flatMap (·.inputs)).contains n).map flow).sum =
      ((d.nodes.filter fun n => d.kind n == .output && !(d.storages.flatMap (·.outputs)).contains n).map flow).sum +
      (d.storages.map fun s => storageFlow flow s).sum := by
  obtain ⟨h1, h2, h3, h4⟩ := hs
  have e1 := sum_split (hd.filter fun n => d.kind n == .input) h1 (by
    intro n hn
    obtain ⟨s, hs, hn⟩ := List.mem_flatMap.1 hn
    simpa using h3 s hs n hn) flow
  have e2 := sum_split (hd.filter fun n => d.kind n == .output) h2 (by
    intro n hn
    obtain ⟨s, hs, hn⟩ := List.mem_flatMap.1 hn
    simpa using h4 s hs n hn) flow
  rw [List.filter_filter] at e1 e2
  have f1 : ∀ (k : Kind) (m : List Nat), (fun n => (!m.contains n) && (d.kind n == k)) = fun n => (d.kind n == k) && !m.contains n := by
    intro k m; funext n; exact Bool.and_comm _ _
  rw [f1, sum_flatMap_map] at e1 e2
  have e3 : (d.storages.map fun s => storageFlow flow s).sum =
      (d.storages.map fun s => (s.outputs.map flow).sum).sum - (d.storages.map fun s => (s.inputs.map flow).sum).sum := by
    unfold storageFlow
    induction d.storages with
    | nil => simp
    | cons s l ih => simp only [List.map_cons, List.sum_cons, ih]; ring
  rw [e3]
  linarith

/-- **C53 (route solver).** Water entering through inputs equals water leaving through outputs plus the net flow into all
storages. (Here inputs and outputs are those that are not sub-nodes of a storage.) -/
theorem C53_route (d : Data) (hd : d.nodes.Nodup) (hs : StoragesOk d) (routes : List (List Nat)) (hw : WellRouted d routes)
    (x : List Rat) (hlen : x.length = routes.length) :
    ((d.nodes.filter fun n => d.kind n == .input && !(d.storages.flatMap (·.inputs)).contains n).map (routeNodeFlow d routes x)).sum =
      ((d.nodes.filter fun n => d.kind n == .output && !(d.storages.flatMap (·.outputs)).contains n).map
        (routeNodeFlow d routes x)).sum +
      (d.storages.map fun s => storageFlow (routeNodeFlow d routes x) s).sum := by
  apply balance_core hd hs
  have h1 := sum_kind hd hw hlen .input (.inl rfl)
  have h2 := sum_kind hd hw hlen .output (.inr rfl)
  exact h1.trans h2.symm

/-- **C53 (storages).** The net flow of a storage is the expression its row bounds; so in every solution its volume after the timestep
stays within its volume limits. -/
theorem C53_storage (d : Data) (routes : List (List Nat)) (hw : WellRouted d routes) (x : List Rat) (hx : RouteFeasible d routes x)
    (s : StorageData) (hs : s ∈ d.storages) (hi : s.inputs.Nodup) (ho : s.outputs.Nodup)
    (hik : ∀ n ∈ s.inputs, d.kind n = .input) (hok : ∀ n ∈ s.outputs, d.kind n = .output)
    (hv1 : s.mn ≤ s.volume) (hv2 : s.volume ≤ s.mx) (hdays : 0 < d.days) (hbig : (s.mx - s.mn) / d.days < dblMax) :
    s.mn ≤ s.volume + storageFlow (routeNodeFlow d routes x) s * d.days ∧
    s.volume + storageFlow (routeNodeFlow d routes x) s * d.days ≤ s.mx := by
  obtain ⟨rows, hrows, -, -, hsat⟩ := hx
  obtain ⟨row, hrow, hr⟩ := (routeRows_parts hrows).2.2.1 s hs
  obtain ⟨e, hb⟩ := storage_value hw x hi ho hik hok hr
  have h := hsat row hrow
  rw [e, hb] at h
  exact Storage.storageRow_admits hv1 hv2 hdays hbig h

/-- **C53 (cross-domain).** What leaves through a cross-domain output enters through the connected inputs, divided by the conversion
factors. -/
theorem C53_cross (d : Data) (routes : List (List Nat)) (hw : WellRouted d routes) (x : List Rat) (hx : RouteFeasible d routes x)
    (o : Nat) (ins : List (Nat × Rat)) (hc : (o, ins) ∈ d.cross) (ho : d.kind o = .output)
    (hi : ∀ i ∈ ins, d.kind i.1 = .input) :
    routeNodeFlow d routes x o = (ins.map fun i => routeNodeFlow d routes x i.1 / i.2).sum := by
  obtain ⟨rows, hrows, -, -, hsat⟩ := hx
  obtain ⟨row, hrow, hr⟩ := (routeRows_parts hrows).2.1 _ hc
  unfold crossRow at hr
  split at hr
  · cases hr
  · obtain ⟨-, he, hb⟩ := zeroRow_ok hr
    have h := admits_zero hb (hsat row hrow)
    rw [he, rowVal_append, rowVal_flatMap] at h
    simp only at h
    rw [rowVal_nodeCols (by rw [ho]; simp)] at h
    have h1 : S routes x (fun r => if Carries d r o then -1 else 0) = - routeNodeFlow d routes x o := by
      rw [routeNodeFlow_eq hw, ← S_neg]; apply S_congr; intro r _; split_ifs <;> simp
    have h2 : (ins.map fun i => rowVal x (const (1 / i.2) (colsOf (fun r => r.head? == some i.1) routes))) =
        ins.map fun i => routeNodeFlow d routes x i.1 / i.2 := by
      apply List.map_congr_left
      intro i hmem
      rw [rowVal_const, one_div, routeNodeFlow_eq hw, div_eq_inv_mul, ← S_mul]
      apply S_congr
      intro r _
      simp only [Carries, hi i hmem, beq_iff_eq]
      split_ifs <;> simp
    rw [h1, h2] at h
    linarith

/-! ## C54 -/

/-- **C54 (route solver, partial).** For a virtual storage on distinct nodes, none of which is an input or output in the middle of a route,
the change of volume (factor times flow times days) respects the row: it never exceeds the volume available. Missing: repeated
nodes (see `C54_fails`). -/
theorem C54_route_partial (d : Data) (routes : List (List Nat)) (hw : WellRouted d routes) (x : List Rat)
    (hx : RouteFeasible d routes x) (v : VirtualData) (hv : v ∈ d.virtuals) (hn : v.nodes.Nodup)
    (hpt : ∀ n ∈ v.nodes, NoPassThrough d routes n) :
    (VirtualStorage.vRow v.active v.volume v.mx v.mn d.days).Admits (VirtualStorage.depletion (uses (routeNodeFlow d routes x) v)) := by
  obtain ⟨rows, hrows, -, -, hsat⟩ := hx
  obtain ⟨row, hrow, hr⟩ := (routeRows_parts hrows).2.2.2.1 v hv
  obtain ⟨e, hb⟩ := virtual_value hw x hn hpt hr
  have h := hsat row hrow
  rwa [e, hb] at h

/-- **C54 (volume).** When the row is respected by an active virtual storage whose volume is inside its limits, the new volume is the old one minus the
sum of factor times flow times days (up to the 1e-6 snapping) and stays within the limits; when inactive nothing changes. -/
theorem C54_volume (s : VirtualStorage.VState) (us : List VirtualStorage.Use) (days mx mn : Rat) :
    (s.active = false → s.after us days mx mn none = s) ∧
    (s.active = true → mn ≤ s.store.volume → s.store.volume ≤ mx → 0 < days → (mx - mn) / days < dblMax →
      (VirtualStorage.vRow s.active s.store.volume mx mn days).Admits (VirtualStorage.depletion us) →
      |(s.after us days mx mn none).store.volume - (s.store.volume - (us.map fun u => u.factor * u.flow).sum * days)| ≤ Storage.e6 ∧
      mn ≤ (s.after us days mx mn none).store.volume ∧ (s.after us days mx mn none).store.volume ≤ mx) := by
  constructor
  · intro h; unfold VirtualStorage.VState.after; rw [h]; rfl
  · intro ha h1 h2 hd hbig h
    have h' : (Storage.storageRow s.store.volume mx mn days).Admits (VirtualStorage.depletion us) := by
      unfold VirtualStorage.vRow at h
      rw [ha] at h
      by_cases he : mx = mn
      · unfold Storage.storageRow; rw [if_pos he]; rw [if_pos he] at h; exact h
      · rw [if_neg he] at h; simpa using h
    obtain ⟨g1, g2⟩ := Storage.storageRow_admits h1 h2 hd hbig h'
    have e : (s.after us days mx mn none).store.volume =
        Storage.snap mx mn (s.store.volume + VirtualStorage.depletion us * days) := by
      unfold VirtualStorage.VState.after; rw [ha]; rfl
    have e2 : s.store.volume - (us.map fun u => u.factor * u.flow).sum * days =
        s.store.volume + VirtualStorage.depletion us * days := by
      rw [VirtualStorage.depletion_eq]; ring
    rw [e, e2]
    have hp := Storage.e6_pos
    exact ⟨Storage.snap_err _ _ _ (.inr (.inr ⟨g1, g2⟩)), Storage.snap_mem (le_trans h1 h2) (by linarith) (by linarith)⟩

/-! ## C20 -/

/-- **C20 (route solver, partial).** The limits of an aggregated node bound its reported flow, provided no route passes through
two of its members (and members in the middle of a route are links). Missing: members on a common route (see `C20_fails`). -/
theorem C20_route_partial (d : Data) (routes : List (List Nat)) (hw : WellRouted d routes) (x : List Rat)
    (hx : RouteFeasible d routes x) (a : AggData) (ha : a ∈ d.aggs)
    (hpt : ∀ n ∈ a.nodes, NoPassThrough d routes n)
    (hone : ∀ r ∈ routes, ((a.nodes.zip a.weightList).filter fun p => r.contains p.1).length ≤ 1)
    (hmin : LowerLimit a.minFlow) (hmax : UpperLimit a.maxFlow) :
    Limited a.minFlow a.maxFlow (aggFlow (routeNodeFlow d routes x) a) := by
  obtain ⟨rows, hrows, -, -, hsat⟩ := hx
  obtain ⟨row, hrow, hr⟩ := (routeRows_parts hrows).2.2.2.2.2 a ha
  obtain ⟨e, hb⟩ := agg_value hw x hpt hone hr
  have h := hsat row hrow
  rw [e] at h
  exact limited_of_admits hmin hmax hb h

/-! ## C21 -/

/-- **C21 (route solver, partial).** The flows of the members of an aggregated node with factors are proportional to the factors. Missing:
members that are inputs or outputs in the middle of a route (see `C21_fails`). -/
theorem C21_route_partial (d : Data) (routes : List (List Nat)) (hw : WellRouted d routes) (x : List Rat)
    (hx : RouteFeasible d routes x) (a : AggData) (ha : a ∈ d.aggs) (fs : List Rat) (hf : a.factors = some fs)
    (hlen : a.nodes.length = fs.length) (hpt : ∀ n ∈ a.nodes, NoPassThrough d routes n) :
    ∃ c, ∀ p ∈ a.nodes.zip fs, p.2 ≠ 0 ∧ routeNodeFlow d routes x p.1 = c * p.2 := by
  obtain ⟨rows, hrows, -, -, hsat⟩ := hx
  obtain ⟨l, hl, hmem⟩ := (routeRows_parts hrows).2.2.2.2.1 a ha
  obtain ⟨hok, -⟩ := factorRows_ok hl
  obtain ⟨hnz, hrow⟩ := hok fs hf
  refine proportional _ hnz hlen fun n0 rest hN p hp => ?_
  obtain ⟨row, hm, hr⟩ := hrow n0 rest hN p hp
  have hp1 : p.1 ∈ a.nodes := List.mem_of_mem_tail (List.of_mem_zip hp).1
  obtain ⟨e, hb⟩ := factor_value hw x (hpt n0 (by rw [hN]; simp)) (hpt p.1 hp1) hr
  rw [← e]
  exact admits_zero hb (hsat row (hmem row hm))

/-! ## Instances and counterexamples -/

/-- A catchment (0) and a reservoir release (6) supplying two demands (3, 5) through links (1, 2, 4); 7 is the reservoir's inflow
node fed from the catchment. One virtual storage on link 2, an aggregated node on the demands with factors 1 : 2. -/
private def sample : Data where
  kind := fun n => match n with
    | 0 => .input | 1 => .link | 2 => .link | 3 => .output | 4 => .link | 5 => .output | 6 => .input | 7 => .output | _ => .other
  nodes := [0, 1, 2, 3, 4, 5, 6, 7, 8]
  minFlow := fun _ => .fin 0
  maxFlow := fun n => if n = 0 then .fin 10 else .posInf
  cost := fun n => if n = 3 then -10 else if n = 5 then -20 else 1
  storages := [⟨[6], [7], 50, 100, 0⟩]
  virtuals := [⟨[2], [2], true, 20, 40, 0⟩]
  aggs := [⟨[3, 5], some [1, 1], some [1, 2], .negInf, .fin 12⟩]
  cross := []
  days := 1

private def sampleRoutes : List (List Nat) := [[0, 1, 2, 3], [0, 1, 4, 5], [0, 1, 7], [6, 4, 5]]

example : WellRouted sample sampleRoutes ∧ RouteFeasible sample sampleRoutes [3, 4, 3, 2] ∧ StoragesOk sample ∧ sample.nodes.Nodup ∧
    (∀ n ∈ [2, 3, 5], NoPassThrough sample sampleRoutes n) := by
  refine ⟨by decide +kernel, by decide +kernel, ?_, by decide, ?_⟩
  · unfold StoragesOk; decide +kernel
  · unfold NoPassThrough; decide +kernel

/-- The sample's flows: 10 enter, 3 + 6 leave, 1 is stored. -/
example : (List.range 9).map (routeNodeFlow sample sampleRoutes [3, 4, 3, 2]) = [10, 10, 3, 3, 6, 6, 2, 3, 0] := by decide +kernel

example : LowerLimit (sample.minFlow 0) ∧ UpperLimit (sample.maxFlow 0) := by
  have h := dblMax_gt
  refine ⟨.inr ⟨0, rfl, ?_⟩, .inr ⟨10, rfl, ?_⟩⟩
  · constructor <;> linarith
  · have : (20 : Rat) < dblMax := by
      unfold dblMax; exact_mod_cast (by decide +kernel : (20 : Int) < 2 ^ 1024 - 2 ^ 971)
    constructor <;> linarith

/-- Two links in series under one aggregated node. -/
private def series (agg : List AggData) (virtuals : List VirtualData) : Data where
  kind := fun n => match n with | 0 => .input | 1 => .link | 2 => .link | 3 => .output | _ => .other
  nodes := [0, 1, 2, 3]
  minFlow := fun _ => .fin 0
  maxFlow := fun _ => .posInf
  cost := fun _ => 0
  storages := []
  virtuals := virtuals
  aggs := agg
  cross := []
  days := 1

/-- **C20 fails** when a route passes through two members: the row counts the route once, the reported flow counts it
once per member. A maximum of 10 is exceeded by the reported 20. -/
theorem C20_fails : ∃ (d : Data) (routes : List (List Nat)) (x : List Rat) (a : AggData),
    WellRouted d routes ∧ RouteFeasible d routes x ∧ a ∈ d.aggs ∧ a.maxFlow = .fin 10 ∧
    aggFlow (routeNodeFlow d routes x) a = 20 := by
  let a : AggData := ⟨[1, 2], none, none, .negInf, .fin 10⟩
  refine ⟨series [a] [], [[0, 1, 2, 3]], [10], a, by decide +kernel, by decide +kernel, by simp [series], rfl, by decide +kernel⟩

/-- **C54 fails** for a node listed twice (factors 1 and 2): the row charges only the first factor, the volume falls by both; the available
volume 5 is exceeded (the volume would become -10). -/
theorem C54_fails : ∃ (d : Data) (routes : List (List Nat)) (x : List Rat) (v : VirtualData),
    WellRouted d routes ∧ RouteFeasible d routes x ∧ v ∈ d.virtuals ∧ v.mn = 0 ∧ v.volume = 5 ∧ v.active = true ∧
    v.volume + VirtualStorage.depletion (uses (routeNodeFlow d routes x) v) * d.days = -10 := by
  let v : VirtualData := ⟨[1, 1], [1, 2], true, 5, 10, 0⟩
  refine ⟨series [] [v], [[0, 1, 2, 3]], [5], v, by decide +kernel, by decide +kernel, by simp [series], rfl, rfl, rfl, by decide +kernel⟩

/-- **C21 fails** for an input in the middle of a route (allowed when connecting nodes): the rows count the routes passing through it, the
reported flow does not. Members 1 (input, fed by input 0) and 3 (link) with equal factors report 0 and 1. -/
theorem C21_fails : ∃ (d : Data) (routes : List (List Nat)) (x : List Rat) (a : AggData), WellRouted d routes ∧
    RouteFeasible d routes x ∧ a ∈ d.aggs ∧ a.nodes = [1, 3] ∧ a.factors = some [1, 1] ∧
    routeNodeFlow d routes x 1 = 0 ∧ routeNodeFlow d routes x 3 = 1 := by
  let a : AggData := ⟨[1, 3], none, some [1, 1], .negInf, .posInf⟩
  refine ⟨⟨fun n => match n with | 0 => .input | 1 => .input | 2 => .output | 3 => .link | 4 => .input | 5 => .output | _ => .other,
    [0, 1, 2, 3, 4, 5], fun _ => .fin 0, fun _ => .posInf, fun _ => 0, [], [], [a], [], 1⟩,
    [[0, 1, 2], [1, 2], [4, 3, 5]], [1, 0, 1], a, by decide +kernel, by decide +kernel, by simp, rfl, rfl, by decide +kernel,
    by decide +kernel⟩

/-- Members of an aggregated node with factors on a common route make the row unbuildable (GLPK refuses the duplicate column). -/
theorem C21_series_error : ∃ (d : Data) (routes : List (List Nat)) (a : AggData), WellRouted d routes ∧ a ∈ d.aggs ∧
    a.factors = some [1, 1] ∧ ∀ x, ¬ RouteFeasible d routes x := by
  let a : AggData := ⟨[1, 2], none, some [1, 1], .negInf, .posInf⟩
  refine ⟨series [a] [], [[0, 1, 2, 3]], a, by decide +kernel, by simp [series], rfl, ?_⟩
  rintro x ⟨rows, h, -⟩
  have : routeRows (series [a] []) [[0, 1, 2, 3]] matches .error _ := by decide +kernel
  rw [h] at this
  cases this

end Verif.Lp

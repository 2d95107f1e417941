import Verif.Props.Parts
import Verif.Props.Simulation
import Verif.Spec.Apart
/-!
# C132: parts of a model that are not connected can be simulated apart
-/

namespace Verif.Lp

open Verif Verif.Bounds Verif.Composite

/-- Limits and costs of nodes that are not in the model do not matter. -/
private theorem routeFeasible_masked (d : Data) (f g : Nat → F) (c : Nat → Rat) (h : ∀ n ∈ d.nodes, f n = d.minFlow n ∧ g n = d.maxFlow n) (routes : List (List Nat)) (x : List Rat) :
    RouteFeasible { d with minFlow := f, maxFlow := g, cost := c } routes x ↔ RouteFeasible d routes x := by
  have e : routeLines { d with minFlow := f, maxFlow := g, cost := c } = routeLines d := by
    have : d.nonStorages.map (nodeLine { d with minFlow := f, maxFlow := g, cost := c }) = d.nonStorages.map (nodeLine d) := by
      refine List.map_congr_left fun n hn => ?_
      obtain ⟨h1, h2⟩ := h n (mem_nonStorages.1 hn).1
      unfold nodeLine
      dsimp only
      rw [h1, h2]
    unfold routeLines
    rw [← this]
    rfl
  rw [routeFeasible_iff, routeFeasible_iff, e]
  rfl

private theorem edgeFeasible_masked (d : Data) (f g : Nat → F) (c : Nat → Rat) (h : ∀ n ∈ d.nodes, f n = d.minFlow n ∧ g n = d.maxFlow n) (G : Graph) (x : List Rat) :
    EdgeFeasible { d with minFlow := f, maxFlow := g, cost := c } G x ↔ EdgeFeasible d G x := by
  have e : edgeLines { d with minFlow := f, maxFlow := g, cost := c } G = edgeLines d G := by
    have : d.nonStorages.map (nodeLineE { d with minFlow := f, maxFlow := g, cost := c } G) = d.nonStorages.map (nodeLineE d G) := by
      refine List.map_congr_left fun n hn => ?_
      obtain ⟨h1, h2⟩ := h n (mem_nonStorages.1 hn).1
      unfold nodeLineE
      dsimp only
      rw [h1, h2]
      rfl
    unfold edgeLines
    rw [← this]
    rfl
  rw [edgeFeasible_iff, edgeFeasible_iff, e]
  rfl

private theorem routeObjective_masked (d : Data) (f g : Nat → F) (c : Nat → Rat) (routes : List (List Nat)) (h : ∀ r ∈ routes, ∀ n ∈ r, c n = d.cost n) (x : List Rat) :
    routeObjective { d with minFlow := f, maxFlow := g, cost := c } routes x = routeObjective d routes x := by
  rw [routeObjective_S, routeObjective_S]
  refine S_congr fun r hr => ?_
  congr 1
  unfold routeCost
  dsimp only
  congr 1
  refine List.map_congr_left fun n hn => h r hr n ?_
  rw [List.mem_append, List.mem_append, Option.mem_toList, Option.mem_toList] at hn
  rcases hn with (hn | hn) | hn
  · exact List.mem_of_head? hn
  · exact List.mem_of_mem_tail (List.mem_of_mem_dropLast (List.mem_filter.1 hn).1)
  · exact List.mem_of_getLast? hn

private theorem edgeObjective_masked (d : Data) (f g : Nat → F) (c : Nat → Rat) (G : Graph) (h : ∀ n ∈ d.nodes, c n = d.cost n) (x : List Rat) :
    edgeObjective { d with minFlow := f, maxFlow := g, cost := c } G x = edgeObjective d G x := by
  rw [edgeObjective_S, edgeObjective_S]
  refine S_congr fun e _ => ?_
  unfold eCost
  dsimp only
  congr 1
  exact List.map_congr_left fun n hn => by rw [h n hn]

/-- The part of a model with limits and costs of the other side struck out. -/
def mask (side : Nat → Bool) (b : Bool) (d : Data) : Data :=
  { part side b d with
    minFlow := fun n => if side n = b then d.minFlow n else .fin 0
    maxFlow := fun n => if side n = b then d.maxFlow n else .fin 0
    cost := fun n => if side n = b then d.cost n else 0 }

private theorem mask_nodes {side : Nat → Bool} {b : Bool} {d : Data} {n : Nat} (h : n ∈ (part side b d).nodes) : side n = b := by
  simpa using (List.mem_filter.1 h).2

theorem mask_feasible (side : Nat → Bool) (b : Bool) (d : Data) (routes : List (List Nat)) (x : List Rat) : RouteFeasible (mask side b d) routes x ↔ RouteFeasible (part side b d) routes x :=
  routeFeasible_masked (part side b d) _ _ _ (fun n hn => by rw [if_pos (mask_nodes hn), if_pos (mask_nodes hn)]; exact ⟨rfl, rfl⟩) routes x

theorem mask_edge_feasible (side : Nat → Bool) (b : Bool) (d : Data) (g : Graph) (x : List Rat) : EdgeFeasible (mask side b d) g x ↔ EdgeFeasible (part side b d) g x :=
  edgeFeasible_masked (part side b d) _ _ _ (fun n hn => by rw [if_pos (mask_nodes hn), if_pos (mask_nodes hn)]; exact ⟨rfl, rfl⟩) g x

theorem mask_objective (side : Nat → Bool) (b : Bool) (d : Data) (routes : List (List Nat)) (x : List Rat) :
    routeObjective (mask side b d) (routesOf side b routes) x = routeObjective (part side b d) (routesOf side b routes) x :=
  routeObjective_masked (part side b d) _ _ _ _ (fun r hr n hn => by
    rw [if_pos (onSide_iff.1 (List.mem_filter.1 hr).2 n hn)]
    rfl) x

theorem mask_edge_objective (side : Nat → Bool) (b : Bool) (d : Data) (g : Graph) (x : List Rat) : edgeObjective (mask side b d) g x = edgeObjective (part side b d) g x :=
  edgeObjective_masked (part side b d) _ _ _ _ (fun n hn => by rw [if_pos (mask_nodes hn)]; rfl) x

theorem mask_optimal (side : Nat → Bool) (b : Bool) (d : Data) (routes : List (List Nat)) (x : List Rat) :
    Optimal (mask side b d) (routesOf side b routes) x ↔ Optimal (part side b d) (routesOf side b routes) x := by
  unfold Optimal
  simp only [mask_feasible, mask_objective]

theorem mask_edge_optimal (side : Nat → Bool) (b : Bool) (d : Data) (g : Graph) (x : List Rat) : EdgeOptimal (mask side b d) g x ↔ EdgeOptimal (part side b d) g x := by
  unfold EdgeOptimal
  simp only [mask_edge_feasible, mask_edge_objective]

theorem idle_zip (g : Graph) (y : List Rat) (hl : y.length = g.edges.length) : Idle g y ↔ ∀ p ∈ g.edges.zip y, g.domain p.1.1 ≠ g.domain p.1.2 → p.2 = 0 := by
  unfold Idle
  constructor
  · intro h p hp hd
    obtain ⟨c, hc, rfl⟩ := List.mem_iff_getElem.1 hp
    have hc' : c < g.edges.length := by rw [List.length_zip] at hc; omega
    have hy : c < y.length := by omega
    rw [List.getElem_zip] at hd ⊢
    have := h c hc' hd
    rwa [List.getD_eq_getElem?_getD, List.getElem?_eq_getElem hy] at this
  · intro h c hc hd
    have hy : c < y.length := by omega
    rw [List.getD_eq_getElem?_getD, List.getElem?_eq_getElem hy]
    refine h (g.edges[c], y[c]) (List.mem_iff_getElem.2 ⟨c, by rw [List.length_zip]; omega, ?_⟩) hd
    rw [List.getElem_zip]

theorem idle_parts (side : Nat → Bool) (g : Graph) (y : List Rat) (hl : y.length = g.edges.length) :
    Idle g y ↔ ∀ b, Idle (g.part side b) (pick (fun e => side e.1 == b) g.edges y) := by
  rw [idle_zip g y hl]
  have key : ∀ b, (g.part side b).edges.zip (pick (fun e => side e.1 == b) g.edges y) = (g.edges.zip y).filter fun p => side p.1.1 == b := fun b => zip_filter _ _ _ hl
  constructor
  · intro h b
    rw [idle_zip _ _ (pick_length _ _ _ hl), key]
    exact fun p hp => h p (List.mem_filter.1 hp).1
  · intro h p hp hd
    have := h (side p.1.1)
    rw [idle_zip _ _ (pick_length _ _ _ hl), key] at this
    exact this p (List.mem_filter.2 ⟨hp, by simp⟩) hd

end Verif.Lp

namespace Verif.Simulation

open Verif Verif.Lp Verif.Bounds Verif.Composite

/-! ## Positions -/

private theorem positions_fst {α : Type} (q : α → Bool) (l : List α) : l.filter q = (l.zipIdx.filter fun p => q p.1).map (·.1) := by
  have e : l = l.zipIdx.map (·.1) := by simp
  conv_lhs => rw [e]
  rw [List.filter_map]
  rfl

/-- The entry at a position is the entry of the whole list at its number there. -/
private theorem positions_some {α : Type} (q : α → Bool) (l : List α) (i : Nat) (d : Nat) (a : α) (h : (l.filter q)[i]? = some a) : l[(positions q l).getD i d]? = some a ∧ q a = true := by
  rw [positions_fst, List.getElem?_map] at h
  cases hp : (l.zipIdx.filter fun p => q p.1)[i]? with
  | none => rw [hp] at h; cases h
  | some p =>
    rw [hp] at h
    simp only [Option.map_some, Option.some.injEq] at h
    subst h
    have hm := List.mem_of_getElem? hp
    obtain ⟨h1, h2⟩ := List.mem_filter.1 hm
    refine ⟨?_, h2⟩
    unfold positions
    rw [List.getD_eq_getElem?_getD, List.getElem?_map, hp]
    exact List.mk_mem_zipIdx_iff_getElem?.1 h1

private theorem positions_none {α : Type} (q : α → Bool) (l : List α) (i : Nat) (h : (l.filter q)[i]? = none) : l[(positions q l).getD i l.length]? = none := by
  rw [positions_fst, List.getElem?_map, Option.map_eq_none_iff] at h
  unfold positions
  rw [List.getD_eq_getElem?_getD, List.getElem?_map, h]
  simp

private theorem positions_map {α β : Type} (q : α → Bool) (l : List α) (d : Nat) (F : α → Nat → β) :
    (l.filter q).zipIdx.map (fun p => F p.1 ((positions q l).getD p.2 d)) = (l.zipIdx.filter fun p => q p.1).map fun p => F p.1 p.2 := by
  refine List.ext_getElem? fun i => ?_
  rw [List.getElem?_map, List.getElem?_map, List.getElem?_zipIdx, positions_fst, List.getElem?_map]
  cases hp : (l.zipIdx.filter fun p => q p.1)[i]? with
  | none => rfl
  | some p =>
    simp only [Option.map_some, Nat.zero_add]
    unfold positions
    rw [List.getD_eq_getElem?_getD, List.getElem?_map, hp]
    rfl

/-! ## The data and the next state of a part -/

private theorem virtual_part (side : Nat → Bool) (b : Bool) (N : Net) (v : Values) (m : Moment) (i : Nat) :
    (m.part side b N).virtual (v.part side b N) i = m.virtual v (N.licence side b i) := rfl

private theorem data_part (side : Nat → Bool) (b : Bool) (N : Net) (v : Values) (m : Moment) : (N.part side b).data (v.part side b N) (m.part side b N) = mask side b (N.data v m) := by
  have h1 := positions_map (Net.storeOn side b) N.stores N.stores.length
    (fun s i => (⟨s.1, s.2, (m.stores i).volume, (v.limits i).1, (v.limits i).2⟩ : StorageData))
  have h2 := positions_map (Net.virtualOn side b) N.virtuals N.virtuals.length
    (fun s i => (⟨s.1, s.2, v.active i, (m.virtual v i).volume, (v.vlimits i).1, (v.vlimits i).2⟩ : VirtualData))
  have e1 : ((N.part side b).data (v.part side b N) (m.part side b N)).storages = (mask side b (N.data v m)).storages := by
    refine Eq.trans h1 ?_
    show _ = (N.stores.zipIdx.map fun q => _).filter _
    rw [List.filter_map]
    rfl
  have e2 : ((N.part side b).data (v.part side b N) (m.part side b N)).virtuals = (mask side b (N.data v m)).virtuals := by
    refine Eq.trans h2 ?_
    show _ = (N.virtuals.zipIdx.map fun q => _).filter _
    rw [List.filter_map]
    rfl
  have ext : ∀ d d' : Data, d.kind = d'.kind → d.nodes = d'.nodes → d.minFlow = d'.minFlow → d.maxFlow = d'.maxFlow → d.cost = d'.cost → d.storages = d'.storages → d.virtuals = d'.virtuals →
      d.aggs = d'.aggs → d.cross = d'.cross → d.days = d'.days → d = d' := by
    rintro ⟨⟩ ⟨⟩
    simp only
    rintro rfl rfl rfl rfl rfl rfl rfl rfl rfl rfl
    rfl
  exact ext _ _ rfl rfl rfl rfl rfl e1 e2 rfl rfl rfl

private theorem next_part (side : Nat → Bool) (b : Bool) (N : Net) (v : Values) (flow : Nat → Rat) (m : Moment) :
    (N.part side b).next (v.part side b N) (flowsOf side b flow) (m.part side b N) = (N.next v flow m).part side b N := by
  unfold Net.next
  have e1 : ∀ i, (match (N.part side b).stores[i]? with
      | none => (m.part side b N).stores i
      | some s => storeStep (v.part side b N) (flowsOf side b flow) s i ((m.part side b N).stores i)) =
      match N.stores[N.store side b i]? with
      | none => m.stores (N.store side b i)
      | some s => storeStep v flow s (N.store side b i) (m.stores (N.store side b i)) := by
    intro i
    cases h : (N.part side b).stores[i]? with
    | none =>
      have : N.stores[N.store side b i]? = none := positions_none _ _ _ h
      rw [this]
      rfl
    | some s =>
      obtain ⟨h1, h2⟩ := positions_some _ _ i N.stores.length s h
      have h1 : N.stores[N.store side b i]? = some s := h1
      rw [h1]
      have hs := onSide_iff.1 h2
      have f1 : s.1.map (fun n => Storage.Commit.fromStore (flowsOf side b flow n)) = s.1.map fun n => .fromStore (flow n) :=
        List.map_congr_left fun n hn => by unfold flowsOf; rw [if_pos (hs n (List.mem_append_left _ hn))]
      have f2 : s.2.map (fun n => Storage.Commit.toStore (flowsOf side b flow n)) = s.2.map fun n => .toStore (flow n) :=
        List.map_congr_left fun n hn => by unfold flowsOf; rw [if_pos (hs n (List.mem_append_right _ hn))]
      show storeStep (v.part side b N) (flowsOf side b flow) s i (m.stores (N.store side b i)) = _
      unfold storeStep
      rw [f1, f2]
      rfl
  have e2 : ∀ i, (match (N.part side b).virtuals[i]? with
      | none => (m.part side b N).virtuals i
      | some s => virtualStep (v.part side b N) (flowsOf side b flow) s i ((m.part side b N).virtual (v.part side b N) i)) =
      match N.virtuals[N.licence side b i]? with
      | none => m.virtuals (N.licence side b i)
      | some s => virtualStep v flow s (N.licence side b i) (m.virtual v (N.licence side b i)) := by
    intro i
    cases h : (N.part side b).virtuals[i]? with
    | none =>
      have : N.virtuals[N.licence side b i]? = none := positions_none _ _ _ h
      rw [this]
      rfl
    | some s =>
      obtain ⟨h1, h2⟩ := positions_some _ _ i N.virtuals.length s h
      have h1 : N.virtuals[N.licence side b i]? = some s := h1
      rw [h1]
      have hs := onSide_iff.1 h2
      have f1 : (s.1.zip s.2).map (fun p => (⟨p.2, flowsOf side b flow p.1⟩ : VirtualStorage.Use)) = (s.1.zip s.2).map fun p => ⟨p.2, flow p.1⟩ :=
        List.map_congr_left fun p hp => by unfold flowsOf; rw [if_pos (hs p.1 (List.of_mem_zip hp).1)]
      rw [virtual_part]
      show virtualStep (v.part side b N) (flowsOf side b flow) s i (m.virtual v (N.licence side b i)) = _
      unfold virtualStep
      rw [f1]
      rfl
  exact congrArg₂ Moment.mk (funext e1) (funext e2)

/-! ## The answers of the solvers -/

private theorem commit_part {side : Nat → Bool} {b : Bool} {N : Net} {f f' : Nat → Rat} (h : ∀ n, side n = b → f n = f' n) : flowsOf side b (N.commit f) = (N.part side b).commit f' := by
  funext n
  unfold flowsOf Net.commit
  have hm : n ∈ (N.part side b).nodes ↔ n ∈ N.nodes ∧ side n = b := by simp [Net.part]
  have hk : (N.part side b).kind = N.kind := rfl
  simp only [hm, hk]
  by_cases hb : side n = b
  · simp only [hb, if_true, and_true, h n hb]
  · simp only [hb, if_false, and_false, false_and]

/-- What a solver may answer for the whole model is what it may answer for the parts. -/
private structure Splits (side : Nat → Bool) (N : Net) (answer : Net → Data → (Nat → Rat) → Prop) : Prop where
  split : ∀ d flow, Separate side d → answer N d flow → ∀ b, answer (N.part side b) (mask side b d) (flowsOf side b flow)
  join : ∀ d (f : Bool → Nat → Rat), Separate side d → (∀ b, answer (N.part side b) (mask side b d) (f b)) → ∃ flow, answer N d flow ∧ ∀ b, flowsOf side b flow = f b

private theorem route_flows {side : Nat → Bool} {N : Net} (hr : RoutesApart side N.routes) {d : Data} {x : List Rat} (hl : x.length = N.routes.length) (b : Bool) :
    flowsOf side b (N.commit (routeNodeFlow d N.routes x)) = (N.part side b).commit (routeNodeFlow (mask side b d) (N.part side b).routes (pick (onSide side b) N.routes x)) := by
  refine commit_part fun n hn => ?_
  subst hn
  exact C118_flows side d N.routes hr x hl n

private theorem edge_flows {side : Nat → Bool} {N : Net} (hr : EdgesApart side N.graph.edges) {d : Data} {x : List Rat} (hl : x.length = N.graph.edges.length) (b : Bool) :
    flowsOf side b (N.commit (edgeNodeFlow d N.graph x)) =
      (N.part side b).commit (edgeNodeFlow (mask side b d) (N.part side b).graph (pick (fun e => side e.1 == b) N.graph.edges x)) := by
  refine commit_part fun n hn => ?_
  subst hn
  exact C118_edge_flows side d N.graph hr x hl n

private theorem route_splits (side : Nat → Bool) (N : Net) (hr : RoutesApart side N.routes) : Splits side N routeAnswer := by
  constructor
  · rintro d flow hs ⟨x, hx, rfl⟩ b
    obtain ⟨hl, hb⟩ := (C118_feasible side d N.routes hs hr x).1 hx
    exact ⟨_, (mask_feasible side b d _ _).2 (hb b), route_flows hr hl b⟩
  · intro d f hs h
    choose xs hxs hfs using h
    have hxs := fun b => (mask_feasible side b d _ _).1 (hxs b)
    have hlen : ∀ b, (xs b).length = (N.routes.filter (onSide side b)).length := fun b => ((routeFeasible_iff _ _ _).1 (hxs b)).2.1
    obtain ⟨z, hz, h1, h2⟩ := merge (onSide side true) (onSide side false) N.routes (sides_split hr) (xs true) (xs false) (hlen true) (hlen false)
    have hp : ∀ b, pick (onSide side b) N.routes z = xs b := by intro b; cases b <;> assumption
    refine ⟨_, ⟨z, (C118_feasible side d N.routes hs hr z).2 ⟨hz, fun b => by rw [hp b]; exact hxs b⟩, rfl⟩, fun b => ?_⟩
    rw [route_flows hr hz b, hp b]
    exact (hfs b).symm

private theorem best_splits (side : Nat → Bool) (N : Net) (hr : RoutesApart side N.routes) : Splits side N routeBest := by
  constructor
  · rintro d flow hs ⟨x, hx, ho, rfl⟩ b
    obtain ⟨hl, hb⟩ := (C118_optimal side d N.routes hs hr x).1 ⟨hx, ho⟩
    have := (mask_optimal side b d _ _).2 (hb b)
    exact ⟨_, this.1, this.2, route_flows hr hl b⟩
  · intro d f hs h
    choose xs hxs hos hfs using h
    have hxs := fun b => (mask_optimal side b d N.routes (xs b)).1 ⟨hxs b, hos b⟩
    have hlen : ∀ b, (xs b).length = (N.routes.filter (onSide side b)).length := fun b => ((routeFeasible_iff _ _ _).1 (hxs b).1).2.1
    obtain ⟨z, hz, h1, h2⟩ := merge (onSide side true) (onSide side false) N.routes (sides_split hr) (xs true) (xs false) (hlen true) (hlen false)
    have hp : ∀ b, pick (onSide side b) N.routes z = xs b := by intro b; cases b <;> assumption
    have hopt := (C118_optimal side d N.routes hs hr z).2 ⟨hz, fun b => by rw [hp b]; exact hxs b⟩
    refine ⟨_, ⟨z, hopt.1, hopt.2, rfl⟩, fun b => ?_⟩
    rw [route_flows hr hz b, hp b]
    exact (hfs b).symm

private theorem edge_split (side : Nat → Bool) (edges : List (Nat × Nat)) : ∀ e ∈ edges, (side e.1 == false) = !(side e.1 == true) := by
  intro e _
  cases side e.1 <;> rfl

private theorem edge_splits (side : Nat → Bool) (N : Net) (hr : EdgesApart side N.graph.edges) : Splits side N edgeAnswer := by
  constructor
  · rintro d flow hs ⟨x, hx, hi, rfl⟩ b
    obtain ⟨hl, hb⟩ := (C118_edge_feasible side d N.graph hs hr x).1 hx
    exact ⟨_, (mask_edge_feasible side b d _ _).2 (hb b), (idle_parts side N.graph x hl).1 hi b, edge_flows hr hl b⟩
  · intro d f hs h
    choose xs hxs his hfs using h
    have hxs := fun b => (mask_edge_feasible side b d _ _).1 (hxs b)
    have hlen : ∀ b, (xs b).length = (N.graph.edges.filter fun e => side e.1 == b).length := fun b => ((edgeFeasible_iff _ _ _).1 (hxs b)).2.1
    obtain ⟨z, hz, h1, h2⟩ := merge (fun e => side e.1 == true) (fun e => side e.1 == false) N.graph.edges (edge_split side _) (xs true) (xs false) (hlen true) (hlen false)
    have hp : ∀ b, pick (fun e => side e.1 == b) N.graph.edges z = xs b := by intro b; cases b <;> assumption
    refine ⟨_, ⟨z, (C118_edge_feasible side d N.graph hs hr z).2 ⟨hz, fun b => by rw [hp b]; exact hxs b⟩, (idle_parts side N.graph z hz).2 fun b => by rw [hp b]; exact his b, rfl⟩, fun b => ?_⟩
    rw [edge_flows hr hz b, hp b]
    exact (hfs b).symm

private theorem edge_best_splits (side : Nat → Bool) (N : Net) (hr : EdgesApart side N.graph.edges) : Splits side N edgeBest := by
  constructor
  · rintro d flow hs ⟨x, hx, hi, ho, rfl⟩ b
    obtain ⟨hl, hb⟩ := (C118_edge_optimal side d N.graph hs hr x).1 ⟨hx, ho⟩
    have := (mask_edge_optimal side b d _ _).2 (hb b)
    exact ⟨_, this.1, (idle_parts side N.graph x hl).1 hi b, this.2, edge_flows hr hl b⟩
  · intro d f hs h
    choose xs hxs his hos hfs using h
    have hxs := fun b => (mask_edge_optimal side b d _ (xs b)).1 ⟨hxs b, hos b⟩
    have hlen : ∀ b, (xs b).length = (N.graph.edges.filter fun e => side e.1 == b).length := fun b => ((edgeFeasible_iff _ _ _).1 (hxs b).1).2.1
    obtain ⟨z, hz, h1, h2⟩ := merge (fun e => side e.1 == true) (fun e => side e.1 == false) N.graph.edges (edge_split side _) (xs true) (xs false) (hlen true) (hlen false)
    have hp : ∀ b, pick (fun e => side e.1 == b) N.graph.edges z = xs b := by intro b; cases b <;> assumption
    have hopt := (C118_edge_optimal side d N.graph hs hr z).2 ⟨hz, fun b => by rw [hp b]; exact hxs b⟩
    refine ⟨_, ⟨z, hopt.1, (idle_parts side N.graph z hz).2 fun b => by rw [hp b]; exact his b, hopt.2, rfl⟩, fun b => ?_⟩
    rw [edge_flows hr hz b, hp b]
    exact (hfs b).symm

/-! ## Runs -/

private theorem separate {side : Nat → Bool} {N : Net} (hN : N.Apart side) {v : Values} (hv : v.Apart side) (m : Moment) : Separate side (N.data v m) := by
  refine ⟨fun s hs => ?_, fun s hs => ?_, hv.aggs, hv.cross, hN.both⟩
  · obtain ⟨q, hq, rfl⟩ := List.mem_map.1 hs
    exact hN.stores q.1 (by have := (List.mem_zipIdx' hq).2; rw [this]; exact List.getElem_mem _)
  · obtain ⟨q, hq, rfl⟩ := List.mem_map.1 hs
    exact hN.virtuals q.1 (by have := (List.mem_zipIdx' hq).2; rw [this]; exact List.getElem_mem _)

private theorem runs_apart {side : Nat → Bool} {N : Net} {answer : Net → Data → (Nat → Rat) → Prop} (ha : Splits side N answer) (hN : N.Apart side) {params : List Done → Values}
    {own : Bool → List Done → Values} (hv : ∀ h, (params h).Apart side) (ho : ∀ b h, (params h).part side b N = own b (h.map (Done.part side b N))) {start : Moment} {h : List Done} {m : Moment}
    (hr : Runs N (answer N) params start h m) (b : Bool) :
    Runs (N.part side b) (answer (N.part side b)) (own b) (start.part side b N) (h.map (Done.part side b N)) (m.part side b N) := by
  induction hr with
  | start => exact .start
  | step hr hans ih =>
    rename_i h m flow
    have hsplit := ha.split _ _ (separate hN (hv h) m) hans b
    rw [← data_part, ho b h] at hsplit
    have := Runs.step ih hsplit
    rw [← ho b h, next_part] at this
    rw [List.map_append]
    exact this

private theorem runs_last {N : Net} {answer : Data → (Nat → Rat) → Prop} {params : List Done → Values} {start : Moment} {h : List Done} {m : Moment} (hr : Runs N answer params start h m) :
    (h = [] ∧ m = start) ∨ ∃ h' m' flow, h = h' ++ [⟨params h', flow⟩] ∧ m = N.next (params h') flow m' ∧ Runs N answer params start h' m' ∧ answer (N.data (params h') m') flow := by
  cases hr with
  | start => exact .inl ⟨rfl, rfl⟩
  | step hr ha => exact .inr ⟨_, _, _, rfl, rfl, hr, ha⟩

private theorem runs_together {side : Nat → Bool} {N : Net} {answer : Net → Data → (Nat → Rat) → Prop} (ha : Splits side N answer) (hN : N.Apart side) {params : List Done → Values}
    {own : Bool → List Done → Values} (hv : ∀ h, (params h).Apart side) (ho : ∀ b h, (params h).part side b N = own b (h.map (Done.part side b N))) {start : Moment} (k : Nat)
    {hs : Bool → List Done} {ms : Bool → Moment} (hlen : ∀ b, (hs b).length = k)
    (hr : ∀ b, Runs (N.part side b) (answer (N.part side b)) (own b) (start.part side b N) (hs b) (ms b)) :
    ∃ h m, Runs N (answer N) params start h m ∧ ∀ b, h.map (Done.part side b N) = hs b ∧ m.part side b N = ms b := by
  induction k generalizing hs ms with
  | zero =>
    refine ⟨[], start, .start, fun b => ?_⟩
    have e := List.length_eq_zero_iff.1 (hlen b)
    rcases runs_last (hr b) with ⟨h1, h2⟩ | ⟨h', m', flow, h1, -⟩
    · exact ⟨h1.symm, h2.symm⟩
    · rw [e] at h1; simp at h1
  | succ k ih =>
    have key : ∀ b, ∃ h' m' flow, hs b = h' ++ [⟨own b h', flow⟩] ∧ ms b = (N.part side b).next (own b h') flow m' ∧
        Runs (N.part side b) (answer (N.part side b)) (own b) (start.part side b N) h' m' ∧ answer (N.part side b) ((N.part side b).data (own b h') m') flow := by
      intro b
      rcases runs_last (hr b) with ⟨h1, -⟩ | h1
      · have := hlen b; rw [h1] at this; simp at this
      · exact h1
    choose hs' ms' fs e1 e2 e3 e4 using key
    obtain ⟨h, m, hrun, hpart⟩ := ih (hs := hs') (ms := ms') (fun b => by have := hlen b; rw [e1 b, List.length_append] at this; simpa using this) e3
    have e4' : ∀ b, answer (N.part side b) (mask side b (N.data (params h) m)) (fs b) := by
      intro b
      have := e4 b
      rwa [← (hpart b).1, ← (hpart b).2, ← ho b h, data_part] at this
    obtain ⟨flow, hf, hfs⟩ := ha.join _ fs (separate hN (hv h) m) e4'
    refine ⟨_, _, .step hrun hf, fun b => ⟨?_, ?_⟩⟩
    · rw [List.map_append, (hpart b).1, e1 b]
      congr 1
      show [(⟨(params h).part side b N, flowsOf side b flow⟩ : Done)] = _
      rw [ho b h, (hpart b).1, hfs b]
    · rw [← next_part, hfs b, ho b h, (hpart b).1, (hpart b).2]
      exact (e2 b).symm

/-- **C132 (apart).** A model consists of two parts that are not joined by a route, connection, storage, licence or aggregated node, and the parameters of each part look only at what happens in that
part. Then every run of the model is, on each side, a run of that part as a model of its own: with the same flows, volumes and licences in every timestep. This holds for both solvers, whether they
return any solution or one of least cost. -/
theorem C132_apart (side : Nat → Bool) (N : Net) (hN : N.Apart side) (params : List Done → Values) (own : Bool → List Done → Values) (hv : ∀ h, (params h).Apart side)
    (ho : ∀ b h, (params h).part side b N = own b (h.map (Done.part side b N))) (start : Moment) (h : List Done) (m : Moment) (b : Bool) :
    (Runs N (routeAnswer N) params start h m → Runs (N.part side b) (routeAnswer (N.part side b)) (own b) (start.part side b N) (h.map (Done.part side b N)) (m.part side b N)) ∧
    (Runs N (routeBest N) params start h m → Runs (N.part side b) (routeBest (N.part side b)) (own b) (start.part side b N) (h.map (Done.part side b N)) (m.part side b N)) ∧
    (Runs N (edgeAnswer N) params start h m → Runs (N.part side b) (edgeAnswer (N.part side b)) (own b) (start.part side b N) (h.map (Done.part side b N)) (m.part side b N)) ∧
    (Runs N (edgeBest N) params start h m → Runs (N.part side b) (edgeBest (N.part side b)) (own b) (start.part side b N) (h.map (Done.part side b N)) (m.part side b N)) :=
  ⟨fun hr => runs_apart (route_splits side N hN.routes) hN hv ho hr b, fun hr => runs_apart (best_splits side N hN.routes) hN hv ho hr b,
    fun hr => runs_apart (edge_splits side N hN.edges) hN hv ho hr b, fun hr => runs_apart (edge_best_splits side N hN.edges) hN hv ho hr b⟩

/-- **C132 (together).** Conversely runs of the two parts of the same length are, put together, a run of the whole model. -/
theorem C132_together (side : Nat → Bool) (N : Net) (hN : N.Apart side) (params : List Done → Values) (own : Bool → List Done → Values) (hv : ∀ h, (params h).Apart side)
    (ho : ∀ b h, (params h).part side b N = own b (h.map (Done.part side b N))) (start : Moment) :
    Together side N routeAnswer params own start ∧ Together side N routeBest params own start ∧ Together side N edgeAnswer params own start ∧ Together side N edgeBest params own start := by
  have go : ∀ answer, Splits side N answer → Together side N answer params own start := fun answer ha hs ms hl hr =>
    runs_together ha hN hv ho (hs true).length (fun b => by cases b; exacts [hl.symm, rfl]) hr
  exact ⟨go _ (route_splits side N hN.routes), go _ (best_splits side N hN.routes), go _ (edge_splits side N hN.edges), go _ (edge_best_splits side N hN.edges)⟩

/-- The numbers of the storages of a part are those of the whole model, and every storage of the whole model is found in one of the parts. -/
theorem C132_numbers (side : Nat → Bool) (N : Net) (hN : N.Apart side) :
    (∀ b (i : Nat) s, (N.part side b).stores[i]? = some s → N.stores[N.store side b i]? = some s) ∧ (∀ (k : Nat) s, N.stores[k]? = some s → ∃ b i, (N.part side b).stores[i]? = some s ∧ N.store side b i = k) ∧
    (∀ b (i : Nat) s, (N.part side b).virtuals[i]? = some s → N.virtuals[N.licence side b i]? = some s) ∧
    ∀ (k : Nat) s, N.virtuals[k]? = some s → ∃ b i, (N.part side b).virtuals[i]? = some s ∧ N.licence side b i = k := by
  have found : ∀ {α : Type} (q : α → Bool) (l : List α) (k d : Nat) (s : α), l[k]? = some s → q s = true → ∃ i : Nat, (l.filter q)[i]? = some s ∧ (positions q l).getD i d = k := by
    intro α q l k d s hs hq
    have hm : (s, k) ∈ l.zipIdx.filter fun p => q p.1 := List.mem_filter.2 ⟨List.mk_mem_zipIdx_iff_getElem?.2 hs, hq⟩
    obtain ⟨i, hi⟩ := List.mem_iff_getElem?.1 hm
    refine ⟨i, ?_, ?_⟩
    · rw [positions_fst, List.getElem?_map, hi]; rfl
    · unfold positions
      rw [List.getD_eq_getElem?_getD, List.getElem?_map, hi]; rfl
  refine ⟨fun b i s h => (positions_some _ _ i _ s h).1, fun k s h => ?_, fun b i s h => (positions_some _ _ i _ s h).1, fun k s h => ?_⟩
  · obtain ⟨b, hb⟩ := hN.stores s (List.mem_of_getElem? h)
    exact ⟨b, found (Net.storeOn side b) N.stores k _ s h (onSide_iff.2 hb)⟩
  · obtain ⟨b, hb⟩ := hN.virtuals s (List.mem_of_getElem? h)
    exact ⟨b, found (Net.virtualOn side b) N.virtuals k _ s h (onSide_iff.2 hb)⟩

/-- **C132 (one part stops both).** A part that cannot be simulated further than some timestep stops the whole model there, whatever the other part could do. -/
theorem C132_stops (side : Nat → Bool) (N : Net) (hN : N.Apart side) (params : List Done → Values) (own : Bool → List Done → Values) (hv : ∀ h, (params h).Apart side)
    (ho : ∀ b h, (params h).part side b N = own b (h.map (Done.part side b N))) (start : Moment) (b : Bool) (k : Nat)
    (hk : ∀ h m, Runs (N.part side b) (routeAnswer (N.part side b)) (own b) (start.part side b N) h m → h.length ≤ k) (h : List Done) (m : Moment)
    (hr : Runs N (routeAnswer N) params start h m) : h.length ≤ k := by
  have := hk _ _ ((C132_apart side N hN params own hv ho start h m b).1 hr)
  rwa [List.length_map] at this

/-! ## Examples -/

/-- A river with a licensed abstraction (`0 → 1`), and a reservoir that supplies a demand (`2 → 3`), not connected with it. -/
def twoSystems : Net where
  kind := fun n => match n with | 0 | 2 => .input | 1 | 3 => .output | _ => .other
  nodes := [0, 1, 2, 3]
  stores := [([2], [])]
  virtuals := [([0], [1])]
  routes := [[0, 1], [2, 3]]
  graph := ⟨[(0, 1), (2, 3)], fun _ => 0⟩

/-- The demand of the second system depends on what its reservoir delivered in the timestep before. -/
def twoSystemsParams (h : List Done) : Values where
  minFlow := fun _ => .fin 0
  maxFlow := fun n => if n = 3 ∧ (∃ t ∈ h.getLast?, t.flow 2 = 7) then .fin 8 else .fin 10
  cost := fun n => if n = 1 ∨ n = 3 then -10 else 1
  limits := fun _ => (100, 0)
  vlimits := fun _ => (50, 0)
  active := fun _ => true
  refill := fun _ => none
  aggs := []
  cross := []
  days := 1

/-- The hypotheses are met by two systems whose parameters look at their own history. -/
example : twoSystems.Apart (fun n => decide (2 ≤ n)) ∧ (∀ h, (twoSystemsParams h).Apart (fun n => decide (2 ≤ n))) ∧
    ∃ own : Bool → List Done → Values, ∀ b h, (twoSystemsParams h).part (fun n => decide (2 ≤ n)) b twoSystems = own b (h.map (Done.part (fun n => decide (2 ≤ n)) b twoSystems)) := by
  refine ⟨⟨?_, ?_, ?_, ?_, ?_⟩, fun h => ⟨by simp [twoSystemsParams], by simp [twoSystemsParams]⟩, fun b h => (twoSystemsParams h).part (fun n => decide (2 ≤ n)) b twoSystems, fun b h => ?_⟩
  · intro s hs
    simp only [twoSystems, List.mem_singleton] at hs
    subst hs
    exact ⟨true, by decide⟩
  · intro s hs
    simp only [twoSystems, List.mem_singleton] at hs
    subst hs
    exact ⟨false, by decide⟩
  · intro b
    cases b
    · exact ⟨0, by decide, by decide, by decide⟩
    · exact ⟨2, by decide, by decide, by decide⟩
  · intro r hr
    simp only [twoSystems, List.mem_cons, List.not_mem_nil, or_false] at hr
    rcases hr with rfl | rfl
    · exact ⟨by decide, false, by decide⟩
    · exact ⟨by decide, true, by decide⟩
  · unfold EdgesApart
    decide
  · have key : (fun n => if decide (2 ≤ n) = b then (twoSystemsParams h).maxFlow n else F.fin 0) =
        fun n => if decide (2 ≤ n) = b then (twoSystemsParams (h.map (Done.part (fun n => decide (2 ≤ n)) b twoSystems))).maxFlow n else .fin 0 := by
      funext n
      split
      · rename_i hb
        unfold twoSystemsParams
        dsimp only
        by_cases hn : n = 3
        · subst hn
          simp only [List.getLast?_map, Option.mem_def]
          cases h.getLast? with
          | none => rfl
          | some t =>
            have hb : true = b := by simpa using hb
            subst hb
            simp [Done.part, flowsOf]
        · simp [hn]
      · rfl
    unfold Values.part
    rw [key]
    rfl

end Verif.Simulation

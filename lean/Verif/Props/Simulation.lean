import Verif.Spec.Simulation
import Verif.Props.Domains
import Verif.Props.SolverDomains
import Verif.Props.Storage
/-! # C88: a whole simulation -/

namespace Verif.Simulation

open Verif Verif.Lp Verif.Bounds

variable {N : Net} {params : List Done → Values} {m0 : Moment}

private theorem commit_eq {n : Nat} (h : n ∈ N.nodes ∧ N.kind n ≠ .other) (f : Nat → Rat) : N.commit f n = f n := if_pos h

private theorem wellRouted (hN : N.Ok) (v : Values) (m : Moment) : WellRouted (N.data v m) N.routes := hN.routes

private theorem connects (hN : N.Ok) (v : Values) (m : Moment) : Connects (N.data v m) N.graph := hN.edges

/-- **C88 (flows).** In every timestep of every run, with either solver, the flow of every node is within the limits its parameters gave for this timestep. -/
theorem C88_flows (hN : N.Ok) (answer : Data → (Nat → Rat) → Prop) (ha : answer = routeAnswer N ∨ answer = edgeAnswer N) (h : List Done) (m : Moment)
    (hr : Runs N answer params m0 h m) (t : Done) (ht : t ∈ h) (n : Nat) (hn : n ∈ N.nodes) (hk : N.kind n ≠ .other)
    (hmin : LowerLimit (t.values.minFlow n)) (hmax : UpperLimit (t.values.maxFlow n)) :
    Limited (t.values.minFlow n) (t.values.maxFlow n) (t.flow n) := by
  induction hr with
  | start => simp at ht
  | @step h m flow hr hf ih =>
    rcases List.mem_append.1 ht with ht | ht
    · exact ih ht
    · rw [List.mem_singleton] at ht
      subst ht
      rcases ha with rfl | rfl
      · obtain ⟨x, hx, rfl⟩ := hf
        simp only
        rw [commit_eq ⟨hn, hk⟩]
        exact C22_route _ _ (wellRouted hN _ _) x hx n hn hk hmin hmax
      · obtain ⟨y, hy, h0, rfl⟩ := hf
        simp only
        rw [commit_eq ⟨hn, hk⟩]
        exact C22_edge _ _ (connects hN _ _) y hy h0 n hn hk hmin hmax

/-- **C88 (other nodes).** Nodes that are neither inputs nor links nor outputs carry no flow, in any timestep. -/
theorem C88_others (answer : Data → (Nat → Rat) → Prop) (ha : answer = routeAnswer N ∨ answer = edgeAnswer N) (h : List Done) (m : Moment)
    (hr : Runs N answer params m0 h m) (t : Done) (ht : t ∈ h) (n : Nat) (hn : n ∉ N.nodes ∨ N.kind n = .other) : t.flow n = 0 := by
  induction hr with
  | start => simp at ht
  | @step h m flow hr hf ih =>
    rcases List.mem_append.1 ht with ht | ht
    · exact ih ht
    · rw [List.mem_singleton] at ht
      subst ht
      have hc : ∀ f, N.commit f n = 0 := fun f => if_neg (by tauto)
      rcases ha with rfl | rfl
      · obtain ⟨x, -, rfl⟩ := hf; exact hc _
      · obtain ⟨y, -, -, rfl⟩ := hf; exact hc _

private theorem sum_congr {l : List Nat} {f g : Nat → Rat} (h : ∀ n ∈ l, f n = g n) : (l.map f).sum = (l.map g).sum := by rw [List.map_congr_left h]

private theorem storageOf (v : Values) (m : Moment) (i : Nat) (s : List Nat × List Nat) (hi : N.stores[i]? = some s) :
    (⟨s.1, s.2, (m.stores i).volume, (v.limits i).1, (v.limits i).2⟩ : StorageData) ∈ (N.data v m).storages := by
  show _ ∈ N.stores.zipIdx.map _
  rw [List.mem_map]
  exact ⟨(s, i), List.mem_zipIdx_iff_getElem?.2 hi, rfl⟩

theorem net_eq (flow : Nat → Rat) (s : List Nat × List Nat) :
    (((s.1.map fun n => Storage.Commit.fromStore (flow n)) ++ s.2.map fun n => Storage.Commit.toStore (flow n)).map Storage.Commit.net).sum =
      (s.2.map flow).sum - (s.1.map flow).sum := by
  rw [List.map_append, List.sum_append, List.map_map, List.map_map]
  have e1 : (s.1.map (Storage.Commit.net ∘ fun n => Storage.Commit.fromStore (flow n))).sum = -(s.1.map flow).sum := by
    induction s.1 with
    | nil => simp
    | cons a l ih => simp only [List.map_cons, List.sum_cons, ih, Function.comp, Storage.Commit.net]; ring
  have e2 : (s.2.map (Storage.Commit.net ∘ fun n => Storage.Commit.toStore (flow n))).sum = (s.2.map flow).sum := rfl
  rw [e1, e2]; ring

private theorem storageFlow_commit (hN : N.Ok) (f : Nat → Rat) (s : List Nat × List Nat) (hs : s ∈ N.stores) (a b c : Rat) :
    storageFlow (N.commit f) ⟨s.1, s.2, a, b, c⟩ = storageFlow f ⟨s.1, s.2, a, b, c⟩ := by
  unfold storageFlow
  rw [sum_congr fun n hn => commit_eq ⟨(hN.outputKinds s hs n hn).1, by rw [(hN.outputKinds s hs n hn).2]; decide⟩ f,
    sum_congr fun n hn => commit_eq ⟨(hN.inputKinds s hs n hn).1, by rw [(hN.inputKinds s hs n hn).2]; decide⟩ f]

private theorem nodup_of_flatMap {α β : Type} {l : List α} {f : α → List β} (h : (l.flatMap f).Nodup) {a : α} (ha : a ∈ l) : (f a).Nodup := by
  induction l with
  | nil => simp at ha
  | cons b l ih =>
    rw [List.flatMap_cons, List.nodup_append] at h
    rcases List.mem_cons.1 ha with rfl | ha
    · exact h.1
    · exact ih h.2.1 ha

private theorem net_in_bounds (hN : N.Ok) (v : Values) (m : Moment) (flow : Nat → Rat) (hf : routeAnswer N (N.data v m) flow ∨ edgeAnswer N (N.data v m) flow)
    (i : Nat) (s : List Nat × List Nat) (hi : N.stores[i]? = some s) (h1 : (v.limits i).2 ≤ (m.stores i).volume) (h2 : (m.stores i).volume ≤ (v.limits i).1)
    (hd : 0 < v.days) (hb : ((v.limits i).1 - (v.limits i).2) / v.days < dblMax) :
    (v.limits i).2 ≤ (m.stores i).volume + ((s.2.map flow).sum - (s.1.map flow).sum) * v.days ∧
      (m.stores i).volume + ((s.2.map flow).sum - (s.1.map flow).sum) * v.days ≤ (v.limits i).1 := by
  have hs : s ∈ N.stores := List.mem_of_getElem? hi
  rcases hf with ⟨x, hx, rfl⟩ | ⟨y, hy, h0, rfl⟩
  · have := C53_storage _ _ (wellRouted hN v m) x hx _ (storageOf v m i s hi) (nodup_of_flatMap hN.inputs hs) (nodup_of_flatMap hN.outputs hs)
      (fun n hn => (hN.inputKinds s hs n hn).2) (fun n hn => (hN.outputKinds s hs n hn).2) h1 h2 hd hb
    rw [← storageFlow_commit hN _ s hs] at this
    exact this
  · have := C53_edge_volume _ _ (connects hN v m) y hy h0 _ (storageOf v m i s hi)
      (fun n hn => hN.inputKinds s hs n hn) (fun n hn => hN.outputKinds s hs n hn) h1 h2 hd hb
    rw [← storageFlow_commit hN _ s hs] at this
    exact this

/-- **C88 (volumes).** If a storage starts between its minimum and its maximum, and these do not change, its volume is between them after every timestep of every run, with either
solver, whatever the parameters do. -/
theorem C88_volumes (hN : N.Ok) (answer : Data → (Nat → Rat) → Prop) (ha : answer = routeAnswer N ∨ answer = edgeAnswer N) (h : List Done) (m : Moment)
    (hr : Runs N answer params m0 h m) (i : Nat) (hi : i < N.stores.length) (mx mn : Rat)
    (hfix : ∀ h', (params h').limits i = (mx, mn)) (hd : ∀ h', 0 < (params h').days ∧ (mx - mn) / (params h').days < dblMax)
    (h1 : mn ≤ (m0.stores i).volume) (h2 : (m0.stores i).volume ≤ mx) :
    mn ≤ (m.stores i).volume ∧ (m.stores i).volume ≤ mx := by
  induction hr with
  | start => exact ⟨h1, h2⟩
  | @step h m flow hr hf ih =>
    obtain ⟨s, hs⟩ : ∃ s, N.stores[i]? = some s := ⟨_, List.getElem?_eq_getElem hi⟩
    have hb := net_in_bounds hN (params h) m flow (by rcases ha with rfl | rfl <;> simp [hf]) i s hs (by rw [hfix]; exact ih.1) (by rw [hfix]; exact ih.2)
      (hd h).1 (by rw [hfix]; exact (hd h).2)
    have e : ((N.next (params h) flow m).stores i) = storeStep (params h) flow s i (m.stores i) := by
      show (match N.stores[i]? with | none => m.stores i | some s => storeStep (params h) flow s i (m.stores i)) = _
      rw [hs]
    rw [e, storeStep, Storage.step_volume]
    simp only [Storage.Step.netVolume, net_eq]
    rw [hfix] at hb ⊢
    have he := Storage.e6_pos
    exact Storage.snap_mem (le_trans hb.1 hb.2) (by linarith [hb.1]) (by linarith [hb.2])

private theorem sum_near {α : Type} (l : List α) (f g : α → Rat) (c : Rat) (h : ∀ a ∈ l, |f a - g a| ≤ c) : |(l.map f).sum - (l.map g).sum| ≤ l.length * c := by
  induction l with
  | nil => simp
  | cons a l ih =>
    have h1 := h a List.mem_cons_self
    have h2 := ih fun b hb => h b (List.mem_cons_of_mem _ hb)
    simp only [List.map_cons, List.sum_cons, List.length_cons, Nat.cast_add, Nat.cast_one]
    have e : f a + (l.map f).sum - (g a + (l.map g).sum) = (f a - g a) + ((l.map f).sum - (l.map g).sum) := by ring
    rw [e]
    refine le_trans (abs_add_le _ _) ?_
    linarith

private theorem inputs_eq (v : Values) (m : Moment) : (N.data v m).storages.flatMap (·.inputs) = N.stores.flatMap (·.1) := by
  show (N.stores.zipIdx.map _).flatMap _ = _
  rw [List.flatMap_map]
  conv_rhs => rw [← List.zipIdx_map_fst 0 N.stores, List.flatMap_map]

private theorem outputs_eq (v : Values) (m : Moment) : (N.data v m).storages.flatMap (·.outputs) = N.stores.flatMap (·.2) := by
  show (N.stores.zipIdx.map _).flatMap _ = _
  rw [List.flatMap_map]
  conv_rhs => rw [← List.zipIdx_map_fst 0 N.stores, List.flatMap_map]

private theorem storagesOk (hN : N.Ok) (v : Values) (m : Moment) : StoragesOk (N.data v m) := by
  refine ⟨by rw [inputs_eq]; exact hN.inputs, by rw [outputs_eq]; exact hN.outputs, ?_, ?_⟩
  · intro s hs n hn
    obtain ⟨q, hq, rfl⟩ := List.mem_map.1 (show s ∈ N.stores.zipIdx.map _ from hs)
    exact hN.inputKinds q.1 (List.fst_mem_of_mem_zipIdx hq) n hn
  · intro s hs n hn
    obtain ⟨q, hq, rfl⟩ := List.mem_map.1 (show s ∈ N.stores.zipIdx.map _ from hs)
    exact hN.outputKinds q.1 (List.fst_mem_of_mem_zipIdx hq) n hn

private theorem step_balance (hN : N.Ok) (v : Values) (m : Moment) (flow : Nat → Rat) (hf : routeAnswer N (N.data v m) flow ∨ edgeAnswer N (N.data v m) flow) :
    N.inflow ⟨v, flow⟩ = N.outflow ⟨v, flow⟩ + (N.stores.zipIdx.map fun q => ((q.1.2.map flow).sum - (q.1.1.map flow).sum) * v.days).sum := by
  have key : ∀ f : Nat → Rat, (((N.data v m).nodes.filter fun n => (N.data v m).kind n == .input && !((N.data v m).storages.flatMap (·.inputs)).contains n).map f).sum =
      (((N.data v m).nodes.filter fun n => (N.data v m).kind n == .output && !((N.data v m).storages.flatMap (·.outputs)).contains n).map f).sum +
        ((N.data v m).storages.map fun s => storageFlow f s).sum → flow = N.commit f →
      N.inflow ⟨v, flow⟩ = N.outflow ⟨v, flow⟩ + (N.stores.zipIdx.map fun q => ((q.1.2.map flow).sum - (q.1.1.map flow).sum) * v.days).sum := by
    intro f hb hc
    rw [inputs_eq, outputs_eq] at hb
    have e1 : ((N.nodes.filter fun n => N.kind n == .input && !(N.stores.flatMap (·.1)).contains n).map flow).sum =
        ((N.nodes.filter fun n => N.kind n == .input && !(N.stores.flatMap (·.1)).contains n).map f).sum := by
      apply sum_congr
      intro n hn
      rw [List.mem_filter, Bool.and_eq_true, beq_iff_eq] at hn
      rw [hc]
      exact commit_eq ⟨hn.1, by rw [hn.2.1]; decide⟩ f
    have e2 : ((N.nodes.filter fun n => N.kind n == .output && !(N.stores.flatMap (·.2)).contains n).map flow).sum =
        ((N.nodes.filter fun n => N.kind n == .output && !(N.stores.flatMap (·.2)).contains n).map f).sum := by
      apply sum_congr
      intro n hn
      rw [List.mem_filter, Bool.and_eq_true, beq_iff_eq] at hn
      rw [hc]
      exact commit_eq ⟨hn.1, by rw [hn.2.1]; decide⟩ f
    have e3 : ((N.data v m).storages.map fun s => storageFlow f s).sum = (N.stores.zipIdx.map fun q => (q.1.2.map flow).sum - (q.1.1.map flow).sum).sum := by
      show ((N.stores.zipIdx.map _).map _).sum = _
      rw [List.map_map]
      congr 1
      apply List.map_congr_left
      intro q hq
      have hs := List.fst_mem_of_mem_zipIdx hq
      have := storageFlow_commit hN f q.1 hs (m.stores q.2).volume (v.limits q.2).1 (v.limits q.2).2
      rw [← hc] at this
      exact this.symm
    unfold Net.inflow Net.outflow
    simp only
    have e4 : (N.stores.zipIdx.map fun q => ((q.1.2.map flow).sum - (q.1.1.map flow).sum) * v.days).sum =
        (N.stores.zipIdx.map fun q => (q.1.2.map flow).sum - (q.1.1.map flow).sum).sum * v.days := List.sum_map_mul_right ..
    rw [e1, e2, e4, ← e3, ← add_mul]
    exact congrArg (· * v.days) hb
  rcases hf with ⟨x, hx, rfl⟩ | ⟨y, hy, h0, rfl⟩
  · obtain ⟨_, _, hlen, _⟩ := id hx
    exact key _ (C53_route _ hN.nodes (storagesOk hN v m) _ (wellRouted hN v m) x hlen) rfl
  · exact key _ (C53_edge _ hN.nodes (storagesOk hN v m) _ (connects hN v m) y hy h0) rfl

/-- **C88 (balance).** Over every run, with either solver and whatever the parameters do: what is in the storages at the end is what was in them at the start, plus what entered the
network, minus what left it, up to the rounding of volumes at their limits (at most 2e-6 for each storage and timestep). -/
theorem C88_balance (hN : N.Ok) (answer : Data → (Nat → Rat) → Prop) (ha : answer = routeAnswer N ∨ answer = edgeAnswer N) (h : List Done) (m : Moment)
    (hr : Runs N answer params m0 h m) :
    |N.stored m - (N.stored m0 + (h.map N.inflow).sum - (h.map N.outflow).sum)| ≤ h.length * (N.stores.length * (2 * Storage.e6)) := by
  induction hr with
  | start => simp
  | @step h m flow hr hf ih =>
    have hb := step_balance hN (params h) m flow (by rcases ha with rfl | rfl <;> simp [hf])
    have hn := sum_near N.stores.zipIdx (fun q => ((N.next (params h) flow m).stores q.2).volume)
      (fun q => (m.stores q.2).volume + ((q.1.2.map flow).sum - (q.1.1.map flow).sum) * (params h).days) (2 * Storage.e6) (by
        intro q hq
        have hi := List.mem_zipIdx_iff_getElem?.1 hq
        have e : ((N.next (params h) flow m).stores q.2) = storeStep (params h) flow q.1 q.2 (m.stores q.2) := by
          show (match N.stores[q.2]? with | none => m.stores q.2 | some s => storeStep (params h) flow s q.2 (m.stores q.2)) = _
          rw [hi]
        rw [e, storeStep, Storage.step_volume]
        simp only [Storage.Step.netVolume, net_eq]
        exact Storage.snap_err2 _ _ _)
    rw [List.length_zipIdx, List.sum_map_add] at hn
    simp only [List.map_append, List.sum_append, List.map_cons, List.map_nil, List.sum_cons, List.sum_nil, List.length_append, List.length_cons, List.length_nil,
      Nat.cast_add, Nat.cast_one, add_zero]
    unfold Net.stored at ih ⊢
    rw [hb]
    rw [abs_le] at ih hn ⊢
    push_cast
    constructor <;> nlinarith [ih.1, ih.2, hn.1, hn.2]

/-- The flows that a solver returns satisfy the row of every virtual storage. -/
theorem virtual_admits (hN : N.Ok) {answer : Data → (Nat → Rat) → Prop} (ha : answer = routeAnswer N ∨ answer = edgeAnswer N) (v : Values) (m : Moment) (flow : Nat → Rat)
    (hf : answer (N.data v m) flow) (i : Nat) (s : List Nat × List Rat) (hi : N.virtuals[i]? = some s)
    (hs : s.1.Nodup ∧ ∀ n ∈ s.1, n ∈ N.nodes ∧ N.kind n ≠ .other ∧
      ∀ r ∈ N.routes, n ∈ r → N.kind n = .link ∨ (N.kind n = .input ∧ r.head? = some n) ∨ (N.kind n = .output ∧ r.getLast? = some n)) :
    (VirtualStorage.vRow (v.active i) (m.virtual v i).volume (v.vlimits i).1 (v.vlimits i).2 v.days).Admits
      (VirtualStorage.depletion ((s.1.zip s.2).map fun p => ⟨p.2, flow p.1⟩)) := by
  have hmem : (⟨s.1, s.2, v.active i, (m.virtual v i).volume, (v.vlimits i).1, (v.vlimits i).2⟩ : VirtualData) ∈ (N.data v m).virtuals := by
    show _ ∈ N.virtuals.zipIdx.map _
    rw [List.mem_map]
    exact ⟨(s, i), List.mem_zipIdx_iff_getElem?.2 hi, rfl⟩
  have hu : ∀ (f : Nat → Rat) (w : VirtualData), w.nodes = s.1 → w.factors = s.2 → (s.1.zip s.2).map (fun p => (⟨p.2, N.commit f p.1⟩ : VirtualStorage.Use)) = uses f w := by
    intro f w e1 e2
    unfold uses
    rw [e1, e2]
    apply List.map_congr_left
    intro p hp
    have := hs.2 p.1 (List.of_mem_zip hp).1
    rw [commit_eq ⟨this.1, this.2.1⟩]
  have h3 : ∀ (f : Nat → Rat), flow = N.commit f → (VirtualStorage.vRow (v.active i) (m.virtual v i).volume (v.vlimits i).1
      (v.vlimits i).2 v.days).Admits (VirtualStorage.depletion (uses f
        ⟨s.1, s.2, v.active i, (m.virtual v i).volume, (v.vlimits i).1, (v.vlimits i).2⟩)) →
      (VirtualStorage.vRow (v.active i) (m.virtual v i).volume (v.vlimits i).1 (v.vlimits i).2 v.days).Admits
        (VirtualStorage.depletion ((s.1.zip s.2).map fun p => ⟨p.2, flow p.1⟩)) := by
    intro f hfl h4
    rw [hfl, hu f ⟨s.1, s.2, v.active i, (m.virtual v i).volume, (v.vlimits i).1, (v.vlimits i).2⟩ rfl rfl]
    exact h4
  rcases ha with rfl | rfl
  · obtain ⟨x, hx, rfl⟩ := hf
    refine h3 _ rfl (C54_route_partial _ _ (wellRouted hN _ _) x hx _ hmem hs.1 ?_)
    intro n hn r hr hnr
    have := (hs.2 n hn).2.2 r hr hnr
    unfold Carries
    show match N.kind n with | .input => _ | .output => _ | .link => _ | .other => _
    rcases this with hk | ⟨hk, h5⟩ | ⟨hk, h5⟩ <;> rw [hk]
    · exact hnr
    · exact h5
    · exact h5
  · obtain ⟨y, hy, h0, rfl⟩ := hf
    exact h3 _ rfl (C54_edge _ _ (connects hN _ _) y hy h0 _ hmem fun n hn => ⟨(hs.2 n hn).1, (hs.2 n hn).2.1⟩)

/-- **C88 (virtual storages).** The same for virtual storages: between their limits after every timestep, if they start there and are refilled to volumes between them. -/
theorem C88_virtual (hN : N.Ok) (answer : Data → (Nat → Rat) → Prop) (ha : answer = routeAnswer N ∨ answer = edgeAnswer N) (h : List Done) (m : Moment)
    (hr : Runs N answer params m0 h m) (i : Nat) (s : List Nat × List Rat) (hi : N.virtuals[i]? = some s) (mx mn : Rat)
    (hs : s.1.Nodup ∧ ∀ n ∈ s.1, n ∈ N.nodes ∧ N.kind n ≠ .other ∧
      ∀ r ∈ N.routes, n ∈ r → N.kind n = .link ∨ (N.kind n = .input ∧ r.head? = some n) ∨ (N.kind n = .output ∧ r.getLast? = some n))
    (hfix : ∀ h', (params h').vlimits i = (mx, mn)) (hd : ∀ h', 0 < (params h').days ∧ (mx - mn) / (params h').days < dblMax)
    (hfill : ∀ h' v, (params h').refill i = some v → mn ≤ v ∧ v ≤ mx)
    (h1 : mn ≤ (m0.virtuals i).volume) (h2 : (m0.virtuals i).volume ≤ mx) :
    mn ≤ (m.virtuals i).volume ∧ (m.virtuals i).volume ≤ mx := by
  induction hr with
  | start => exact ⟨h1, h2⟩
  | @step h m flow hr hf ih =>
    have e : ((N.next (params h) flow m).virtuals i) = virtualStep (params h) flow s i (m.virtual (params h) i) := by
      show (match N.virtuals[i]? with | none => m.virtuals i | some s => virtualStep (params h) flow s i (m.virtual (params h) i)) = _
      rw [hi]
    have hv : mn ≤ (m.virtual (params h) i).volume ∧ (m.virtual (params h) i).volume ≤ mx := by
      unfold Moment.virtual
      cases hfl : (params h).refill i with
      | none => exact ih
      | some v => exact hfill h v hfl
    have hrow := virtual_admits hN ha (params h) m flow hf i s hi hs
    rw [hfix] at hrow
    rw [e, virtualStep, hfix]
    cases hact : (params h).active i with
    | false =>
      rw [(C54_volume _ _ _ _ _).1 rfl]
      exact hv
    | true =>
      rw [hact] at hrow
      exact ((C54_volume _ _ _ _ _).2 rfl hv.1 hv.2 (hd h).1 (hd h).2 hrow).2

theorem depletion_sum (us : List VirtualStorage.Use) : VirtualStorage.depletion us = -(us.map fun u => u.factor * u.flow).sum := by
  unfold VirtualStorage.depletion
  have : ∀ c : Rat, us.foldl (fun acc u => acc - u.factor * u.flow) c = c - (us.map fun u => u.factor * u.flow).sum := by
    induction us with
    | nil => simp
    | cons u us ih => intro c; rw [List.foldl_cons, ih, List.map_cons, List.sum_cons]; ring
  rw [this]; ring

/-- **C88 (use of virtual storages).** Over every run a virtual storage falls by what its nodes used in the timesteps it was active, from the last refill (or the start), up to the rounding of volumes at their limits. -/
theorem C88_use (answer : Data → (Nat → Rat) → Prop) (h : List Done) (m : Moment) (hr : Runs N answer params m0 h m) (i : Nat) (s : List Nat × List Rat) (hi : N.virtuals[i]? = some s) :
    |(m.virtuals i).volume - left i s (m0.virtuals i).volume h| ≤ h.length * (2 * Storage.e6) := by
  have he := Storage.e6_pos
  induction hr with
  | start => simp [left]
  | @step h m flow hr hf ih =>
    have e : ((N.next (params h) flow m).virtuals i) = virtualStep (params h) flow s i (m.virtual (params h) i) := by
      show (match N.virtuals[i]? with | none => m.virtuals i | some s => virtualStep (params h) flow s i (m.virtual (params h) i)) = _
      rw [hi]
    have hl : left i s (m0.virtuals i).volume (h ++ [⟨params h, flow⟩]) = ((params h).refill i).getD (left i s (m0.virtuals i).volume h) -
        if (params h).active i then ((s.1.zip s.2).map fun p => p.2 * flow p.1).sum * (params h).days else 0 := by
      unfold left
      rw [List.foldl_append]
      rfl
    have hv : |(m.virtual (params h) i).volume - ((params h).refill i).getD (left i s (m0.virtuals i).volume h)| ≤ h.length * (2 * Storage.e6) := by
      unfold Moment.virtual
      cases (params h).refill i with
      | none => exact ih
      | some v => simp only [Option.getD_some, sub_self, abs_zero]; positivity
    rw [e, hl, virtualStep]
    have hlen : ((h ++ [(⟨params h, flow⟩ : Done)]).length : Rat) = h.length + 1 := by simp
    rw [hlen]
    cases hact : (params h).active i with
    | false =>
      rw [if_neg (by simp)]
      show |(m.virtual (params h) i).volume - _| ≤ _
      rw [abs_le] at hv ⊢
      constructor <;> nlinarith [hv.1, hv.2]
    | true =>
      rw [if_pos rfl]
      show |Storage.snap _ _ ((m.virtual (params h) i).volume + VirtualStorage.depletion _ * _) - _| ≤ _
      rw [depletion_sum, List.map_map]
      have hs := Storage.snap_err2 ((params h).vlimits i).1 ((params h).vlimits i).2
        ((m.virtual (params h) i).volume + -((s.1.zip s.2).map fun p => p.2 * flow p.1).sum * (params h).days)
      change |Storage.snap ((params h).vlimits i).1 ((params h).vlimits i).2 ((m.virtual (params h) i).volume + -((s.1.zip s.2).map fun p => p.2 * flow p.1).sum * (params h).days) - _| ≤ _
      rw [abs_le] at hv hs ⊢
      constructor <;> nlinarith [hv.1, hv.2, hs.1, hs.2]

private theorem runs_mono {a b : Data → (Nat → Rat) → Prop} (hab : ∀ h m flow, a (N.data (params h) m) flow → b (N.data (params h) m) flow) {h : List Done} {m : Moment}
    (hr : Runs N a params m0 h m) : Runs N b params m0 h m := by
  induction hr with
  | start => exact .start
  | step _ hf ih => exact .step ih (hab _ _ _ hf)

/-- Both solvers can set up the model and treat it alike, with all values the parameters may take. The volumes do not matter (`comparable_any`, `route_any`, `edge_any`), so
they are those at the start. -/
structure Alike (N : Net) (params : List Done → Values) (m0 : Moment) : Prop where
  comparable : ∀ h, ComparableDomains (N.data (params h) m0) N.graph N.routes
  route : ∀ h, ∃ rows, routeRows (N.data (params h) m0) N.routes = .ok rows
  edge : ∀ h, ∃ rows, edgeRows (N.data (params h) m0) N.graph = .ok rows

theorem comparable_any {v : Values} {m m' : Moment} (h : ComparableDomains (N.data v m) N.graph N.routes) :
    ComparableDomains (N.data v m') N.graph N.routes := by
  obtain ⟨c1, c2, c3, c4, c5, c6, c7, c8, c9⟩ := h
  refine ⟨c1, c2, c3, c4, c5, ?_, c7, ?_, c9⟩
  · intro s hs
    obtain ⟨q, hq, rfl⟩ := List.mem_map.1 (show s ∈ N.stores.zipIdx.map _ from hs)
    exact c6 ⟨q.1.1, q.1.2, (m.stores q.2).volume, (v.limits q.2).1, (v.limits q.2).2⟩ (List.mem_map.2 ⟨q, hq, rfl⟩)
  · intro s hs
    obtain ⟨q, hq, rfl⟩ := List.mem_map.1 (show s ∈ N.virtuals.zipIdx.map _ from hs)
    exact c8 ⟨q.1.1, q.1.2, v.active q.2, (m.virtual v q.2).volume, (v.vlimits q.2).1, (v.vlimits q.2).2⟩ (List.mem_map.2 ⟨q, hq, rfl⟩)

private theorem bound_any {e : Entries} {r r' : Row} (h : ∃ b, boundRow e r = .ok b) : ∃ b, boundRow e r' = .ok b := by
  unfold boundRow at h ⊢
  cases hm : setMatRow e with
  | error x => rw [hm] at h; obtain ⟨b, hb⟩ := h; exact absurd hb (by simp)
  | ok x => exact ⟨_, rfl⟩

private theorem collect_any {α β γ δ : Type} {l : List γ} {F : γ → α} {F' : γ → δ} {f : α → Except Err β} {f' : δ → Except Err β}
    (h : ∀ q ∈ l, (∃ b, f (F q) = .ok b) → ∃ b, f' (F' q) = .ok b) (hc : ∃ bs, collect f (l.map F) = .ok bs) : ∃ bs, collect f' (l.map F') = .ok bs := by
  obtain ⟨bs, hbs⟩ := hc
  apply collect_total
  intro a ha
  obtain ⟨q, hq, rfl⟩ := List.mem_map.1 ha
  obtain ⟨b, -, hb⟩ := collect_ok hbs (F q) (List.mem_map.2 ⟨q, hq, rfl⟩)
  exact h q hq ⟨b, hb⟩

theorem route_any {v : Values} {m m' : Moment} (h : ∃ rows, routeRows (N.data v m) N.routes = .ok rows) : ∃ rows, routeRows (N.data v m') N.routes = .ok rows := by
  obtain ⟨rows, h⟩ := h
  unfold routeRows at h ⊢
  split at h
  · exact absurd h (by simp)
  · next hne =>
    rw [if_neg (by exact hne)]
    have hc := concat_ok h
    apply concat_total
    intro r hr
    rw [List.mem_append, List.mem_append, List.mem_cons, List.mem_cons, List.mem_cons, List.mem_singleton] at hr
    rcases hr with ((rfl | rfl | rfl | rfl) | hr) | hr
    · exact (hc (collect (nodeRow (N.data v m) N.routes) (N.data v m).nonStorages) (by simp)).imp fun l hl => hl.1
    · exact (hc (collect (crossRow (N.data v m) N.routes) (N.data v m).cross) (by simp)).imp fun l hl => hl.1
    · refine collect_any (F := fun q : (List Nat × List Nat) × Nat => (⟨q.1.1, q.1.2, (m.stores q.2).volume, (v.limits q.2).1, (v.limits q.2).2⟩ : StorageData))
        (f := storageRowR (N.data v m) N.routes) (fun q _ hq => bound_any hq) ?_
      exact (hc (collect (storageRowR (N.data v m) N.routes) (N.data v m).storages) (by simp)).imp fun l hl => hl.1
    · refine collect_any (F := fun q : (List Nat × List Rat) × Nat =>
          (⟨q.1.1, q.1.2, v.active q.2, (m.virtual v q.2).volume, (v.vlimits q.2).1, (v.vlimits q.2).2⟩ : VirtualData))
        (f := virtualRowR (N.data v m) N.routes) (fun q _ hq => bound_any hq) ?_
      exact (hc (collect (virtualRowR (N.data v m) N.routes) (N.data v m).virtuals) (by simp)).imp fun l hl => hl.1
    · exact (hc _ (List.mem_append_left _ (List.mem_append_right _ hr))).imp fun l hl => hl.1
    · exact (hc _ (List.mem_append_right _ hr)).imp fun l hl => hl.1

theorem edge_any {v : Values} {m m' : Moment} (h : ∃ rows, edgeRows (N.data v m) N.graph = .ok rows) : ∃ rows, edgeRows (N.data v m') N.graph = .ok rows := by
  obtain ⟨rows, h⟩ := h
  unfold edgeRows at h ⊢
  split at h
  · exact absurd h (by simp)
  · next hne =>
    rw [if_neg (by exact hne)]
    have hc := concat_ok h
    apply concat_total
    intro r hr
    rw [List.mem_append, List.mem_append, List.mem_cons, List.mem_cons, List.mem_cons, List.mem_cons, List.mem_singleton] at hr
    rcases hr with ((rfl | rfl | rfl | rfl | rfl) | hr) | hr
    · exact (hc (collect (nodeRowE (N.data v m) N.graph) (N.data v m).nonStorages) (by simp)).imp fun l hl => hl.1
    · exact (hc (collect (crossRowE (N.data v m) N.graph) (N.data v m).cross) (by simp)).imp fun l hl => hl.1
    · exact (hc (collect (balanceRow N.graph) ((N.data v m).nodes.filter fun n => (N.data v m).kind n == .link)) (by simp)).imp fun l hl => hl.1
    · refine collect_any (F := fun q : (List Nat × List Nat) × Nat => (⟨q.1.1, q.1.2, (m.stores q.2).volume, (v.limits q.2).1, (v.limits q.2).2⟩ : StorageData))
        (f := storageRowE (N.data v m) N.graph) (fun q _ hq => bound_any hq) ?_
      exact (hc (collect (storageRowE (N.data v m) N.graph) (N.data v m).storages) (by simp)).imp fun l hl => hl.1
    · refine collect_any (F := fun q : (List Nat × List Rat) × Nat =>
          (⟨q.1.1, q.1.2, v.active q.2, (m.virtual v q.2).volume, (v.vlimits q.2).1, (v.vlimits q.2).2⟩ : VirtualData))
        (f := virtualRowE (N.data v m) N.graph) (fun q _ hq => bound_any hq) ?_
      exact (hc (collect (virtualRowE (N.data v m) N.graph) (N.data v m).virtuals) (by simp)).imp fun l hl => hl.1
    · exact (hc _ (List.mem_append_left _ (List.mem_append_right _ hr))).imp fun l hl => hl.1
    · exact (hc _ (List.mem_append_right _ hr)).imp fun l hl => hl.1

private theorem commit_congr {f g : Nat → Rat} (h : ∀ n ∈ N.nodes, N.kind n ≠ .other → f n = g n) : N.commit f = N.commit g := by
  funext n
  unfold Net.commit
  split
  · next hn => exact h n hn.1 hn.2
  · rfl

/-- **C88 (solvers).** The possible runs (all flows, values of parameters and volumes, over any number of timesteps) are the same with both solvers. -/
theorem C88_solvers_partial (hA : Alike N params m0) (h : List Done) (m : Moment) :
    Runs N (routeAnswer N) params m0 h m ↔ Runs N (edgeAnswer N) params m0 h m := by
  constructor
  · apply runs_mono
    rintro h m flow ⟨x, hx, rfl⟩
    obtain ⟨y, hy, h0, hf⟩ := C24_domains_route_to_edge_partial _ _ _ (comparable_any (hA.comparable h)) (edge_any (hA.edge h)) x hx
    exact ⟨y, hy, h0, commit_congr fun n hn hk => (hf n hn hk).symm⟩
  · apply runs_mono
    rintro h m flow ⟨y, hy, h0, rfl⟩
    obtain ⟨x, hx, hf⟩ := C24_domains_edge_to_route_partial _ _ _ (comparable_any (hA.comparable h)) (route_any (hA.route h)) y hy h0
    exact ⟨x, hx, commit_congr fun n hn hk => (hf n hn hk).symm⟩

/-- **C88 (solvers, least cost).** The same for the runs in which the solvers return solutions of least cost. Routes with costs below 1e-8 (but not zero), which the route solver
takes as zero, are left out. -/
theorem C88_best_partial (hA : Alike N params m0) (hcost : ∀ h, ∀ r ∈ N.routes, |routeCost (N.data (params h) m0) r| < e8 → routeCost (N.data (params h) m0) r = 0)
    (h : List Done) (m : Moment) : Runs N (routeBest N) params m0 h m ↔ Runs N (edgeBest N) params m0 h m := by
  constructor
  · apply runs_mono
    rintro h m flow ⟨x, hx, hb, rfl⟩
    obtain ⟨y, hy, h0, hf⟩ := C24_domains_route_to_edge_partial _ _ _ (comparable_any (hA.comparable h)) (edge_any (hA.edge h)) x hx
    have hv := (C24_domains_same_optimum_partial (N.data (params h) m) _ _ (comparable_any (hA.comparable h)) (edge_any (hA.edge h)) (route_any (hA.route h)) (hcost h) _).1 ⟨⟨x, hx, rfl⟩, hb⟩
    refine ⟨y, hy, h0, fun y' hy' => ?_, commit_congr fun n hn hk => (hf n hn hk).symm⟩
    rw [C24_domains_objective (N.data (params h) m) _ _ (comparable_any (hA.comparable h)) (hcost h) x hx y h0 hf]
    exact hv.2 y' hy'
  · apply runs_mono
    rintro h m flow ⟨y, hy, h0, hb, rfl⟩
    obtain ⟨x, hx, hf⟩ := C24_domains_edge_to_route_partial _ _ _ (comparable_any (hA.comparable h)) (route_any (hA.route h)) y hy h0
    have hv := (C24_domains_same_optimum_partial (N.data (params h) m) _ _ (comparable_any (hA.comparable h)) (edge_any (hA.edge h)) (route_any (hA.route h)) (hcost h) _).2 ⟨⟨y, hy, rfl⟩, hb⟩
    refine ⟨x, hx, fun x' hx' => ?_, commit_congr fun n hn hk => (hf n hn hk).symm⟩
    rw [← C24_domains_objective (N.data (params h) m) _ _ (comparable_any (hA.comparable h)) (hcost h) x hx y h0 fun n hn hk => (hf n hn hk).symm]
    exact hv.2 x' hx'

/-- **C88 (results).** If the flows of least cost are unique in every timestep, then a run with the route solver and a run with the edge solver of the same number of timesteps
have the same flows and volumes throughout. -/
theorem C88_results_partial (hA : Alike N params m0) (hcost : ∀ h, ∀ r ∈ N.routes, |routeCost (N.data (params h) m0) r| < e8 → routeCost (N.data (params h) m0) r = 0)
    (huniq : ∀ h m f g, Runs N (routeBest N) params m0 h m → routeBest N (N.data (params h) m) f → routeBest N (N.data (params h) m) g → f = g)
    (h h' : List Done) (m m' : Moment) (hlen : h.length = h'.length) (hr : Runs N (routeBest N) params m0 h m) (he : Runs N (edgeBest N) params m0 h' m') :
    h = h' ∧ m = m' := by
  replace he := (C88_best_partial hA hcost h' m').2 he
  induction hr generalizing h' m' with
  | start =>
    cases he with
    | start => exact ⟨rfl, rfl⟩
    | step _ _ => simp at hlen
  | @step h1 m1 f1 hr hf ih =>
    cases he with
    | start => simp at hlen
    | @step h2 m2 f2 he hf2 =>
      obtain ⟨rfl, rfl⟩ := ih h2 m2 (by simpa using hlen) he
      rw [huniq _ _ _ _ hr hf hf2]
      exact ⟨rfl, rfl⟩

/-! ## Instance: an input, two links, an output, a reservoir beside them, a virtual storage on a link, an aggregated node; the limit of the input follows the flow of the last
timestep. -/

def sampleNet : Net where
  kind n := match n with | 0 => .input | 1 => .link | 2 => .link | 3 => .output | 4 => .input | 5 => .output | _ => .other
  nodes := [0, 1, 2, 3, 4, 5]
  stores := [([4], [5])]
  virtuals := [([2], [2])]
  routes := [[0, 1, 2, 3], [0, 1, 5], [4, 2, 3]]
  graph := ⟨[(0, 1), (1, 2), (2, 3), (1, 5), (4, 2)], fun _ => 0⟩

def sampleValues (x : Rat) : Values where
  minFlow _ := .fin 0
  maxFlow n := if n = 0 then .fin x else .posInf
  cost n := if n = 3 then -10 else 1
  limits _ := (100, 0)
  vlimits _ := (40, 0)
  active _ := true
  refill _ := none
  aggs := [⟨[3, 5], some [1, 1], none, .negInf, .fin 12⟩]
  cross := []
  days := 1

def sampleParams (h : List Done) : Values := sampleValues (match h.getLast? with | none => 10 | some t => if t.flow 3 = 7 then 8 else 10)

def sampleStart : Moment := ⟨fun _ => ⟨50, 0, 0, none⟩, fun _ => ⟨20, 0, 0, none⟩⟩

private def sampleInfo : Routes.NodeInfo := ⟨fun n => toString n, fun n => toString n, fun _ => 0⟩

theorem sample_ok : sampleNet.Ok := ⟨by decide, by decide, by decide, by decide, by decide, by
  intro r hr
  simp only [sampleNet, List.mem_cons, List.not_mem_nil, or_false] at hr
  rcases hr with rfl | rfl | rfl
  · exact ⟨by decide, ⟨0, rfl, rfl⟩, ⟨3, rfl, rfl⟩, by decide⟩
  · exact ⟨by decide, ⟨0, rfl, rfl⟩, ⟨5, rfl, rfl⟩, by decide⟩
  · exact ⟨by decide, ⟨4, rfl, rfl⟩, ⟨3, rfl, rfl⟩, by decide⟩, by decide⟩

private theorem sample_routes : Routes.findAllRoutes ⟨sampleNet.nodes, sampleNet.graph.edges⟩ sampleInfo (.cls fun n => sampleNet.kind n == .input)
    (.cls fun n => sampleNet.kind n == .output) (some fun n => sampleNet.kind n != .other) none .strict = .ok sampleNet.routes := by
  have h1 : sampleNet.nodes.mergeSort (fun a b => decide (sampleInfo.name a ≤ sampleInfo.name b)) = sampleNet.nodes :=
    List.mergeSort_of_pairwise (by decide +kernel)
  have h2 : sampleNet.routes.mergeSort (fun a b => decide (a.map sampleInfo.fqn ≤ b.map sampleInfo.fqn)) = sampleNet.routes :=
    List.mergeSort_of_pairwise (by decide +kernel)
  have h3 : Routes.filterM (Routes.routeOk sampleInfo (some fun n => sampleNet.kind n != .other) none .strict)
      ((sampleNet.nodes.filter fun n => sampleNet.kind n == .input).flatMap fun s =>
        (sampleNet.nodes.filter fun n => sampleNet.kind n == .output).flatMap fun t =>
          Digraph.allSimplePaths ⟨sampleNet.nodes, sampleNet.graph.edges⟩ s t none) = .ok sampleNet.routes := by decide +kernel
  unfold Routes.findAllRoutes Routes.candidatePaths Routes.selectNodes
  simp only [h1, h3, h2]

private theorem sample_acyclic : ¬ Digraph.Cyclic ⟨sampleNet.nodes, sampleNet.graph.within⟩ := by
  rintro ⟨u, hu⟩
  have key : ∀ a b, (a, b) ∈ sampleNet.graph.within → (if a = 4 then 1 else a) < (if b = 4 then 1 else b) := by
    have : ∀ e ∈ sampleNet.graph.within, (if e.1 = 4 then 1 else e.1) < (if e.2 = 4 then 1 else e.2) := by decide +kernel
    exact fun a b h => this _ h
  have : ∀ a b, Relation.TransGen (Digraph.Edge ⟨sampleNet.nodes, sampleNet.graph.within⟩) a b →
      (if a = 4 then 1 else a) < (if b = 4 then 1 else b) := by
    intro a b h
    induction h with
    | single h => exact key _ _ h
    | tail _ h ih => exact lt_trans ih (key _ _ h)
  exact lt_irrefl _ (this u u hu)

theorem sample_cases (h : List Done) : sampleParams h = sampleValues 8 ∨ sampleParams h = sampleValues 10 := by
  unfold sampleParams
  cases h.getLast? with
  | none => exact Or.inr rfl
  | some t =>
    simp only
    split
    · exact Or.inl rfl
    · exact Or.inr rfl

theorem sample_alike : Alike sampleNet sampleParams sampleStart := by
  refine ⟨fun h => ?_, fun h => ?_, fun h => ?_⟩
  · rcases sample_cases h with e | e <;> rw [e] <;>
    exact ⟨by unfold Connects; decide +kernel, by decide, by decide, by decide, ⟨sampleInfo, rfl, sample_routes⟩, by decide +kernel, sample_acyclic, by decide +kernel,
      by decide +kernel⟩
  · have k : ∀ x ∈ [(8 : Rat), 10], ((routeRows (sampleNet.data (sampleValues x) sampleStart) sampleNet.routes).toOption.isSome) = true := by decide +kernel
    have : ∀ x ∈ [(8 : Rat), 10], ∃ rows, routeRows (sampleNet.data (sampleValues x) sampleStart) sampleNet.routes = .ok rows := by
      intro x hx
      have := k x hx
      cases he : routeRows (sampleNet.data (sampleValues x) sampleStart) sampleNet.routes with
      | error e => rw [he] at this; exact absurd this (by simp [Except.toOption])
      | ok rows => exact ⟨rows, rfl⟩
    rcases sample_cases h with e | e <;> rw [e] <;> exact this _ (by simp)
  · have k : ∀ x ∈ [(8 : Rat), 10], ((edgeRows (sampleNet.data (sampleValues x) sampleStart) sampleNet.graph).toOption.isSome) = true := by decide +kernel
    have : ∀ x ∈ [(8 : Rat), 10], ∃ rows, edgeRows (sampleNet.data (sampleValues x) sampleStart) sampleNet.graph = .ok rows := by
      intro x hx
      have := k x hx
      cases he : edgeRows (sampleNet.data (sampleValues x) sampleStart) sampleNet.graph with
      | error e => rw [he] at this; exact absurd this (by simp [Except.toOption])
      | ok rows => exact ⟨rows, rfl⟩
    rcases sample_cases h with e | e <;> rw [e] <;> exact this _ (by simp)

/-- One timestep of the instance: 5 to the output past the reservoir, 3 into it, 2 from it. -/
example : sampleNet.Ok ∧ Alike sampleNet sampleParams sampleStart ∧
    (∀ h, ∀ r ∈ sampleNet.routes, |routeCost (sampleNet.data (sampleParams h) sampleStart) r| < e8 → routeCost (sampleNet.data (sampleParams h) sampleStart) r = 0) ∧
    ∃ h m, Runs sampleNet (routeAnswer sampleNet) sampleParams sampleStart h m ∧ h.length = 1 ∧ (m.stores 0).volume = 51 ∧ (m.virtuals 0).volume = 6 := by
  refine ⟨sample_ok, sample_alike, ?_, _, _, .step .start ⟨[5, 3, 2], by decide +kernel, rfl⟩, rfl, by decide +kernel, by decide +kernel⟩
  intro h
  rcases sample_cases h with e | e <;> rw [e] <;> decide +kernel

end Verif.Simulation

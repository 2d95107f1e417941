import Verif.Props.Simulation
import Verif.Props.Ensemble
import Verif.Props.Licences
import Verif.Props.License
import Verif.Props.Rolling
import Verif.Spec.LicenceRun
/-! # C126: licences hold over whole runs -/

namespace Verif.Simulation

open Verif Verif.Lp Verif.Bounds

variable {N : Net} {params : List Done → Values} {m0 : Moment}

/-! ## Parts of runs -/

private theorem runs_at {answer : Data → (Nat → Rat) → Prop} {h : List Done} {m : Moment} (hr : Runs N answer params m0 h m) (k : Nat) (hk : k < h.length) :
    ∃ mk, Runs N answer params m0 (h.take k) mk ∧ h[k].values = params (h.take k) ∧ answer (N.data (params (h.take k)) mk) h[k].flow := by
  induction hr with
  | start => simp at hk
  | @step h m flow hr ha ih =>
    rw [List.length_append, List.length_singleton] at hk
    rcases Nat.lt_or_ge k h.length with hlt | hge
    · obtain ⟨mk, h1, h2, h3⟩ := ih hlt
      refine ⟨mk, ?_, ?_, ?_⟩
      · rw [List.take_append_of_le_length hlt.le]; exact h1
      · rw [List.take_append_of_le_length hlt.le, List.getElem_append_left hlt]; exact h2
      · rw [List.take_append_of_le_length hlt.le, List.getElem_append_left hlt]; exact h3
    · have e : k = h.length := by omega
      subst e
      refine ⟨m, ?_, ?_, ?_⟩ <;> simp [hr, ha]

private theorem runs_split {answer : Data → (Nat → Rat) → Prop} (h1 h2 : List Done) {m : Moment} (hr : Runs N answer params m0 (h1 ++ h2) m) :
    ∃ m1, Runs N answer params m0 h1 m1 ∧ Runs N answer (fun h => params (h1 ++ h)) m1 h2 m := by
  induction h2 using List.reverseRecOn generalizing m with
  | nil => rw [List.append_nil] at hr; exact ⟨m, hr, .start⟩
  | append_singleton h2 t ih =>
    generalize e : h1 ++ (h2 ++ [t]) = h at hr
    cases hr with
    | start => simp at e
    | @step h m flow hr ha =>
      rw [← List.append_assoc] at e
      obtain ⟨e1, e2⟩ := List.append_inj' e rfl
      subst e1
      simp only [List.cons.injEq, and_true] at e2
      subst e2
      obtain ⟨m1, a, b⟩ := ih hr
      exact ⟨m1, a, .step b ha⟩

private theorem nonneg_answer (hN : N.Ok) {answer : Data → (Nat → Rat) → Prop} (ha : answer = routeAnswer N ∨ answer = edgeAnswer N) {v : Values} {m : Moment} {flow : Nat → Rat}
    (hf : answer (N.data v m) flow) (n : Nat) : 0 ≤ flow n := by
  have hc : ∀ f : Nat → Rat, (∀ n, 0 ≤ f n) → 0 ≤ N.commit f n := by
    intro f h; unfold Net.commit; split
    · exact h n
    · exact le_refl _
  rcases ha with rfl | rfl
  · obtain ⟨x, hx, rfl⟩ := hf
    refine hc _ fun n => ?_
    have hw : WellRouted (N.data v m) N.routes := hN.routes
    obtain ⟨rows, -, -, h0, -⟩ := hx
    rw [routeNodeFlow_eq hw]
    exact S_nonneg h0 fun r _ => by split_ifs <;> norm_num
  · obtain ⟨y, ⟨rows, -, -, h0, -⟩, -, rfl⟩ := hf
    refine hc _ fun n => ?_
    unfold edgeNodeFlow
    apply List.sum_nonneg
    intro v hv
    obtain ⟨q, -, rfl⟩ := List.mem_map.1 hv
    have hq := getD_nonneg h0 q.2
    simp only
    split_ifs <;> linarith

private theorem flows_nonneg (hN : N.Ok) {answer : Data → (Nat → Rat) → Prop} (ha : answer = routeAnswer N ∨ answer = edgeAnswer N) {h : List Done} {m : Moment} (hr : Runs N answer params m0 h m) :
    ∀ t ∈ h, ∀ n, 0 ≤ t.flow n := by
  intro t ht n
  obtain ⟨k, hk, rfl⟩ := List.getElem_of_mem ht
  obtain ⟨mk, -, -, h3⟩ := runs_at hr k hk
  exact nonneg_answer hN ha h3 n

/-! ## What licences see -/

private theorem seen_append (dates : Nat → Nat × Nat) (n k : Nat) (p : Rat) (h : List Done) (t : Done) :
    seen dates n k p (h ++ [t]) = seen dates n k p h ++ [⟨(dates (k + h.length)).1, (dates (k + h.length)).2, 1, t.flow n, last n p h⟩] := by
  induction h generalizing k p with
  | nil => simp [seen, last]
  | cons u h ih =>
    rw [List.cons_append, seen, ih, seen, List.cons_append]
    have e1 : k + 1 + h.length = k + (u :: h).length := by simp; omega
    have e2 : last n (u.flow n) h = last n p (u :: h) := by
      unfold last
      cases h with
      | nil => rfl
      | cons v h => simp [List.getLast?_cons]
    rw [e1, e2]

private theorem seen_head (dates : Nat → Nat × Nat) (n k : Nat) (p : Rat) (h : List Done) : ∀ t ∈ (seen dates n k p h).head?, t.prevFlow = p := by
  cases h with
  | nil => simp [seen]
  | cons u h => simp [seen]

private theorem seen_mem {dates : Nat → Nat × Nat} (hd : Days dates) {n : Nat} {h : List Done} (hp : ∀ t ∈ h, 0 ≤ t.flow n) (k : Nat) (p : Rat) :
    ∀ t ∈ seen dates n k p h, t.Valid ∧ 0 ≤ t.flow ∧ t.len = 1 := by
  induction h generalizing k p with
  | nil => simp [seen]
  | cons u h ih =>
    intro t ht
    rw [seen, List.mem_cons] at ht
    rcases ht with rfl | ht
    · exact ⟨⟨(hd.valid k).1, (hd.valid k).2, Nat.le_refl 1, (show 1 ≤ 365 by decide)⟩, hp u (by simp), rfl⟩
    · exact ih (fun t ht => hp t (List.mem_cons_of_mem _ ht)) _ _ t ht

private theorem seen_consecutive {dates : Nat → Nat × Nat} (hd : Days dates) (n : Nat) (h : List Done) (k : Nat) (p : Rat) : License.Consecutive (seen dates n k p h) := by
  induction h generalizing k p with
  | nil => exact trivial
  | cons u h ih =>
    cases h with
    | nil => exact trivial
    | cons v h =>
      refine ⟨⟨rfl, ?_⟩, ih (k + 1) (u.flow n)⟩
      have := hd.valid k
      rcases hd.next k with ⟨a, b⟩ | ⟨a, b⟩
      · left; dsimp only; rw [b]; exact ⟨by omega, rfl, rfl⟩
      · right; dsimp only; rw [b]; exact ⟨by omega, rfl, by simp only; omega⟩

private theorem seen_year (dates : Nat → Nat × Nat) (n : Nat) (y : Nat) (h : List Done) (k : Nat) (p : Rat) :
    (((seen dates n k p h).filter fun t => t.year = y).map License.Step.flow) = ((h.zipIdx k).filter fun q => (dates q.2).1 = y).map fun q => q.1.flow n := by
  induction h generalizing k p with
  | nil => rfl
  | cons u h ih =>
    rw [seen, List.zipIdx_cons, List.filter_cons, List.filter_cons]
    by_cases e : (dates k).1 = y
    · simp only [e, decide_true, if_true, List.map_cons, ih]
    · simp only [e, decide_false, Bool.false_eq_true, if_false, ih]

private theorem seen_total (dates : Nat → Nat × Nat) (n : Nat) (h : List Done) (k : Nat) (p : Rat) :
    ((seen dates n k p h).map fun t => t.flow * (t.len : Rat)).sum = (h.map fun t => t.flow n).sum := by
  induction h generalizing k p with
  | nil => rfl
  | cons u h ih => rw [seen, List.map_cons, List.sum_cons, ih, List.map_cons, List.sum_cons]; simp

private theorem values_append (amount : Rat) (s : License.State) (ts : List License.Step) (t : License.Step) :
    License.values amount s (ts ++ [t]) = License.values amount s ts ++ [((ts.foldl (fun s t => (s.before amount t).after t) s).before amount t).value t] := by
  induction ts generalizing s with
  | nil => rfl
  | cons u ts ih => rw [List.cons_append, License.values, ih]; rfl

private theorem states_append (amount : Rat) (s : License.State) (ts : List License.Step) (t : License.Step) :
    License.states amount s (ts ++ [t]) = License.states amount s ts ++ [(ts.foldl (fun s t => (s.before amount t).after t) s).before amount t] := by
  induction ts generalizing s with
  | nil => rfl
  | cons u ts ih => rw [List.cons_append, License.states, ih]; rfl

private theorem storageValues_append (s : License.State) (ts : List License.Step) (t : License.Step) :
    License.storageValues s (ts ++ [t]) = License.storageValues s ts ++ [(ts.foldl (fun s t => s.after t) s).remaining] := by
  induction ts generalizing s with
  | nil => rfl
  | cons u ts ih => rw [List.cons_append, License.storageValues, ih]; rfl

private theorem value_range {amount : Rat} {s : License.State} {t : License.Step} (hv : t.Valid) (h : 0 ≤ s.remaining ∧ s.remaining ≤ amount) : 0 ≤ s.value t ∧ s.value t ≤ amount := by
  unfold License.State.value
  split
  · exact h
  · have h1 : (1 : Rat) ≤ ((License.daysInYear t.year - (t.doy - 1) : Nat) : Rat) := by
      have := hv.1; have := hv.2.1
      exact_mod_cast (by omega : 1 ≤ License.daysInYear t.year - (t.doy - 1))
    exact ⟨div_nonneg h.1 (by linarith), (div_le_self h.1 h1).trans h.2⟩

private theorem annual_core {dates : Nat → Nat × Nat} (hd : Days dates) {n : Nat} {amount : Rat} (hA : 0 ≤ amount) (h : List Done) (hp : ∀ t ∈ h, 0 ≤ t.flow n)
    (hle : ∀ k (hk : k < h.length), 0 ≤ annualValue amount dates n (h.take k) → annualValue amount dates n (h.take k) ≤ amount → h[k].flow n ≤ annualValue amount dates n (h.take k)) :
    List.Forall₂ (fun t v => t.flow ≤ v) (seen dates n 0 0 h) (License.values amount (License.State.new amount) (seen dates n 0 0 h)) := by
  induction h using List.reverseRecOn with
  | nil => exact .nil
  | append_singleton h t ih =>
    have ih := ih (fun u hu => hp u (by simp [hu])) (fun k hk => by
      have := hle k (by simp; omega)
      rwa [List.take_append_of_le_length hk.le, List.getElem_append_left hk] at this)
    have hl := hle h.length (by simp)
    rw [List.take_left, List.getElem_concat_length rfl] at hl
    have hm := seen_mem hd hp 0 0
    have hst := License.C78_remaining amount hA _ (seen_consecutive hd n (h ++ [t]) 0 0) hm (seen_head dates n 0 0 _) (License.State.new amount)
    rw [seen_append] at hm hst ⊢
    simp only [Nat.zero_add] at hm hst ⊢
    rw [values_append]
    refine List.rel_append ih (.cons ?_ .nil)
    have hlast := hst _ (by
      show _ ∈ License.states amount (License.State.new amount) _
      rw [states_append]
      exact List.mem_append_right _ (List.mem_singleton.2 rfl))
    have hr := value_range (hm _ (List.mem_append_right _ (List.mem_singleton.2 rfl))).1 hlast
    exact hl hr.1 hr.2

private theorem limited_le {q x : Rat} (hq : 0 ≤ q) (h : Limited (.fin 0) (.fin q) x) : x ≤ q := by
  have e0 : (F.fin 0).effective = .fin 0 := by decide +kernel
  rcases h with ⟨-, h2⟩ | ⟨-, h2⟩
  · unfold F.effective at h2
    simp only at h2
    split at h2
    · exact (show x ≤ 0 from h2).trans hq
    · exact h2
  · rw [e0] at h2
    cases h2; exact hq

/-! ## Licences held by parameters -/

/-- **C126 (annual licence).** Over any run with daily timesteps, a node whose maximum flow is an `AnnualLicense` takes at most the licensed amount in every calendar year, whatever else happens in the model. -/
theorem C126_annual (hN : N.Ok) (answer : Data → (Nat → Rat) → Prop) (ha : answer = routeAnswer N ∨ answer = edgeAnswer N) (h : List Done) (m : Moment) (hr : Runs N answer params m0 h m)
    (n : Nat) (hn : n ∈ N.nodes) (hk : N.kind n ≠ .other) (amount : Rat) (hA : 0 ≤ amount ∧ amount ≤ dblMax - 1) (dates : Nat → Nat × Nat) (hd : Days dates)
    (hmin : ∀ t ∈ h, t.values.minFlow n = .fin 0)
    (hmax : ∀ k (hk : k < h.length), h[k].values.maxFlow n = .fin (annualValue amount dates n (h.take k))) (y : Nat) :
    ((h.zipIdx.filter fun q => (dates q.2).1 = y).map fun q => q.1.flow n).sum ≤ amount := by
  have hp : ∀ t ∈ h, 0 ≤ t.flow n := fun t ht => flows_nonneg hN ha hr t ht n
  have h0 : OrdinaryDouble 0 := ⟨by linarith [hA.1, hA.2], by linarith [hA.1, hA.2]⟩
  have core := annual_core hd (n := n) hA.1 h hp (fun k hk' v0 v1 => by
    have := C88_flows hN answer ha h m hr h[k] (List.getElem_mem hk') n hn hk (by rw [hmin _ (List.getElem_mem hk')]; exact .inr ⟨0, rfl, h0⟩)
      (by rw [hmax k hk']; exact .inr ⟨_, rfl, ⟨by linarith [h0.1], by linarith [hA.2]⟩⟩)
    rw [hmin _ (List.getElem_mem hk'), hmax k hk'] at this
    exact limited_le v0 this)
  have hm := seen_mem hd hp 0 0
  have := (License.C36_daily amount hA.1 _ (seen_consecutive hd n h 0 0) (fun t ht => ⟨(hm t ht).1, (hm t ht).2.1⟩) (fun t ht => (hm t ht).2.2) (seen_head dates n 0 0 h) (License.State.new amount) core).1 y
  rwa [seen_year] at this

/-- **C126 (licence for the whole run).** With daily timesteps a node whose maximum flow is a `StorageLicense` takes at most the licensed amount over the run. -/
theorem C126_storage (hN : N.Ok) (answer : Data → (Nat → Rat) → Prop) (ha : answer = routeAnswer N ∨ answer = edgeAnswer N) (h : List Done) (m : Moment) (hr : Runs N answer params m0 h m)
    (n : Nat) (hn : n ∈ N.nodes) (hk : N.kind n ≠ .other) (amount : Rat) (hA : 0 ≤ amount ∧ amount ≤ dblMax - 1) (dates : Nat → Nat × Nat)
    (hmin : ∀ t ∈ h, t.values.minFlow n = .fin 0)
    (hmax : ∀ k (hk : k < h.length), h[k].values.maxFlow n = .fin (storageValue amount dates n (h.take k))) : (h.map fun t => t.flow n).sum ≤ amount := by
  have hp : ∀ t ∈ h, 0 ≤ t.flow n := fun t ht => flows_nonneg hN ha hr t ht n
  have h0 : OrdinaryDouble 0 := ⟨by linarith [hA.1, hA.2], by linarith [hA.1, hA.2]⟩
  have range : ∀ (h : List Done), (∀ t ∈ h, 0 ≤ t.flow n) → 0 ≤ storageValue amount dates n h ∧ storageValue amount dates n h ≤ amount := by
    intro h
    induction h using List.reverseRecOn with
    | nil => intro _; exact hA.1 |> fun a => ⟨a, le_refl _⟩
    | append_singleton h t ih =>
      intro hp
      have i := ih fun u hu => hp u (by simp [hu])
      have ht := hp t (by simp)
      unfold storageValue at i ⊢
      rw [seen_append, List.foldl_append]
      generalize (seen dates n 0 0 h).foldl (fun s t => s.after t) (License.State.new amount) = s at i ⊢
      show 0 ≤ (if s.remaining - t.flow n * ((1 : Nat) : Rat) < 0 then 0 else s.remaining - t.flow n * ((1 : Nat) : Rat)) ∧ _ ≤ amount
      push_cast
      constructor
      · split <;> linarith
      · show (if s.remaining - t.flow n * ((1 : Nat) : Rat) < 0 then 0 else s.remaining - t.flow n * ((1 : Nat) : Rat)) ≤ amount
        push_cast
        split <;> linarith
  have hle : ∀ k (hk : k < h.length), h[k].flow n ≤ storageValue amount dates n (h.take k) := by
    intro k hk'
    obtain ⟨v0, v1⟩ := range (h.take k) fun t ht => hp t (List.mem_of_mem_take ht)
    have := C88_flows hN answer ha h m hr h[k] (List.getElem_mem hk') n hn hk (by rw [hmin _ (List.getElem_mem hk')]; exact .inr ⟨0, rfl, h0⟩)
      (by rw [hmax k hk']; exact .inr ⟨_, rfl, ⟨by linarith [h0.1], by linarith [hA.2]⟩⟩)
    rw [hmin _ (List.getElem_mem hk'), hmax k hk'] at this
    exact limited_le v0 this
  have core : ∀ (h : List Done), (∀ k (hk : k < h.length), h[k].flow n ≤ storageValue amount dates n (h.take k)) →
      List.Forall₂ (fun t v => t.flow * (t.len : Rat) ≤ v) (seen dates n 0 0 h) (License.storageValues (License.State.new amount) (seen dates n 0 0 h)) := by
    intro h
    induction h using List.reverseRecOn with
    | nil => intro _; exact .nil
    | append_singleton h t ih =>
      intro hle
      have ih := ih (fun k hk => by
        have := hle k (by simp; omega)
        rwa [List.take_append_of_le_length hk.le, List.getElem_append_left hk] at this)
      have hl := hle h.length (by simp)
      rw [List.take_left, List.getElem_concat_length rfl] at hl
      rw [seen_append, storageValues_append]
      refine List.rel_append ih (.cons ?_ .nil)
      show t.flow n * ((1 : Nat) : Rat) ≤ _
      rw [Nat.cast_one, mul_one]
      exact hl
  have := License.C78_storage_partial amount hA.1 _ (License.State.new amount) (core h hle)
  rwa [seen_total] at this

/-! ## Licences held by virtual storages -/

private theorem left_of {i : Nat} {s : List Nat × List Rat} (v : Rat) (h : List Done) (hno : ∀ t ∈ h, t.values.refill i = none) : left i s v h = v - (h.map (Done.use i s)).sum := by
  induction h generalizing v with
  | nil => simp [left]
  | cons t h ih =>
    have e : left i s v (t :: h) = left i s ((t.values.refill i).getD v - t.use i s) h := rfl
    rw [e, ih _ fun u hu => hno u (List.mem_cons_of_mem _ hu), hno t (by simp), List.map_cons, List.sum_cons, Option.getD_none]
    ring

/-- **C126 (licence periods).** In any stretch of a run in which a virtual storage is refilled at most at the start, its nodes use at most what it was filled with (at most its capacity, if it was not), less its minimum, up to the rounding of
volumes at their limits. -/
theorem C126_period (hN : N.Ok) (answer : Data → (Nat → Rat) → Prop) (ha : answer = routeAnswer N ∨ answer = edgeAnswer N) (before period : List Done) (m : Moment)
    (hr : Runs N answer params m0 (before ++ period) m) (i : Nat) (s : List Nat × List Rat) (hi : N.virtuals[i]? = some s) (mx mn : Rat)
    (hs : s.1.Nodup ∧ ∀ n ∈ s.1, n ∈ N.nodes ∧ N.kind n ≠ .other ∧
      ∀ r ∈ N.routes, n ∈ r → N.kind n = .link ∨ (N.kind n = .input ∧ r.head? = some n) ∨ (N.kind n = .output ∧ r.getLast? = some n))
    (hfix : ∀ h', (params h').vlimits i = (mx, mn)) (hd : ∀ h', 0 < (params h').days ∧ (mx - mn) / (params h').days < dblMax)
    (hfill : ∀ h' v, (params h').refill i = some v → mn ≤ v ∧ v ≤ mx)
    (h1 : mn ≤ (m0.virtuals i).volume) (h2 : (m0.virtuals i).volume ≤ mx) (hno : ∀ t ∈ period.tail, t.values.refill i = none) :
    (period.map (Done.use i s)).sum ≤ ((period.head?.bind fun t => t.values.refill i).getD mx) - mn + period.length * (2 * Storage.e6) := by
  obtain ⟨m1, r1, r2⟩ := runs_split before period hr
  have hb := C88_virtual hN answer ha _ _ r1 i s hi mx mn hs hfix hd hfill h1 h2
  have he := C88_virtual hN answer ha _ _ hr i s hi mx mn hs hfix hd hfill h1 h2
  have hu := C88_use answer _ _ r2 i s hi
  rw [abs_le] at hu
  cases period with
  | nil => simp at hu ⊢; linarith
  | cons t h =>
    have e : left i s (m1.virtuals i).volume (t :: h) = left i s ((t.values.refill i).getD (m1.virtuals i).volume - t.use i s) h := rfl
    rw [e, left_of _ h hno] at hu
    simp only [List.map_cons, List.sum_cons, List.head?_cons, Option.bind_some]
    cases hf : t.values.refill i with
    | none => rw [hf] at hu; simp only [Option.getD_none] at hu ⊢; linarith [hu.1]
    | some v => rw [hf] at hu; simp only [Option.getD_some] at hu ⊢; linarith [hu.1]

/-- **C126 (rolling licence).** A rolling licence over `T` timesteps in a run: its volume is that of `RollingVirtualStorage` (`Model/VirtualStorage.lean`) after the timesteps so far.  In every `T` consecutive timesteps (the share of the volume
missing at the start counts for the `T - 1` before) its nodes use at most the licensed volume, up to 1e-6 a timestep. -/
theorem C126_rolling (hN : N.Ok) (answer : Data → (Nat → Rat) → Prop) (ha : answer = routeAnswer N ∨ answer = edgeAnswer N) (h : List Done) (m : Moment) (hr : Runs N answer params m0 h m)
    (i : Nat) (s : List Nat × List Rat) (hi : N.virtuals[i]? = some s) (mx mn : Rat)
    (hs : s.1.Nodup ∧ ∀ n ∈ s.1, n ∈ N.nodes ∧ N.kind n ≠ .other ∧
      ∀ r ∈ N.routes, n ∈ r → N.kind n = .link ∨ (N.kind n = .input ∧ r.head? = some n) ∨ (N.kind n = .output ∧ r.getLast? = some n))
    (hpos : ∀ f ∈ s.2, 0 ≤ f) (T : Nat) (init : Storage.Initial) (r : VirtualStorage.Rolling) (hini : init.mx = .number mx ∨ init.mx = .constantParam mx) (hr0 : VirtualStorage.Rolling.init T init = .ok r)
    (h1 : mn ≤ r.store.volume) (h2 : r.store.volume ≤ mx) (hb : mn < mx)
    (hv : ∀ t ∈ h, t.values.vlimits i = (mx, mn) ∧ t.values.active i = true ∧ 0 < t.values.days ∧ (mx - mn) / t.values.days < dblMax)
    (hvol : ∀ k (hk : k < h.length), h[k].values.refill i = some (r.run (rolled s mx mn (h.take k))).store.volume) :
    ∀ k, k < h.length → VirtualStorage.windowSum T k (VirtualStorage.history T mx r.store.volume (rolled s mx mn h)) ≤ mx - mn + k * Storage.e6 := by
  have hlen : (rolled s mx mn h).length = h.length := by simp [rolled]
  intro k hk
  refine VirtualStorage.C14_enforced hini hr0 h1 h2 hb (rolled s mx mn h) ?_ ?_ k (by rw [hlen]; exact hk)
  · intro t ht
    obtain ⟨u, hu, rfl⟩ := List.mem_map.1 ht
    obtain ⟨-, -, hd, hbig⟩ := hv u hu
    refine ⟨rfl, rfl, ?_, hd, hbig⟩
    unfold VirtualStorage.RStep.used
    refine mul_nonneg (List.sum_nonneg ?_) hd.le
    intro x hx
    obtain ⟨w, hw, rfl⟩ := List.mem_map.1 hx
    obtain ⟨p, hp, rfl⟩ := List.mem_map.1 hw
    exact mul_nonneg (hpos _ (List.of_mem_zip hp).2) (flows_nonneg hN ha hr u hu _)
  · intro k hk
    rw [hlen] at hk
    obtain ⟨mk, -, hval, hans⟩ := runs_at hr k hk
    have hrow := virtual_admits hN ha _ mk _ hans i s hi hs
    rw [← hval] at hrow
    obtain ⟨a1, a2, -, -⟩ := hv h[k] (List.getElem_mem hk)
    have a3 : (mk.virtual h[k].values i).volume = (r.run (rolled s mx mn (h.take k))).store.volume := by unfold Moment.virtual; rw [hvol k hk]
    rw [a1, a2, a3] at hrow
    have e1 : (rolled s mx mn h).take k = rolled s mx mn (h.take k) := by unfold rolled; rw [List.map_take]
    have e2 : (rolled s mx mn h)[k]'(by rw [hlen]; exact hk) = ⟨(s.1.zip s.2).map fun p => ⟨p.2, h[k].flow p.1⟩, h[k].values.days, mx, mn⟩ := by simp [rolled]
    rw [e1, e2]
    rw [depletion_sum] at hrow
    exact hrow

/-! ## Reservoirs -/

/-- **C126 (balance of a reservoir).** Over every run each reservoir falls by what is drawn from it, less what flows into it, up to the rounding of volumes at their limits. -/
theorem C126_balance (answer : Data → (Nat → Rat) → Prop) (h : List Done) (m : Moment) (hr : Runs N answer params m0 h m) (i : Nat) (s : List Nat × List Nat) (hi : N.stores[i]? = some s) :
    |(m.stores i).volume - ((m0.stores i).volume - (h.map (Done.drawn s)).sum)| ≤ h.length * (2 * Storage.e6) := by
  induction hr with
  | start => simp
  | @step h m flow hr hf ih =>
    have e : ((N.next (params h) flow m).stores i) = storeStep (params h) flow s i (m.stores i) := by
      show (match N.stores[i]? with | none => m.stores i | some s => storeStep (params h) flow s i (m.stores i)) = _
      rw [hi]
    have hn := Storage.snap_err2 ((params h).limits i).1 ((params h).limits i).2 ((m.stores i).volume + ((s.2.map flow).sum - (s.1.map flow).sum) * (params h).days)
    rw [e, storeStep, Storage.step_volume]
    simp only [Storage.Step.netVolume, net_eq]
    have hd : Done.drawn s ⟨params h, flow⟩ = ((s.1.map flow).sum - (s.2.map flow).sum) * (params h).days := rfl
    rw [List.map_append, List.sum_append, List.map_singleton, List.sum_singleton, hd, List.length_append, List.length_singleton]
    rw [abs_le] at ih hn ⊢
    push_cast
    constructor <;> nlinarith [ih.1, ih.2, hn.1, hn.2]

/-- **C126 (reservoirs).** In any stretch of a run a reservoir loses, and gains, no more than the difference of its limits, up to the rounding of volumes at their limits: what is drawn from it beyond that has flowed into it in the same time. -/
theorem C126_reservoir (hN : N.Ok) (answer : Data → (Nat → Rat) → Prop) (ha : answer = routeAnswer N ∨ answer = edgeAnswer N) (before stretch : List Done) (m : Moment)
    (hr : Runs N answer params m0 (before ++ stretch) m) (i : Nat) (s : List Nat × List Nat) (hi : N.stores[i]? = some s) (mx mn : Rat)
    (hfix : ∀ h', (params h').limits i = (mx, mn)) (hd : ∀ h', 0 < (params h').days ∧ (mx - mn) / (params h').days < dblMax)
    (h1 : mn ≤ (m0.stores i).volume) (h2 : (m0.stores i).volume ≤ mx) :
    |(stretch.map (Done.drawn s)).sum| ≤ mx - mn + stretch.length * (2 * Storage.e6) := by
  obtain ⟨m1, r1, r2⟩ := runs_split before stretch hr
  have hl : i < N.stores.length := (List.getElem?_eq_some_iff.1 hi).1
  have hb := C88_volumes hN answer ha _ _ r1 i hl mx mn hfix hd h1 h2
  have he := C88_volumes hN answer ha _ _ hr i hl mx mn hfix hd h1 h2
  have hu := C126_balance answer _ _ r2 i s hi
  rw [abs_le] at hu ⊢
  constructor <;> linarith [hu.1, hu.2, hb.1, hb.2, he.1, he.2]

/-! ## Scenarios -/

/-- **C126 (scenarios).** Every scenario has its own licence: with several scenarios, in whatever way they depend on each other, none of them takes more than the amount in a year. -/
theorem C126_scenarios {n : Nat} {params : List (Fin n → Done) → Fin n → Values} {start : Fin n → Moment} (hN : N.Ok) (answer : Data → (Nat → Rat) → Prop) (ha : answer = routeAnswer N ∨ answer = edgeAnswer N)
    (h : List (Fin n → Done)) (m : Fin n → Moment) (hr : Ensemble N answer params start h m) (c : Fin n)
    (u : Nat) (hu : u ∈ N.nodes) (hk : N.kind u ≠ .other) (amount : Rat) (hA : 0 ≤ amount ∧ amount ≤ dblMax - 1) (dates : Nat → Nat × Nat) (hd : Days dates)
    (hmin : ∀ h', (params h' c).minFlow u = .fin 0) (hmax : ∀ h', (params h' c).maxFlow u = .fin (annualValue amount dates u (h'.map (· c)))) (y : Nat) :
    ((h.zipIdx.filter fun q => (dates q.2).1 = y).map fun q => (q.1 c).flow u).sum ≤ amount := by
  have hrun := C88_scenario answer h m hr c
  have hat : ∀ k (hk : k < (h.map fun t => t c).length), ((h.map fun t : Fin n → Done => t c)[k]'hk).values = params (h.take k) c := by
    intro k hk
    obtain ⟨-, -, e, -⟩ := runs_at hrun k hk
    rw [List.length_take, Nat.min_eq_left hk.le] at e
    exact e
  have := C126_annual hN answer ha _ _ hrun u hu hk amount hA dates hd (fun t ht => by
    obtain ⟨k, hk, rfl⟩ := List.getElem_of_mem ht
    rw [hat k hk]; exact hmin _) (fun k hk => by rw [hat k hk, hmax, List.map_take]) y
  rw [List.zipIdx_map, List.filter_map, List.map_map] at this
  exact this

/-! ## Instance: the network of `Props/Simulation`, the input with an annual licence, the virtual storage refilled every other day -/

/-- The days from the beginning of the year 2001 on. -/
def calendar : Nat → Nat × Nat
  | 0 => (2001, 1)
  | k + 1 => if (calendar k).2 + 1 ≤ License.daysInYear (calendar k).1 then ((calendar k).1, (calendar k).2 + 1) else ((calendar k).1 + 1, 1)

theorem calendar_days : Days calendar := by
  have pos : ∀ y, 1 ≤ License.daysInYear y := fun y => by unfold License.daysInYear; omega
  have valid : ∀ k, 1 ≤ (calendar k).2 ∧ (calendar k).2 ≤ License.daysInYear (calendar k).1 := by
    intro k
    induction k with
    | zero => decide
    | succ k ih =>
      rw [calendar]
      split
      · exact ⟨by simp, by assumption⟩
      · exact ⟨by simp, pos _⟩
  refine ⟨valid, fun k => ?_⟩
  have := valid k
  rw [calendar]
  split
  · left; exact ⟨by assumption, rfl⟩
  · right; exact ⟨by omega, rfl⟩

def licensed (h : List Done) : Values := { sampleValues (annualValue 3650 calendar 0 h) with refill := fun _ => if h.length % 2 = 0 then some 30 else none }

private def taken (a b c : Rat) : Nat → Rat := sampleNet.commit (routeNodeFlow (sampleNet.data (sampleValues 10) sampleStart) sampleNet.routes [a, b, c])

private def twoDays : List Done := ([] ++ [⟨licensed [], taken 5 3 2⟩]) ++ [⟨licensed ([] ++ [⟨licensed [], taken 5 3 2⟩]), taken 4 3 2⟩]

/-- Two days: the input takes 8 of 10 and then 7 of 3642 / 364. -/
example : sampleNet.Ok ∧ (∃ m, Runs sampleNet (routeAnswer sampleNet) licensed sampleStart twoDays m) ∧ (∀ t ∈ twoDays, t.values.minFlow 0 = .fin 0) ∧
    (∀ k (hk : k < twoDays.length), twoDays[k].values.maxFlow 0 = .fin (annualValue 3650 calendar 0 (twoDays.take k))) ∧
    annualValue 3650 calendar 0 (twoDays.take 1) = 3642 / 364 ∧ (0 : Rat) ≤ 3650 ∧ (3650 : Rat) ≤ dblMax - 1 := by
  refine ⟨sample_ok, ⟨_, .step (.step .start ⟨[5, 3, 2], by decide +kernel, rfl⟩) ⟨[4, 3, 2], by decide +kernel, rfl⟩⟩, ?_, ?_, by decide +kernel, by norm_num, ?_⟩
  · intro t ht
    simp only [twoDays, List.nil_append, List.cons_append, List.mem_cons, List.not_mem_nil, or_false] at ht
    rcases ht with rfl | rfl <;> rfl
  · intro k hk
    match k, hk with
    | 0, _ => rfl
    | 1, _ => rfl
  · unfold dblMax
    exact_mod_cast (by decide +kernel : (3650 : Int) ≤ 2 ^ 1024 - 2 ^ 971 - 1)

/-- The two days are a period of the virtual storage: it is filled with 30 at its start, and the link uses 14 and 12. -/
example : sampleNet.virtuals[0]? = some ([2], [2]) ∧ (∀ h', (licensed h').vlimits 0 = (40, 0)) ∧ (∀ h', 0 < (licensed h').days) ∧
    (∀ h' v, (licensed h').refill 0 = some v → (0 : Rat) ≤ v ∧ v ≤ 40) ∧ (∀ t ∈ twoDays.tail, t.values.refill 0 = none) ∧ (twoDays.head?.bind fun t => t.values.refill 0) = some 30 ∧
    (twoDays.map (Done.use 0 ([2], [2]))).sum = 26 ∧ (twoDays.map (Done.drawn ([4], [5]))).sum = -2 := by
  refine ⟨rfl, fun _ => rfl, fun _ => (by decide +kernel : (0 : Rat) < 1), fun h' v hv => ?_, ?_, by decide +kernel, by decide +kernel, by decide +kernel⟩
  · simp only [licensed] at hv
    split at hv
    · cases hv; norm_num
    · cases hv
  · intro t ht
    simp only [twoDays, List.nil_append, List.cons_append, List.tail_cons, List.mem_cons, List.not_mem_nil, or_false] at ht
    subst ht
    rfl

private def window : VirtualStorage.Rolling := ⟨⟨20, 0, 0, some (1 / 2)⟩, ⟨[20], 0⟩⟩

private def rollingParams (h : List Done) : Values := { sampleValues 10 with refill := fun _ => some (window.run (rolled ([2], [2]) 40 0 h)).store.volume }

private def rollingDays : List Done := ([] ++ [⟨rollingParams [], taken 5 3 2⟩]) ++ [⟨rollingParams ([] ++ [⟨rollingParams [], taken 5 3 2⟩]), taken 6 2 4⟩]

/-- A rolling licence of 40 over two days, half of it used the day before: the link uses 14, and 20 of the 26 that are left on the second day. -/
example : (VirtualStorage.Rolling.init 2 ⟨some 20, some (1 / 2), .number 40⟩).toOption = some window ∧ (∃ m, Runs sampleNet (routeAnswer sampleNet) rollingParams sampleStart rollingDays m) ∧
    (∀ k (hk : k < rollingDays.length), rollingDays[k].values.refill 0 = some (window.run (rolled ([2], [2]) 40 0 (rollingDays.take k))).store.volume) ∧
    (window.run (rolled ([2], [2]) 40 0 (rollingDays.take 1))).store.volume = 26 ∧
    VirtualStorage.windowSum 2 1 (VirtualStorage.history 2 40 20 (rolled ([2], [2]) 40 0 rollingDays)) = 34 := by
  refine ⟨by decide +kernel, ⟨_, .step (.step .start ⟨[5, 3, 2], by decide +kernel, rfl⟩) ⟨[6, 2, 4], by decide +kernel, rfl⟩⟩, ?_, by decide +kernel, by decide +kernel⟩
  intro k hk
  match k, hk with
  | 0, _ => rfl
  | 1, _ => rfl

/-- A `StorageLicense` of 20 for the whole run, of which 8 was taken. -/
example : storageValue 20 calendar 0 twoDays = 5 ∧ storageValue 20 calendar 0 (twoDays.take 1) = 12 := by decide +kernel

end Verif.Simulation

import Verif.Proof.Run
import Mathlib.Tactic.Linarith
import Mathlib.Data.List.Nodup
import Mathlib.Tactic.FinCases

/-! # C50: a run always finishes what it started -/

namespace Verif.Run

open Verif.Timestepper

variable {W Freq : Type}

private theorem finish_flat (env : Env W Freq) {m : Mdl Freq} {comps : List Nat} (ho : m.order = some comps)
    (hf : m.flat = none ∨ m.flat = some comps) (g : Global W) :
    ∃ r m' g', m.finish env g = (r, m', g') ∧ m'.ts = m.ts ∧
      (r = none → m' = { m with flat := some comps }) ∧ Did env (tag m.id (finishPlan m.graphNodes comps (m.ts.current.map Timestep.index))) g r g' := by
  rcases hf with hf | hf
  · unfold Mdl.finish finishPlan
    obtain ⟨r1, g1, e1, h1⟩ := exec_did env m.id (m.graphNodes.map (.nodeFinish · (m.ts.current.map Timestep.index))) g
    have hfl : m.flatten false = (.ok comps, { m with flat := some comps }) := by
      unfold Mdl.flatten; rw [hf, ho]
    rw [e1, tag_append]
    rcases r1 with _ | e
    · simp only [hfl]
      obtain ⟨r2, g2, e2, h2⟩ := exec_did env m.id (comps.map (.compFinish · (m.ts.current.map Timestep.index))) g1
      rw [e2]; rcases r2 with _ | e <;>
        exact ⟨_, _, _, rfl, rfl, fun _ => rfl, h1.append h2⟩
    · exact ⟨_, _, _, rfl, rfl, (fun h => nomatch h), h1.stop _⟩
  · obtain ⟨r, g', e, h⟩ := finish_did env hf g
    exact ⟨r, m, g', e, rfl, fun _ => by rw [← hf], h⟩

private theorem tryPart_did (env : Env W Freq) {m : Mdl Freq} {P : List Period} {comps : List Nat}
    (h : Ready env m P comps) (hf : m.flat = none ∨ m.flat = some comps) (g : Global W) :
    ∃ r last m' g', m.tryPart env g = (r, last, m', g') ∧
      m' = { m with ts := m'.ts, dirty := m'.dirty, flat := m'.flat } ∧ (m'.flat = none ∨ m'.flat = some comps) ∧
      (r = none → last = P.getLast?.map (fun p => ⟨p, P.length - 1, p.seconds⟩) ∧
        (∃ t, m'.ts.current = some t ∧ t.index = P.length) ∧ m'.ts.periods = P ∧ m'.ts.freq = m.ts.freq ∧
        m'.flat = some comps ∧ m'.ts.lastLength = some P.length ∧ ¬ m'.Stale) ∧
      Did env (startPlan m comps ++ stepsPlan m comps P.length) g r g' := by
  obtain ⟨r1, m1, g1, e1, hgo, hs, hfl, hd⟩ := prepare_did env h g
  unfold Mdl.tryPart
  rw [e1]
  cases r1 with
  | some e =>
    refine ⟨_, _, _, _, rfl, hs, ?_, (fun h => nomatch h), hd.stop _⟩
    rcases hfl with hfl | hfl
    · rw [hfl]; exact hf
    · exact Or.inr hfl
  | none =>
    simp only
    have hg0 := (hgo rfl).1
    rw [hg0.periods]
    have hlen : 0 < P.length := List.length_pos_iff.2 h.nonempty
    obtain ⟨r, last, m', k', g', e2, hgo', hdi, hr, hd'⟩ :=
      loop_did env h.good h.shift P.length m1 0 none g1 (by omega) hg0
    refine ⟨r, last, m', g', e2, by rw [hgo'.same], Or.inr hgo'.flat, fun hn => ⟨?_, (hr hn).1, hgo'.periods, hgo'.freq,
      hgo'.flat, hgo'.len, ?_⟩, ?_⟩
    · rw [(hr hn).2, if_neg (by omega)]
    · rintro (h' | h')
      · rw [hdi, (hgo rfl).2] at h'; cases h'
      · rw [hgo'.clean] at h'; cases h'
    · have : stepsPlan m comps P.length =
          (List.range' 0 P.length).flatMap fun k => tag m.id (stepPlan m.graphNodes comps m.param k) := by
        rw [stepsPlan, List.range_eq_range']
      rw [this]
      exact hd.append hd'

/-- **C50 (which exception).** When `Model.run` raises, the exception is the one raised by the call at which the run
stopped, unless a finish-hook raised too: then it is that of the finish-hook. -/
theorem C50_exception (env : Env W Freq) (m : Mdl Freq) (P : List Period) (comps : List Nat) (h : Ready env m P comps)
    (hf : m.flat = none ∨ m.flat = some comps) (g : Global W) (e : RunErr) (he : (m.run env g).1 = .error e) :
    ∃ (es fs : List Entry) (r : Bool) (cur : Option Nat) (w : W), (m.run env g).2.2.log = g.log ++ es ++ fs ∧
      Followed (startPlan m comps ++ stepsPlan m comps P.length) es r ∧ Ran env g.world es w ∧
      ((Followed (tag m.id (finishPlan m.graphNodes comps cur)) fs true ∧ Blames env w fs e) ∨
        (Followed (tag m.id (finishPlan m.graphNodes comps cur)) fs false ∧ r = true ∧ Blames env g.world es e)) := by
  obtain ⟨r1, last, m1, g1, e1, hs, hfl, hok, ⟨es, le, fe, ke, be⟩⟩ := tryPart_did env h hf g
  have ho : m1.order = some comps := by rw [hs]; exact h.order
  obtain ⟨r2, m2, g2, e2, hts, -, ⟨fs, lf, ff, kf, bf⟩⟩ := finish_flat env ho hfl g1
  have hid : m1.id = m.id := by rw [hs]
  have hgn : m1.graphNodes = m.graphNodes := by rw [hs]
  rw [hid, hgn] at ff
  unfold Mdl.run at he ⊢
  rw [e1] at he ⊢
  simp only [e2] at he ⊢
  cases r2 with
  | some e' =>
    obtain rfl : e' = e := by simpa using he
    exact ⟨es, fs, _, _, g1.world, by simp [lf, le], fe, ke, Or.inl ⟨ff, bf _ rfl⟩⟩
  | none =>
    cases r1 with
    | some e' =>
      obtain rfl : e' = e := by simpa using he
      exact ⟨es, fs, true, _, g1.world, by simp [lf, le], fe, ke, Or.inr ⟨ff, rfl, be _ rfl⟩⟩
    | none =>
      obtain ⟨hl, -⟩ := hok rfl
      rw [hl, List.getLast?_eq_some_getLast h.nonempty] at he
      simp at he

/-- **C50.** Whatever the nodes, components, scenarios and solver do in their hooks, and whichever call raises: `Model.run`
makes the calls of setting up (if needed, otherwise resetting), then for each timestep in turn all before-hooks, the parameter values, one
solve and all after-hooks, in this order, up to the end or up to the first call that raises; then, in either case, the
finish-hooks of all nodes and components, in this order, up to the end or the first finish that raises.  It returns
normally exactly when no call raised, and then the last timestep is the last of the simulation and the timestepper stands
one past it.  The log is a true record: every hook acted on the world left by the previous one. -/
theorem C50_run (env : Env W Freq) (m : Mdl Freq) (P : List Period) (comps : List Nat) (h : Ready env m P comps)
    (hf : m.flat = none ∨ m.flat = some comps) (g : Global W) :
    ∃ (es fs : List Entry) (r r' : Bool) (cur : Option Nat), (m.run env g).2.2.log = g.log ++ es ++ fs ∧
      Followed (startPlan m comps ++ stepsPlan m comps P.length) es r ∧
      Followed (tag m.id (finishPlan m.graphNodes comps cur)) fs r' ∧ Ran env g.world (es ++ fs) (m.run env g).2.2.world ∧
      (r = false → cur = some P.length) ∧
      ((∃ t, (m.run env g).1 = .ok t) ↔ r = false ∧ r' = false) ∧
      (∀ t, (m.run env g).1 = .ok t → t.index + 1 = P.length ∧ P.getLast? = some t.period ∧
        ∃ c, (m.run env g).2.1.ts.current = some c ∧ c.index = P.length) := by
  obtain ⟨r1, last, m1, g1, e1, hs, hfl, hok, ⟨es, le, fe, ke, -⟩⟩ := tryPart_did env h hf g
  have ho : m1.order = some comps := by rw [hs]; exact h.order
  obtain ⟨r2, m2, g2, e2, hts, -, ⟨fs, lf, ff, kf, -⟩⟩ := finish_flat env ho hfl g1
  have hid : m1.id = m.id := by rw [hs]
  have hgn : m1.graphNodes = m.graphNodes := by rw [hs]
  rw [hid, hgn] at ff
  have hlen : 0 < P.length := List.length_pos_iff.2 h.nonempty
  refine ⟨es, fs, r1.isSome, r2.isSome, _, ?_, fe, ff, ?_, ?_, ?_, ?_⟩
  · unfold Mdl.run; rw [e1]; simp only [e2]
    cases r2 <;> cases r1 <;> cases last <;> simp [lf, le]
  · have hw : (m.run env g).2.2.world = g2.world := by
      unfold Mdl.run; rw [e1]; simp only [e2]
      cases r2 <;> cases r1 <;> cases last <;> rfl
    rw [hw]; exact ke.append kf
  · intro hr
    cases r1 with
    | some e => cases hr
    | none =>
      obtain ⟨-, ⟨c, hc, hci⟩, -⟩ := hok rfl
      rw [hc, ← hci]; rfl
  · unfold Mdl.run; rw [e1]; simp only [e2]
    cases r2 with
    | some e => simp
    | none =>
      cases r1 with
      | some e => simp
      | none =>
        obtain ⟨hl, -⟩ := hok rfl
        rw [hl, List.getLast?_eq_some_getLast h.nonempty]
        simp
  · intro t
    unfold Mdl.run; rw [e1]; simp only [e2]
    cases r2 with
    | some e => simp
    | none =>
      cases r1 with
      | some e => simp
      | none =>
        obtain ⟨hl, ⟨c, hc, hci⟩, -⟩ := hok rfl
        rw [hl, List.getLast?_eq_some_getLast h.nonempty]
        simp only [Option.map_some, Except.ok.injEq]
        rintro rfl
        refine ⟨by simp only; omega, rfl, c, ?_, hci⟩
        rw [hts]; exact hc

private theorem Followed.calls {plan : List (Nat × Call)} {es : List Entry} (h : Followed plan es false) :
    es.map (fun e => (e.model, e.call)) = plan ∧ ∀ e ∈ es, e.raised = false := by
  generalize hf : false = s at h
  induction h with
  | nil => exact ⟨rfl, fun _ h => nomatch h⟩
  | ok _ ih =>
    obtain ⟨h1, h2⟩ := ih hf
    refine ⟨by simp [h1], ?_⟩
    intro e he
    rcases List.mem_cons.1 he with rfl | he
    · exact hf
    · exact h2 e he
  | raised => cases hf

private theorem Followed.raised_mem {plan : List (Nat × Call)} {es : List Entry} (h : Followed plan es true) :
    ∃ e ∈ es, e.raised = true ∧ (e.model, e.call) ∈ plan := by
  generalize hf : true = s at h
  induction h with
  | nil => cases hf
  | ok _ ih =>
    obtain ⟨e, h1, h2, h3⟩ := ih hf
    exact ⟨e, List.mem_cons_of_mem _ h1, h2, List.mem_cons_of_mem _ h3⟩
  | raised => exact ⟨_, List.mem_singleton.2 rfl, rfl, List.mem_cons_self⟩

private theorem Followed.sub {plan : List (Nat × Call)} {es : List Entry} {r : Bool} (h : Followed plan es r) :
    ∀ e ∈ es, (e.model, e.call) ∈ plan := by
  induction h with
  | nil => exact fun _ h => nomatch h
  | ok _ ih =>
    intro e he
    rcases List.mem_cons.1 he with rfl | he
    · exact List.mem_cons_self
    · exact List.mem_cons_of_mem _ (ih e he)
  | raised =>
    intro e he
    obtain rfl := List.mem_singleton.1 he
    exact List.mem_cons_self

private theorem ran_mem {env : Env W Freq} {w w' : W} {es : List Entry} (h : Ran env w es w') :
    ∀ e ∈ es, ∃ w, (env.behave e.model e.call w).1.isSome = e.raised := by
  induction h with
  | nil => exact fun _ h => nomatch h
  | @cons w e _ _ h1 _ ih =>
    intro e' he
    rcases List.mem_cons.1 he with rfl | he
    · exact ⟨w, h1⟩
    · exact ih e' he

/-- The call is a finish-hook. -/
private def isFinish : Call → Bool
  | .nodeFinish _ _ => true
  | .compFinish _ _ => true
  | _ => false

/-- The call finishes component `x`. -/
def finishesComp (x : Nat) : Call → Bool
  | .compFinish c _ => c = x
  | _ => false

/-- The call finishes node `x`. -/
def finishesNode (x : Nat) : Call → Bool
  | .nodeFinish n _ => n = x
  | _ => false

private theorem plan_no_finish (m : Mdl Freq) (comps : List Nat) (n : Nat) :
    ∀ x ∈ startPlan m comps ++ stepsPlan m comps n, isFinish x.2 = false := by
  intro x hx
  rcases List.mem_append.1 hx with hx | hx
  · unfold startPlan at hx
    split_ifs at hx
    · simp only [tag, setupPlan, List.map_append, List.map_map, List.mem_append, List.mem_map, Function.comp] at hx
      rcases hx with (((((⟨c, hc, rfl⟩ | ⟨c, hc, rfl⟩) | ⟨c, hc, rfl⟩) | ⟨c, hc, rfl⟩) | ⟨c, hc, rfl⟩) | ⟨c, hc, rfl⟩) |
        ⟨c, hc, rfl⟩ <;> first | rfl | (obtain rfl := List.mem_singleton.1 hc; rfl)
    · simp only [tag, resetPlan, List.map_append, List.map_map, List.mem_append, List.mem_map, Function.comp] at hx
      rcases hx with (⟨c, hc, rfl⟩ | ⟨c, hc, rfl⟩) | ⟨c, hc, rfl⟩ <;>
        first | rfl | (obtain rfl := List.mem_singleton.1 hc; rfl)
  · unfold stepsPlan at hx
    obtain ⟨k, -, hx⟩ := List.mem_flatMap.1 hx
    simp only [tag, stepPlan, List.map_append, List.map_map, List.mem_append, List.mem_map, Function.comp] at hx
    rcases hx with ((((⟨c, hc, rfl⟩ | ⟨c, hc, rfl⟩) | ⟨c, hc, rfl⟩) | ⟨c, hc, rfl⟩) | ⟨c, hc, rfl⟩) | ⟨c, hc, rfl⟩ <;>
      first | rfl | (obtain rfl := List.mem_singleton.1 hc; rfl)

/-- **C50 (every component is finished exactly once).** If the finish-hooks do not raise themselves, every node and every
component is finished exactly once by a run, wherever an exception happened. -/
theorem C50_finished_once (env : Env W Freq) (m : Mdl Freq) (P : List Period) (comps : List Nat)
    (h : Ready env m P comps) (hf : m.flat = none ∨ m.flat = some comps) (hc : comps.Nodup)
    (hn : m.graphNodes.Nodup) (g : Global W)
    (hfin : ∀ w x cur, (env.behave m.id (.compFinish x cur) w).1 = none ∧
      (env.behave m.id (.nodeFinish x cur) w).1 = none) :
    ∃ es : List Entry, (m.run env g).2.2.log = g.log ++ es ∧
      (∀ c ∈ comps, (es.map Entry.call).countP (finishesComp c) = 1) ∧
      (∀ n ∈ m.graphNodes, (es.map Entry.call).countP (finishesNode n) = 1) := by
  obtain ⟨es, fs, r, r', cur, hl, h1, h2, hh, -⟩ := C50_run env m P comps h hf g
  have hr' : r' = false := by
    by_contra hne
    have : r' = true := by simpa using hne
    subst this
    obtain ⟨e, he, hra, hp⟩ := Followed.raised_mem h2
    obtain ⟨w, hw⟩ := ran_mem hh e (List.mem_append_right _ he)
    rw [hra] at hw
    simp only [tag, finishPlan, List.map_append, List.map_map, List.mem_append, List.mem_map, Function.comp,
      Prod.mk.injEq] at hp
    rcases hp with ⟨c, -, e1, e2⟩ | ⟨c, -, e1, e2⟩ <;> rw [← e1, ← e2] at hw
    · rw [(hfin w c _).2] at hw; cases hw
    · rw [(hfin w c _).1] at hw; cases hw
  subst hr'
  have hfs : fs.map Entry.call = finishPlan m.graphNodes comps cur := by
    have := congrArg (List.map Prod.snd) (Followed.calls h2).1
    simpa [tag, Function.comp_def] using this
  have hes : ∀ q : Call → Bool, (∀ c, q c = true → isFinish c = true) → (es.map Entry.call).countP q = 0 := by
    intro q hq
    rw [List.countP_eq_zero]
    intro c hmem hc
    obtain ⟨e, he, rfl⟩ := List.mem_map.1 hmem
    have := plan_no_finish m comps P.length _ (Followed.sub h1 e he)
    simp only at this
    rw [hq _ hc] at this; cases this
  have hcnt : ∀ (l : List Nat) (x : Nat), l.Nodup → x ∈ l → l.countP (fun y => decide (y = x)) = 1 := by
    intro l x hn hx
    have h1 := List.count_eq_one_of_mem hn hx
    have h2 : l.countP (fun y => decide (y = x)) = l.count x := by
      rw [List.count]; congr 1
    rw [h2, h1]
  refine ⟨es ++ fs, by rw [hl, List.append_assoc], ?_, ?_⟩
  · intro c hcm
    rw [List.map_append, List.countP_append, hes _ (by intro x hx; cases x <;> simp_all [finishesComp, isFinish]), hfs,
      finishPlan, List.countP_append, Nat.zero_add, List.countP_map, List.countP_map]
    have h1 : m.graphNodes.countP (finishesComp c ∘ fun x => .nodeFinish x cur) = 0 := by
      rw [List.countP_eq_zero]; intro x _; simp [finishesComp]
    rw [h1, Nat.zero_add]
    exact hcnt comps c hc hcm
  · intro c hcm
    rw [List.map_append, List.countP_append, hes _ (by intro x hx; cases x <;> simp_all [finishesNode, isFinish]), hfs,
      finishPlan, List.countP_append, Nat.zero_add, List.countP_map, List.countP_map]
    have h1 : comps.countP (finishesNode c ∘ fun x => .compFinish x cur) = 0 := by
      rw [List.countP_eq_zero]; intro x _; simp [finishesNode]
    rw [h1, Nat.add_zero]
    exact hcnt m.graphNodes c hn hcm

/-- **C50 (running again).** After a run that returned normally the model need not be set up again: a second run resets it
and runs the same timesteps and components. -/
theorem C50_run_again (env : Env W Freq) (m : Mdl Freq) (P : List Period) (comps : List Nat)
    (h : Ready env m P comps) (hf : m.flat = none ∨ m.flat = some comps) (g : Global W) (t : Timestep)
    (hok : (m.run env g).1 = .ok t) :
    Ready env (m.run env g).2.1 P comps ∧ ¬ (m.run env g).2.1.Stale ∧
      startPlan (m.run env g).2.1 comps = tag m.id (resetPlan m.topNodes comps) := by
  obtain ⟨r1, last, m1, g1, e1, hs, hfl, hk, -⟩ := tryPart_did env h hf g
  have ho : m1.order = some comps := by rw [hs]; exact h.order
  obtain ⟨r2, m2, g2, e2, hts, hm2, -⟩ := finish_flat env ho hfl g1
  have hr : r1 = none ∧ r2 = none := by
    revert hok
    unfold Mdl.run; rw [e1]; simp only [e2]
    cases r2 <;> cases r1 <;> simp
  obtain ⟨rfl, rfl⟩ := hr
  obtain ⟨hlast, -, hP, hfr, hflat, hlen, hst⟩ := hk rfl
  have hrun : (m.run env g).2.1 = m2 := by
    unfold Mdl.run; rw [e1]; simp only [e2]
    cases last <;> rfl
  have hst2 : ¬ m2.Stale := by rw [hm2 rfl]; exact hst
  have hid : m2.id = m.id ∧ m2.topNodes = m.topNodes := by rw [hm2 rfl, hs]; exact ⟨rfl, rfl⟩
  rw [hrun]
  refine ⟨⟨?_, h.nonempty, h.good, ?_, fun h' => absurd h' hst2, fun _ => ⟨?_, ?_, ?_⟩⟩, hst2, ?_⟩
  · rw [hm2 rfl]; exact ho
  · rw [hts, hfr]; exact h.shift
  · rw [hts, hP]
  · rw [hm2 rfl]
  · rw [hts]; exact hlen
  · unfold startPlan; rw [if_neg hst2, hid.1, hid.2]

/-- **C50 (nothing to run).** A model that is set up without any timestep raises an error (after the finish-hooks),
whatever its hooks do. -/
theorem C50_no_timesteps (env : Env W Freq) (m : Mdl Freq) (hs : m.Stale) (g : Global W)
    (hP : env.pd.periodRange m.ts.start m.ts.stop m.ts.freq = []) : ∃ e, (m.run env g).1 = .error e := by
  have h1 : (m.tryPart env g).1 = some (.timestepper .indexError) := by
    unfold Mdl.tryPart Mdl.prepare
    rw [if_pos (by simpa [Mdl.Stale] using hs)]
    unfold Mdl.setup State.setup
    simp only [hP, State.reset, startIndex, List.getElem?_nil]
  unfold Mdl.run
  rcases hx : m.tryPart env g with ⟨err, last, m', g'⟩
  rw [hx] at h1
  simp only at h1
  subst h1
  simp only
  rcases m'.finish env g' with ⟨_ | e, m'', g''⟩
  · exact ⟨_, rfl⟩
  · exact ⟨_, rfl⟩

/-! ## Resetting -/

/-- The lengths known to the timestepper agree, unless there are no periods. -/
private def Synced (s : State Freq) : Prop := s.periods = [] ∨ s.lastLength = some s.periods.length

private theorem synced_reset (s : State Freq) (t : Option Int) (h : Synced s) :
    Synced (s.reset t).2 ∧ ∀ b, (s.reset t).1 = .ok b → b = false := by
  unfold State.reset
  cases hi : startIndex s.periods t with
  | none => exact ⟨h, fun _ h => nomatch h⟩
  | some i =>
    simp only
    cases hp : s.periods[i]? with
    | none => exact ⟨h, fun _ h => nomatch h⟩
    | some p =>
      simp only
      cases hm : mkTimestep p i p.seconds with
      | error e => exact ⟨h, fun _ h => nomatch h⟩
      | ok ts =>
        refine ⟨Or.inr rfl, fun b hb => ?_⟩
        rcases h with h | h
        · rw [h] at hp; cases hp
        · simp only [Except.ok.injEq] at hb
          rw [← hb, h]; simp

private theorem synced_step (pd : Pandas Freq) (hgood : ∀ a b f, ∀ p ∈ pd.periodRange a b f, GoodPeriod p) (s : State Freq)
    (h : Synced s) (op : Op Freq) : Synced (s.step pd op) := by
  cases op with
  | next =>
    simp only [State.step, State.nextStep]
    split
    · exact h
    · split
      · exact h
      · split <;> exact h
  | reset t => exact (synced_reset s t h).1
  | setStart t => exact h
  | setEnd t => exact h
  | setDelta f => exact h
  | setup =>
    by_cases hne : pd.periodRange s.start s.stop s.freq = []
    · refine Or.inl ?_
      simp [State.step, State.setup, State.reset, hne, startIndex]
    · obtain ⟨ts, e, h1, -, h3, -⟩ := tsSetup pd (s := s) rfl hne (hgood _ _ _)
      simp only [State.step, e]
      exact Or.inr (by rw [h3, h1])

/-- **C50 (resetting a model).** Whatever was done with the timestepper since it was set up (changing start, end or step,
iterating, resetting, setting up again), `Model.reset` resets every node, every component and the solver, in this order, up
to the first call that raises, and never sets any of them up: the branch of `Model.reset` for a changed number of timesteps
cannot be reached. -/
theorem C50_reset (env : Env W Freq) (m : Mdl Freq) (comps : List Nat) (s : State Freq) (ops : List (Op Freq))
    (hgood : ∀ a b f, ∀ p ∈ env.pd.periodRange a b f, GoodPeriod p) (hts : m.ts = ((s.setup env.pd).2).run env.pd ops)
    (hf : m.flat = some comps) (start : Option Int) (g : Global W) :
    ∃ (es : List Entry) (r : Bool), (m.reset env start g).2.2.log = g.log ++ es ∧
      (((∃ b, (m.ts.reset start).1 = .ok b) ∧ Followed (tag m.id (resetPlan m.topNodes comps)) es r ∧
          ((m.reset env start g).1 = none ↔ r = false)) ∨
        ((∃ e, (m.ts.reset start).1 = .error e ∧ (m.reset env start g).1 = some (.timestepper e)) ∧ es = [])) := by
  have hs : Synced m.ts := by
    rw [hts]
    have h0 : Synced (s.setup env.pd).2 := by
      by_cases hne : env.pd.periodRange s.start s.stop s.freq = []
      · refine Or.inl ?_
        simp [State.setup, State.reset, hne, startIndex]
      · obtain ⟨ts, e, h1, -, h3, -⟩ := tsSetup env.pd (s := s) rfl hne (hgood _ _ _)
        rw [e]
        exact Or.inr (by rw [h3, h1])
    generalize (s.setup env.pd).2 = s' at h0
    clear hts
    induction ops generalizing s' with
    | nil => exact h0
    | cons op ops ih => exact ih _ (synced_step env.pd hgood s' h0 op)
  have hfl := (synced_reset m.ts start hs).2
  unfold Mdl.reset
  rcases hx : m.ts.reset start with ⟨e | b, ts'⟩
  · exact ⟨[], false, by simp, Or.inr ⟨⟨e, rfl, rfl⟩, rfl⟩⟩
  · rw [hx] at hfl
    obtain rfl := hfl b rfl
    simp only [resetCalls_false]
    obtain ⟨r1, g1, e1, h1⟩ := exec_did env m.id (m.topNodes.map .nodeReset) g
    have hplan : tag m.id (resetPlan m.topNodes comps) =
        tag m.id (m.topNodes.map .nodeReset) ++ tag m.id (comps.map .compReset ++ [.solverReset]) := by
      simp [resetPlan, tag]
    rw [hplan, e1]
    rcases r1 with _ | e
    · simp only [flatten_cached (m := { m with ts := ts' }) hf]
      obtain ⟨r2, g2, e2, h2⟩ := exec_did env m.id (comps.map .compReset ++ [.solverReset]) g1
      obtain ⟨es, l1, l2, -⟩ := h1.append h2
      rw [e2]
      rcases r2 with _ | e <;> exact ⟨es, _, l1, Or.inl ⟨⟨_, rfl⟩, l2, by simp⟩⟩
    · obtain ⟨es, l1, l2, -⟩ := h1.stop (tag m.id (comps.map .compReset ++ [.solverReset]))
      exact ⟨es, _, l1, Or.inl ⟨⟨_, rfl⟩, l2, by simp⟩⟩

/-! ## Where the statement fails -/

/-- Two one-day periods; `Freq` is `Unit`. -/
private def twoDays : List Period := [⟨0, 86399999999999⟩, ⟨86400000000000, 172799999999999⟩]

private def twoDaysPd : Pandas Unit := ⟨fun _ _ _ => twoDays, fun _ p => ⟨p.last + 1, p.last + 86400000000000⟩⟩

/-- A new model over two days with the given components. -/
private def newModel (comps : List Nat) : Mdl Unit where
  id := 0
  ts := ⟨0, 172799999999999, (), [], none, none, none, true⟩
  dirty := true
  graphNodes := [7]
  topNodes := [7]
  order := some comps
  flat := none
  param := fun _ => false

/-- Hooks that never raise. -/
private def quiet : Env Unit Unit := ⟨twoDaysPd, fun _ _ w => (none, w)⟩

/-- Hooks of which only the finish-hook of component 0 raises. -/
private def badFinish : Env Unit Unit :=
  ⟨twoDaysPd, fun _ c w => (if finishesComp 0 c then some 1 else none, w)⟩

/-- The hypotheses of the theorems above can be met. -/
example : Ready quiet (newModel [0, 1]) twoDays [0, 1] ∧ (newModel [0, 1]).flat = none := by
  refine ⟨⟨rfl, by decide, ?_, ?_, fun _ => rfl, fun h => absurd (Or.inl rfl) h⟩, rfl⟩
  · intro p hp
    fin_cases hp <;> (unfold GoodPeriod; decide)
  · intro p hp
    unfold GoodPeriod at *
    simp only [quiet, twoDaysPd]
    omega

/-- Both kinds of exception of `C50_exception` occur: that of the solver at the second timestep, and that of a
finish-hook which hides it. -/
example : ((newModel [0, 1]).run ⟨twoDaysPd, fun _ c w => (if c = .solve 1 then some 7 else none, w)⟩ ⟨(), []⟩).1 =
      .error (.hook 7) ∧
    ((newModel [0, 1]).run ⟨twoDaysPd, fun _ c w => (if c = .solve 1 then some 7 else
      if finishesComp 0 c then some 8 else none, w)⟩ ⟨(), []⟩).1 = .error (.hook 8) := ⟨rfl, rfl⟩

/-- The hypothesis of `C50_reset` on the calendar can be met. -/
example : ∀ a b f, ∀ p ∈ quiet.pd.periodRange a b f, GoodPeriod p := by
  intro a b f p hp
  change p ∈ twoDays at hp
  fin_cases hp <;> (unfold GoodPeriod; decide)

/-! ## Stepping by hand -/

/-- **C50 (stepping).** `Model.step` sets a model up if the model or its timestepper has changed; if that raises, no
timestep is made; otherwise it goes on as with the model that has been set up. -/
theorem C50_step_setup (env : Env W Freq) (m : Mdl Freq) (P : List Period) (comps : List Nat) (h : Ready env m P comps)
    (hs : m.Stale) (g : Global W) :
    (∀ e, (m.setup env g).1 = some e → m.step env g = m.setup env g) ∧
      ((m.setup env g).1 = none → m.step env g = (m.setup env g).2.1.step env (m.setup env g).2.2) := by
  have h1 : (m.dirty || m.ts.dirty) = true := by simpa [Mdl.Stale] using hs
  have hd : (m.setup env g).1 = none → (m.setup env g).2.1.dirty = false ∧ (m.setup env g).2.1.ts.dirty = false := by
    obtain ⟨r0, m0, g0, e0, hgo, -, -, -⟩ := setup_did env (h.stale hs) h.nonempty h.good h.order g
    rw [e0]
    exact fun hn => ⟨(hgo hn).2, (hgo hn).1.clean⟩
  constructor
  · intro e he
    unfold Mdl.step
    simp only [h1, if_true]
    rcases hx : m.setup env g with ⟨r, m', g'⟩
    rw [hx] at he
    simp only at he
    subst he
    rfl
  · intro he
    obtain ⟨hd, ht⟩ := hd he
    rcases hx : m.setup env g with ⟨r, m', g'⟩
    rw [hx] at he hd ht
    simp only at he hd ht
    subst he
    have h2 : (m'.dirty || m'.ts.dirty) = false := by rw [hd, ht]; rfl
    unfold Mdl.step
    rw [if_pos h1, hx, if_neg (by rw [h2]; exact Bool.false_ne_true)]

/-- **C50 (stepping).** After a setup that went well, the `k`-th call of `Model.step` makes the calls of timestep `k`, in the
same order as a run, up to the end or the first call that raises; it returns normally exactly if none raised; after the
last timestep no call is made and `step` raises.  A step that raised is not repeated: the next call of `step` goes on with
the next timestep. -/
theorem C50_step (env : Env W Freq) (m : Mdl Freq) (P : List Period) (comps : List Nat) (h : Ready env m P comps)
    (hs : m.Stale) (g : Global W) (hok : (m.setup env g).1 = none) (k : Nat) :
    ∃ (es : List Entry) (r : Bool),
      (stepped env (k + 1) (m.setup env g).2).2.log = (stepped env k (m.setup env g).2).2.log ++ es ∧
      Ran env (stepped env k (m.setup env g).2).2.world es (stepped env (k + 1) (m.setup env g).2).2.world ∧
      (k < P.length → Followed (tag m.id (stepPlan m.graphNodes comps m.param k)) es r ∧
        (((stepped env k (m.setup env g).2).1.step env (stepped env k (m.setup env g).2).2).1 = none ↔ r = false)) ∧
      (P.length ≤ k → es = [] ∧
        ((stepped env k (m.setup env g).2).1.step env (stepped env k (m.setup env g).2).2).1 =
          some (.timestepper .stopIteration)) := by
  obtain ⟨r0, m0, g0, e0, hgo, -, -, -⟩ := setup_did env (h.stale hs) h.nonempty h.good h.order g
  rw [e0] at hok ⊢
  simp only at hok ⊢
  obtain ⟨hgo, hd0⟩ := hgo hok
  have key : ∀ k, Going env m (stepped env k (m0, g0)).1 P comps (min k P.length) ∧ (stepped env k (m0, g0)).1.dirty = false := by
    intro k
    induction k with
    | zero => exact ⟨by simpa [stepped] using hgo, hd0⟩
    | succ k ih =>
      obtain ⟨ih, id⟩ := ih
      rw [stepped]
      generalize stepped env k (m0, g0) = x at ih id ⊢
      obtain ⟨x, gx⟩ := x
      simp only at ih id ⊢
      have h2 : (x.dirty || x.ts.dirty) = false := by rw [id, ih.clean]; rfl
      unfold Mdl.step
      rw [if_neg (by rw [h2]; exact Bool.false_ne_true)]
      by_cases hk : k < P.length
      · rw [Nat.min_eq_left (Nat.le_of_lt hk)] at ih
        rw [Nat.min_eq_left hk]
        obtain ⟨ts, e, hn, -⟩ := ih.next h.good h.shift hk
        obtain ⟨r, g', e', -⟩ := hn.step k gx
        simp only [e, e']
        exact ⟨hn, id⟩
      · rw [Nat.min_eq_right (by omega)] at ih ⊢
        obtain ⟨ts, e, hn, -⟩ := ih.done
        simp only [e]
        exact ⟨hn, id⟩
  obtain ⟨ih, id⟩ := key k
  rw [stepped]
  generalize stepped env k (m0, g0) = x at ih id ⊢
  obtain ⟨x, gx⟩ := x
  simp only at ih id ⊢
  have h2 : (x.dirty || x.ts.dirty) = false := by rw [id, ih.clean]; rfl
  unfold Mdl.step
  rw [if_neg (by rw [h2]; exact Bool.false_ne_true)]
  by_cases hk : k < P.length
  · rw [Nat.min_eq_left (Nat.le_of_lt hk)] at ih
    obtain ⟨ts, e, hn, -⟩ := ih.next h.good h.shift hk
    obtain ⟨r, g', e', es, le, fe, ke, -⟩ := hn.step k gx
    simp only [e, e']
    exact ⟨es, r.isSome, le, ke, fun _ => ⟨fe, by cases r <;> simp⟩, fun h => absurd hk (by omega)⟩
  · rw [Nat.min_eq_right (by omega)] at ih
    obtain ⟨ts, e, hn, -⟩ := ih.done
    simp only [e]
    exact ⟨[], false, by simp, .nil, fun h => absurd h hk, fun _ => ⟨rfl, trivial⟩⟩

example : ((newModel [0, 1]).setup quiet ⟨(), []⟩).1 = none ∧ (newModel [0, 1]).dirty = true ∧
    (stepped quiet 3 ((newModel [0, 1]).setup quiet ⟨(), []⟩).2).2.log.length =
      ((newModel [0, 1]).setup quiet ⟨(), []⟩).2.2.log.length + 14 := by decide +kernel

/-- **C50 fails for components created after the model was set up.** A recorder (component 0) created after a run takes no
part in the next run: although the run returns normally, the recorder is never set up, reset, updated or finished. -/
theorem C50_new_component_fails : ∃ (env : Env Unit Unit) (m : Mdl Unit) (t : Timestep),
    let m1 := (m.run env ⟨(), []⟩).2.1
    let m2 := m1.addComponent [0]
    m.flat = none ∧ (m2.run env ⟨(), []⟩).1 = .ok t ∧ m2.order = some [0] ∧
      ∀ e ∈ (m2.run env ⟨(), []⟩).2.2.log, e.call ≠ .compSetup 0 ∧ e.call ≠ .compReset 0 ∧
        (∀ k, e.call ≠ .compAfter 0 k) ∧ finishesComp 0 e.call = false := by
  refine ⟨quiet, newModel [], ⟨⟨86400000000000, 172799999999999⟩, 1, 86400⟩, rfl, by decide +kernel, rfl, ?_⟩
  have : ((((newModel []).run quiet ⟨(), []⟩).2.1.addComponent [0]).run quiet ⟨(), []⟩).2.2.log =
      [⟨0, .nodeReset 7, false⟩, ⟨0, .solverReset, false⟩, ⟨0, .nodeBefore 7 0, false⟩, ⟨0, .solve 0, false⟩,
        ⟨0, .nodeAfter 7 0, false⟩, ⟨0, .nodeBefore 7 1, false⟩, ⟨0, .solve 1, false⟩, ⟨0, .nodeAfter 7 1, false⟩,
        ⟨0, .nodeFinish 7 (some 2), false⟩] := by decide +kernel
  simp only [this]
  intro e he
  fin_cases he <;> simp [finishesComp]

private theorem reset_dirty (env : Env W Freq) (m : Mdl Freq) (t : Option Int) (g : Global W) :
    (m.reset env t g).2.1.dirty = m.dirty ∧ (m.reset env t g).2.1.ts.dirty = m.ts.dirty := by
  have h : ∀ ts : State Freq, (ts.reset t).2.dirty = ts.dirty := by
    intro ts
    unfold State.reset
    dsimp only
    split
    · rfl
    · split
      · rfl
      · split <;> rfl
  have hf : ∀ (m : Mdl Freq) b, (m.flatten b).2.dirty = m.dirty ∧ (m.flatten b).2.ts = m.ts := by
    intro m b
    unfold Mdl.flatten
    split
    · exact ⟨rfl, rfl⟩
    · split <;> exact ⟨rfl, rfl⟩
  unfold Mdl.reset
  have h1 := h m.ts
  split
  · rename_i e ts e1
    rw [e1] at h1
    exact ⟨rfl, h1⟩
  · rename_i c ts e1
    rw [e1] at h1
    dsimp only
    split
    · exact ⟨rfl, h1⟩
    · have h2 := hf { m with ts := ts } false
      split
      · rename_i m' e2
        rw [e2] at h2
        exact ⟨h2.1, by rw [h2.2]; exact h1⟩
      · rename_i m' e2
        rw [e2] at h2
        split
        · exact ⟨h2.1, by rw [h2.2]; exact h1⟩
        · exact ⟨h2.1, by rw [h2.2]; exact h1⟩

/-- **C50 fails after a setup that raised.** A model that had been set up and whose timestepper was changed since counts as set up after `Model.setup`, even if the setup of a node or component raised: the timestepper
is marked as clean before anything else is set up. So the next run only resets it. -/
theorem C50_setup_raises_fails (env : Env W Freq) (m : Mdl Freq) (hd : m.dirty = false) (hts : (m.ts.setup env.pd).1 = .ok ()) (g : Global W) : ¬ (m.setup env g).2.1.Stale := by
  have hf : ∀ (m : Mdl Freq) b, (m.flatten b).2.dirty = m.dirty ∧ (m.flatten b).2.ts = m.ts := by
    intro m b
    unfold Mdl.flatten
    split
    · exact ⟨rfl, rfl⟩
    · split <;> exact ⟨rfl, rfl⟩
  have hclean : (m.ts.setup env.pd).2.dirty = false := by
    unfold State.setup at hts ⊢
    dsimp only at hts ⊢
    split at hts
    · cases hts
    · rfl
  have hres : ∀ ts : State Freq, (ts.reset none).2.dirty = ts.dirty := by
    intro ts
    unfold State.reset
    dsimp only
    split
    · rfl
    · split
      · rfl
      · split <;> rfl
  unfold Mdl.Stale Mdl.setup
  split
  · rename_i e ts e1; rw [e1] at hts; cases hts
  · rename_i ts e1
    rw [e1] at hclean
    dsimp only at hclean ⊢
    split
    · simp [hd, hclean]
    · have h1 := hres ts
      split
      · rename_i ts' e2
        rw [e2] at h1
        dsimp only at h1
        simp [hd, h1, hclean]
      · rename_i ts' e2
        rw [e2] at h1
        dsimp only at h1 ⊢
        split
        · simp [hd, h1, hclean]
        · have h2 := hf { m with ts := ts' } true
          split
          · rename_i m' e3
            rw [e3] at h2
            dsimp only at h2
            simp [hd, h1, h2.1, h2.2, hclean]
          · rename_i m' e3
            rw [e3] at h2
            dsimp only at h2
            have h4 : m'.ts.dirty = false := by rw [h2.2, h1, hclean]
            have h5 : m'.dirty = false := by rw [h2.1]; exact hd
            split
            · simp [h4, h5]
            · rename_i g' _
              have h3 := reset_dirty env m' none g'
              split
              · rename_i e4
                rw [e4] at h3
                dsimp only at h3
                simp [h3.1, h3.2, h4, h5]
              · rename_i e4
                rw [e4] at h3
                dsimp only at h3
                simp [h3.2, h4]

/-- One or two days, whatever the end is; the second setup of component 0 raises (say, because its data are too short). -/
private def shortData : Env Nat Unit :=
  ⟨{ twoDaysPd with periodRange := fun _ stop _ => if stop < 172799999999999 then twoDays.take 1 else twoDays },
    fun _ c w => if c = .compSetup 0 then (if w = 0 then none else some 1, w + 1) else (none, w)⟩

private def oneDay : Mdl Unit := { newModel [0, 1] with ts := ⟨0, 86399999999999, (), [], none, none, none, true⟩ }

/-- **C50 fails after a setup that raised**, in a run: a model is run for one day; then its end is set to the second day, for which component 0 has no data, and the run raises in the setup of component 0. Running it
again goes through both days and returns normally, although component 1 (a recorder, say) was set up only for one day. -/
theorem C50_second_try_fails : ∃ (env : Env Nat Unit) (m : Mdl Unit) (t : Timestep),
    let r1 := m.run env ⟨0, []⟩
    let r2 := { r1.2.1 with ts := r1.2.1.ts.step env.pd (.setEnd 172799999999999) : Mdl Unit }.run env r1.2.2
    let r3 := r2.2.1.run env r2.2.2
    r1.1.toOption.isSome = true ∧ r1.2.1.ts.periods.length = 1 ∧ r2.1.toOption = none ∧ r3.1.toOption = some t ∧ r3.2.1.ts.periods.length = 2 ∧
      (r1.2.2.log.map Entry.call).count (.compSetup 1) = 1 ∧ (r3.2.2.log.map Entry.call).count (.compSetup 1) = 1 := by
  refine ⟨shortData, oneDay, ⟨⟨86400000000000, 172799999999999⟩, 1, 86400⟩, ?_⟩
  decide +kernel

/-- **C50 fails after a cycle was found**, in a run: a model is run for one day; then its components are made to depend on each other and its end is set to the second day, and the run raises, as it should. Running it again returns
normally, without any call of a component. -/
theorem C50_cycle_ignored_fails : ∃ (env : Env Nat Unit) (m : Mdl Unit) (t : Timestep),
    let r1 := m.run env ⟨0, []⟩
    let r2 := { r1.2.1 with ts := r1.2.1.ts.step env.pd (.setEnd 172799999999999), order := none : Mdl Unit }.run env r1.2.2
    let r3 := r2.2.1.run env r2.2.2
    m.order = some [0, 1] ∧ r1.1.toOption.isSome = true ∧ (match r2.1 with | .error .cycle => true | _ => false) = true ∧ r3.1.toOption = some t ∧ r3.2.1.ts.periods.length = 2 ∧
      (r1.2.2.log.map Entry.call).count (.compBefore 0 0) = 1 ∧ (r1.2.2.log.map Entry.call).count (.compAfter 1 0) = 1 ∧
      ∀ e ∈ r3.2.2.log.drop r2.2.2.log.length, ∀ c ∈ [0, 1], e.call ≠ .compSetup c ∧ e.call ≠ .compReset c ∧ (∀ k ∈ [0, 1], e.call ≠ .compBefore c k ∧ e.call ≠ .calcValues c k ∧ e.call ≠ .compAfter c k) := by
  refine ⟨⟨shortData.pd, fun _ _ w => (none, w)⟩, oneDay, ⟨⟨86400000000000, 172799999999999⟩, 1, 86400⟩, ?_⟩
  decide +kernel

/-- Component 0 cannot be set up; component 1 can only be finished after it was reset (as `JupyterProgressRecorder`, `/repo/pywr/recorders/progress.py:73-94`, whose progress bar is made by `reset`). The world says whether component 1 was reset. -/
private def needsReset : Env Bool Unit :=
  ⟨twoDaysPd, fun _ c w => match c with
    | .compSetup 0 => (some 1, w)
    | .compReset 1 => (none, true)
    | .compFinish 1 _ => (if w then none else some 2, w)
    | _ => (none, w)⟩

/-- **C50 fails: the first exception is lost.** Component 0 raises in its setup, and the only other thing that can raise is finishing component 1 before it was ever reset. The exception that comes out of `run`, and that an `except` clause of the caller sees, is the second one, not
the cause; when component 0 can be set up the same model runs. -/
theorem C50_masked_fails : ∃ (env : Env Bool Unit) (m : Mdl Unit),
    (∀ w, env.behave 0 (.compSetup 0) w = (some 1, w)) ∧
    (∀ c w x, (env.behave 0 c w).1 = some x → c = .compSetup 0 ∨ ((∃ k, c = .compFinish 1 k) ∧ w = false ∧ x = 2)) ∧
    (match (m.run env ⟨false, []⟩).1 with | .error e => decide (e = .hook 2) | .ok _ => false) = true ∧
    ((m.run env ⟨false, []⟩).2.2.log.filter (·.raised)).length = 2 ∧
    (m.run ⟨env.pd, fun i c w => if c = .compSetup 0 then (none, w) else env.behave i c w⟩ ⟨false, []⟩).1.toOption.isSome = true := by
  refine ⟨needsReset, newModel [0, 1], fun w => rfl, ?_, by decide +kernel, by decide +kernel, by decide +kernel⟩
  intro c w x h
  unfold needsReset at h
  dsimp only at h
  split at h
  · exact .inl rfl
  · simp at h
  · cases w <;> simp at h
    exact .inr ⟨⟨_, rfl⟩, rfl, h.symm⟩
  · simp at h

/-- **C50 fails when a finish-hook raises.** The components after the one whose `finish` raised are not finished. -/
theorem C50_finish_raises_fails : ∃ (env : Env Unit Unit) (m : Mdl Unit),
    (∀ w c, finishesComp 0 c = false → (env.behave 0 c w).1 = none) ∧ m.order = some [0, 1] ∧ m.flat = none ∧
      ∀ e ∈ (m.run env ⟨(), []⟩).2.2.log, finishesComp 1 e.call = false := by
  refine ⟨badFinish, newModel [0, 1], ?_, rfl, rfl, by decide +kernel⟩
  intro w x hx
  simp [badFinish, hx]

end Verif.Run

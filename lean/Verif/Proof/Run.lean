import Verif.Spec.Run
import Verif.Proof.Timestepper

/-! # Lemmas about running models -/

namespace Verif.Run

open Verif.Timestepper

variable {W Freq : Type}

theorem Followed.append {a b : List (Nat × Call)} {es fs : List Entry} {r : Bool} (h : Followed a es false)
    (h' : Followed b fs r) : Followed (a ++ b) (es ++ fs) r := by
  generalize hf : false = s at h
  induction h with
  | nil => exact h'
  | ok _ ih => exact .ok (ih hf)
  | raised => cases hf

theorem Followed.stop {a : List (Nat × Call)} {es : List Entry} (h : Followed a es true) (b : List (Nat × Call)) :
    Followed (a ++ b) es true := by
  generalize hf : true = s at h
  induction h with
  | nil => cases hf
  | ok _ ih => exact .ok (ih hf)
  | raised => exact .raised

/-- The log was extended following the plan. -/
def Did (env : Env W Freq) (plan : List (Nat × Call)) (g : Global W) (r : Option RunErr) (g' : Global W) : Prop :=
  ∃ es, g'.log = g.log ++ es ∧ Followed plan es r.isSome ∧ Ran env g.world es g'.world ∧
    ∀ e, r = some e → Blames env g.world es e

theorem Ran.append {env : Env W Freq} {w w' w'' : W} {es fs : List Entry} (h : Ran env w es w')
    (h' : Ran env w' fs w'') : Ran env w (es ++ fs) w'' := by
  induction h with
  | nil => exact h'
  | cons h1 _ ih => exact .cons h1 (ih h')

theorem Did.nil (env : Env W Freq) (g : Global W) : Did env [] g none g :=
  ⟨[], by simp, .nil, .nil, fun _ h => nomatch h⟩

theorem Did.append {env : Env W Freq} {a b : List (Nat × Call)} {g g' g'' : Global W} {r : Option RunErr}
    (h : Did env a g none g') (h' : Did env b g' r g'') : Did env (a ++ b) g r g'' := by
  obtain ⟨es, e1, f1, k1, -⟩ := h
  obtain ⟨fs, e2, f2, k2, b2⟩ := h'
  refine ⟨es ++ fs, by rw [e2, e1, List.append_assoc], f1.append f2, k1.append k2, fun e he => ?_⟩
  obtain ⟨before, last, w', n, hs, hr, hb, hn⟩ := b2 e he
  exact ⟨es ++ before, last, w', n, by rw [hs, List.append_assoc], k1.append hr, hb, hn⟩

theorem Did.stop {env : Env W Freq} {a : List (Nat × Call)} {g g' : Global W} {e : RunErr} (h : Did env a g (some e) g')
    (b : List (Nat × Call)) : Did env (a ++ b) g (some e) g' := by
  obtain ⟨es, e1, f1, k1, b1⟩ := h
  exact ⟨es, e1, Followed.stop f1 b, k1, b1⟩

theorem exec_did (env : Env W Freq) (id : Nat) (cs : List Call) (g : Global W) :
    ∃ r g', exec env id cs g = (r, g') ∧ Did env (tag id cs) g r g' := by
  suffices h : Did env (tag id cs) g (exec env id cs g).1 (exec env id cs g).2 from ⟨_, _, rfl, h⟩
  induction cs generalizing g with
  | nil => exact ⟨[], by simp [exec], .nil, .nil, fun _ h => nomatch h⟩
  | cons c cs ih =>
    unfold exec
    cases hb : (env.behave id c g.world).1 with
    | some e =>
      simp only [hook, hb, Option.map_some]
      refine ⟨_, rfl, .raised, .cons (by simp [hb]) .nil, ?_⟩
      rintro _ ⟨⟩
      exact ⟨[], ⟨id, c, true⟩, g.world, e, rfl, .nil, hb, rfl⟩
    | none =>
      simp only [hook, hb, Option.map_none]
      obtain ⟨es, e1, f1, k1, b1⟩ := ih ⟨(env.behave id c g.world).2, g.log ++ [⟨id, c, false⟩]⟩
      refine ⟨⟨id, c, false⟩ :: es, ?_, .ok f1, .cons (by simp [hb]) k1, fun e' he => ?_⟩
      rotate_left
      · obtain ⟨before, last, w', n, hs, hr, hb', hn⟩ := b1 e' he
        exact ⟨⟨id, c, false⟩ :: before, last, w', n, by rw [hs]; rfl, .cons (by simp [hb]) hr, hb', hn⟩
      simp only [Option.isSome_none] at *
      rw [e1]; simp

theorem tag_append (id : Nat) (a b : List Call) : tag id (a ++ b) = tag id a ++ tag id b := by simp [tag]

theorem resetCalls_false (s r : Nat → Call) (xs : List Nat) : resetCalls false s r xs = xs.map r := by
  induction xs with
  | nil => rfl
  | cons x xs ih => simp [resetCalls] at *; simp [ih]

theorem flatten_cached {m : Mdl Freq} {l : List Nat} (h : m.flat = some l) : m.flatten false = (.ok l, m) := by
  unfold Mdl.flatten; rw [h]

theorem flatten_rebuild {m : Mdl Freq} {l : List Nat} (h : m.order = some l) :
    m.flatten true = (.ok l, { m with flat := some l }) := by
  unfold Mdl.flatten; rw [h]
  cases m.flat <;> rfl

/-- A model that has been prepared, positioned before timestep `k` of the periods `P`. -/
structure Going (env : Env W Freq) (m0 m : Mdl Freq) (P : List Period) (comps : List Nat) (k : Nat) : Prop where
  same : m = { m0 with ts := m.ts, dirty := m.dirty, flat := some comps }
  periods : m.ts.periods = P
  freq : m.ts.freq = m0.ts.freq
  at_ : At m.ts k
  clean : m.ts.dirty = false
  len : m.ts.lastLength = some P.length

theorem before_did (env : Env W Freq) {m : Mdl Freq} {comps : List Nat} (hf : m.flat = some comps) (k : Nat)
    (g : Global W) : ∃ r g', m.before env k g = (r, m, g') ∧
      Did env (tag m.id (m.graphNodes.map (.nodeBefore · k) ++ comps.map (.compBefore · k) ++
        (comps.filter m.param).map (.calcValues · k))) g r g' := by
  unfold Mdl.before
  obtain ⟨r1, g1, e1, h1⟩ := exec_did env m.id (m.graphNodes.map (.nodeBefore · k)) g
  rw [e1]; rcases r1 with _ | e
  · simp only [flatten_cached hf]
    obtain ⟨r2, g2, e2, h2⟩ := exec_did env m.id (comps.map (.compBefore · k) ++ (comps.filter m.param).map (.calcValues · k)) g1
    rw [e2]; rcases r2 with _ | e <;>
    · refine ⟨_, _, rfl, ?_⟩
      rw [List.append_assoc, tag_append]
      exact h1.append h2
  · refine ⟨_, _, rfl, ?_⟩
    rw [List.append_assoc, tag_append]
    exact h1.stop _

theorem after_did (env : Env W Freq) {m : Mdl Freq} {comps : List Nat} (hf : m.flat = some comps) (k : Nat)
    (g : Global W) : ∃ r g', m.after env k g = (r, m, g') ∧
      Did env (tag m.id (m.graphNodes.map (.nodeAfter · k) ++ comps.map (.compAfter · k))) g r g' := by
  unfold Mdl.after
  obtain ⟨r1, g1, e1, h1⟩ := exec_did env m.id (m.graphNodes.map (.nodeAfter · k)) g
  rw [e1]; rcases r1 with _ | e
  · simp only [flatten_cached hf]
    obtain ⟨r2, g2, e2, h2⟩ := exec_did env m.id (comps.map (.compAfter · k)) g1
    rw [e2]; rcases r2 with _ | e <;>
    · refine ⟨_, _, rfl, ?_⟩
      rw [tag_append]
      exact h1.append h2
  · refine ⟨_, _, rfl, ?_⟩
    rw [tag_append]
    exact h1.stop _

theorem finish_did (env : Env W Freq) {m : Mdl Freq} {comps : List Nat} (hf : m.flat = some comps)
    (g : Global W) : ∃ r g', m.finish env g = (r, m, g') ∧
      Did env (tag m.id (finishPlan m.graphNodes comps (m.ts.current.map Timestep.index))) g r g' := by
  unfold Mdl.finish finishPlan
  obtain ⟨r1, g1, e1, h1⟩ := exec_did env m.id (m.graphNodes.map (.nodeFinish · (m.ts.current.map Timestep.index))) g
  rw [e1]; rcases r1 with _ | e
  · simp only [flatten_cached hf]
    obtain ⟨r2, g2, e2, h2⟩ := exec_did env m.id (comps.map (.compFinish · (m.ts.current.map Timestep.index))) g1
    rw [e2]; rcases r2 with _ | e <;>
    · refine ⟨_, _, rfl, ?_⟩
      rw [tag_append]
      exact h1.append h2
  · refine ⟨_, _, rfl, ?_⟩
    rw [tag_append]
    exact h1.stop _

theorem stepInner_did (env : Env W Freq) {m : Mdl Freq} {comps : List Nat} (hf : m.flat = some comps) (k : Nat)
    (g : Global W) : ∃ r g', m.stepInner env k g = (r, m, g') ∧
      Did env (tag m.id (stepPlan m.graphNodes comps m.param k)) g r g' := by
  unfold Mdl.stepInner
  obtain ⟨r1, g1, e1, h1⟩ := before_did env hf k g
  have hplan : tag m.id (stepPlan m.graphNodes comps m.param k) =
      tag m.id (m.graphNodes.map (.nodeBefore · k) ++ comps.map (.compBefore · k) ++
        (comps.filter m.param).map (.calcValues · k)) ++ (tag m.id [.solve k] ++
        tag m.id (m.graphNodes.map (.nodeAfter · k) ++ comps.map (.compAfter · k))) := by
    simp [stepPlan, tag]
  rw [e1, hplan]
  cases r1 with
  | some e => exact ⟨_, _, rfl, h1.stop _⟩
  | none =>
    simp only
    obtain ⟨r2, g2, e2, h2⟩ := exec_did env m.id [.solve k] g1
    rw [e2]; rcases r2 with _ | e
    · simp only
      obtain ⟨r3, g3, e3, h3⟩ := after_did env hf k g2
      exact ⟨_, _, e3, h1.append (h2.append h3)⟩
    · exact ⟨_, _, rfl, h1.append (h2.stop _)⟩

theorem reset_did (env : Env W Freq) {m : Mdl Freq} {P : List Period} {comps : List Nat} (hP : m.ts.periods = P)
    (hne : P ≠ []) (hg : ∀ p ∈ P, GoodPeriod p) (hl : m.ts.lastLength = some P.length) (hcl : m.ts.dirty = false)
    (hf : m.flat = some comps)
    (g : Global W) : ∃ r m' g', m.reset env none g = (r, m', g') ∧ Going env m m' P comps 0 ∧ m'.dirty = m.dirty ∧
      Did env (tag m.id (resetPlan m.topNodes comps)) g r g' := by
  subst hP
  have hk : 0 < m.ts.periods.length := List.length_pos_iff.2 hne
  obtain ⟨p, hp⟩ : ∃ p, m.ts.periods[0]? = some p := ⟨_, List.getElem?_eq_getElem hk⟩
  have hre := reset_eq (s := m.ts) hg none 0 rfl hp
  obtain ⟨-, hat, hper, hfr, -⟩ := reset_at (s := m.ts) hg none 0 hk rfl
  unfold Mdl.reset
  have hch : decide (m.ts.lastLength ≠ some m.ts.periods.length) = false := by simp [hl]
  rw [hch] at hre
  have hts : (m.ts.reset none).2.lastLength = some m.ts.periods.length := by rw [hre]
  have hdi : (m.ts.reset none).2.dirty = false := by rw [hre]; exact hcl
  have h00 : m.ts.reset none = (.ok false, (m.ts.reset none).2) := by rw [hre]
  generalize (m.ts.reset none).2 = ts' at *
  rw [h00]
  simp only [resetCalls_false]
  obtain ⟨r1, g1, e1, h1⟩ := exec_did env m.id (m.topNodes.map .nodeReset) g
  have hplan : tag m.id (resetPlan m.topNodes comps) =
      tag m.id (m.topNodes.map .nodeReset) ++ tag m.id (comps.map .compReset ++ [.solverReset]) := by
    simp [resetPlan, tag]
  rw [hplan]
  have hgo : Going env m { m with ts := ts' } m.ts.periods comps 0 := by
    refine ⟨?_, hper, hfr, hat, hdi, hts⟩
    simp only [← hf]
  rw [e1]; rcases r1 with _ | e
  · simp only [flatten_cached (m := { m with ts := ts' }) hf]
    obtain ⟨r2, g2, e2, h2⟩ := exec_did env m.id (comps.map .compReset ++ [.solverReset]) g1
    rw [e2]; rcases r2 with _ | e <;>
      exact ⟨_, _, _, rfl, hgo, rfl, h1.append h2⟩
  · exact ⟨_, _, _, rfl, hgo, rfl, h1.stop _⟩

theorem tsReset {s : State Freq} {P : List Period} (hP : s.periods = P) (hne : P ≠ [])
    (hg : ∀ p ∈ P, GoodPeriod p) :
    ∃ ts, s.reset none = (.ok (decide (s.lastLength ≠ some P.length)), ts) ∧ ts.periods = P ∧ ts.freq = s.freq ∧
      ts.lastLength = some P.length ∧ ts.dirty = s.dirty := by
  subst hP
  have hk : 0 < s.periods.length := List.length_pos_iff.2 hne
  obtain ⟨p, hp⟩ : ∃ p, s.periods[0]? = some p := ⟨_, List.getElem?_eq_getElem hk⟩
  have hre1 := reset_eq (s := s) hg none 0 rfl hp
  exact ⟨_, hre1, rfl, rfl, rfl, rfl⟩

theorem tsSetup (pd : Pandas Freq) {s : State Freq} {P : List Period}
    (hP : P = pd.periodRange s.start s.stop s.freq) (hne : P ≠ []) (hg : ∀ p ∈ P, GoodPeriod p) :
    ∃ ts, s.setup pd = (.ok (), ts) ∧ ts.periods = P ∧ ts.freq = s.freq ∧ ts.lastLength = some P.length ∧
      ts.dirty = false := by
  unfold State.setup
  rw [← hP]
  obtain ⟨ts, e, h1, h2, h3, -⟩ := tsReset (s := { s with periods := P }) rfl hne hg
  simp only at e
  simp only [e]
  exact ⟨_, rfl, h1, h2, h3, rfl⟩

theorem setup_did (env : Env W Freq) {m : Mdl Freq} {P : List Period} {comps : List Nat}
    (hP : P = env.pd.periodRange m.ts.start m.ts.stop m.ts.freq)
    (hne : P ≠ []) (hg : ∀ p ∈ P, GoodPeriod p) (ho : m.order = some comps)
    (g : Global W) : ∃ r m' g', m.setup env g = (r, m', g') ∧ (r = none → Going env m m' P comps 0 ∧ m'.dirty = false) ∧
      m' = { m with ts := m'.ts, dirty := m'.dirty, flat := m'.flat } ∧ (m'.flat = m.flat ∨ m'.flat = some comps) ∧
      Did env (tag m.id (setupPlan m.graphNodes m.topNodes comps)) g r g' := by
  obtain ⟨t1, et1, p1, f1, l1, d1⟩ := tsSetup env.pd hP hne hg
  obtain ⟨t2, et2, p2, f2, l2, d2⟩ := tsReset p1 hne hg
  unfold Mdl.setup
  rw [et1]
  simp only
  have hplan : tag m.id (setupPlan m.graphNodes m.topNodes comps) =
      tag m.id [.scenariosSetup] ++ (tag m.id (m.graphNodes.map .nodeSetup) ++
        (tag m.id (comps.map .compSetup ++ [.solverSetup]) ++ tag m.id (resetPlan m.topNodes comps))) := by
    simp [setupPlan, resetPlan, tag]
  rw [hplan]
  obtain ⟨r1, g1, e1, h1⟩ := exec_did env m.id [.scenariosSetup] g
  rw [e1]; rcases r1 with _ | e
  · simp only [et2]
    obtain ⟨r2, g2, e2, h2⟩ := exec_did env m.id (m.graphNodes.map .nodeSetup) g1
    rw [e2]; rcases r2 with _ | e
    · simp only
      rw [flatten_rebuild (by simpa using ho)]
      simp only
      obtain ⟨r3, g3, e3, h3⟩ := exec_did env m.id (comps.map .compSetup ++ [.solverSetup]) g2
      rw [e3]; rcases r3 with _ | e
      · simp only
        obtain ⟨r, m', g', e4, hgo, -, h4⟩ := reset_did env (P := P) (comps := comps)
          (m := { m with ts := t2, flat := some comps }) p2 hne hg l2 (d2.trans d1) rfl g3
        rw [e4]
        have hs := hgo.same
        have hfr : m'.ts.freq = m.ts.freq := by rw [hgo.freq]; simp only; rw [f2, f1]
        cases r with
        | some e =>
          refine ⟨_, _, _, rfl, (fun h => nomatch h), ?_, Or.inr ?_, h1.append (h2.append (h3.append h4))⟩
          · rw [hs]
          · rw [hs]
        | none =>
          refine ⟨_, _, _, rfl, fun _ => ⟨⟨?_, hgo.periods, hfr, hgo.at_, hgo.clean, hgo.len⟩, rfl⟩, ?_, Or.inr ?_,
            h1.append (h2.append (h3.append h4))⟩
          · rw [hs]
          · rw [hs]
          · rw [hs]
      · exact ⟨_, _, _, rfl, (fun h => nomatch h), rfl, Or.inr rfl, h1.append (h2.append (h3.stop _))⟩
    · exact ⟨_, _, _, rfl, (fun h => nomatch h), rfl, Or.inl rfl, h1.append (h2.stop _)⟩
  · exact ⟨_, _, _, rfl, (fun h => nomatch h), rfl, Or.inl rfl, h1.stop _⟩

theorem prepare_did (env : Env W Freq) {m : Mdl Freq} {P : List Period} {comps : List Nat} (h : Ready env m P comps)
    (g : Global W) : ∃ r m' g', m.prepare env g = (r, m', g') ∧ (r = none → Going env m m' P comps 0 ∧ m'.dirty = false) ∧
      m' = { m with ts := m'.ts, dirty := m'.dirty, flat := m'.flat } ∧ (m'.flat = m.flat ∨ m'.flat = some comps) ∧
      Did env (startPlan m comps) g r g' := by
  unfold Mdl.prepare startPlan
  by_cases hs : m.Stale
  · rw [if_pos (by simpa [Mdl.Stale] using hs), if_pos hs]
    exact setup_did env (h.stale hs) h.nonempty h.good h.order g
  · rw [if_neg (by simpa [Mdl.Stale] using hs), if_neg hs]
    obtain ⟨hP, hf, hl⟩ := h.fresh hs
    have hs' : m.dirty = false ∧ m.ts.dirty = false := by simpa [Mdl.Stale] using hs
    obtain ⟨r, m', g', e, hgo, hdd, hd⟩ := reset_did env hP.symm h.nonempty h.good hl hs'.2 hf g
    refine ⟨r, m', g', e, fun _ => ⟨hgo, hdd.trans hs'.1⟩, ?_, Or.inr ?_, hd⟩
    · rw [hgo.same]
    · rw [hgo.same]

theorem Going.flat {env : Env W Freq} {m0 m : Mdl Freq} {P : List Period} {comps : List Nat} {k : Nat}
    (h : Going env m0 m P comps k) : m.flat = some comps := by rw [h.same]

theorem Going.id {env : Env W Freq} {m0 m : Mdl Freq} {P : List Period} {comps : List Nat} {k : Nat}
    (h : Going env m0 m P comps k) : m.id = m0.id := by rw [h.same]

theorem Going.graphNodes {env : Env W Freq} {m0 m : Mdl Freq} {P : List Period} {comps : List Nat} {k : Nat}
    (h : Going env m0 m P comps k) : m.graphNodes = m0.graphNodes := by rw [h.same]

theorem Going.param {env : Env W Freq} {m0 m : Mdl Freq} {P : List Period} {comps : List Nat} {k : Nat}
    (h : Going env m0 m P comps k) : m.param = m0.param := by rw [h.same]

theorem nextStep_keeps (pd : Pandas Freq) (s : State Freq) :
    (s.nextStep pd).2.dirty = s.dirty ∧ (s.nextStep pd).2.lastLength = s.lastLength := by
  unfold State.nextStep
  cases s.next with
  | none => exact ⟨rfl, rfl⟩
  | some cur =>
    simp only
    by_cases h : cur.index ≥ s.periods.length
    · rw [if_pos h]; exact ⟨rfl, rfl⟩
    · rw [if_neg h]
      split <;> exact ⟨rfl, rfl⟩

/-- One `next` while there are periods left. -/
theorem Going.next {env : Env W Freq} {m0 m : Mdl Freq} {P : List Period} {comps : List Nat} {k : Nat}
    (h : Going env m0 m P comps k) (hg : ∀ p ∈ P, GoodPeriod p)
    (hsh : ∀ p, GoodPeriod p → GoodPeriod (env.pd.shift m0.ts.freq p)) (hk : k < P.length) :
    ∃ ts, m.ts.nextStep env.pd = (.ok ⟨P[k], k, P[k].seconds⟩, ts) ∧
      Going env m0 { m with ts := ts } P comps (k + 1) ∧ ts.current = some ⟨P[k], k, P[k].seconds⟩ := by
  obtain ⟨hs, hP, hf, ha, hcl, hlen⟩ := h
  obtain ⟨kd, kl⟩ := nextStep_keeps env.pd m.ts
  subst hP
  obtain ⟨p, hp, h1, h2, h3, h4, h5⟩ := next_in env.pd (s := m.ts) hg (by rw [hf]; exact hsh) ha hk
  have hpe : m.ts.periods[k] = p := by
    rw [List.getElem?_eq_getElem hk] at hp; exact Option.some.inj hp
  refine ⟨(m.ts.nextStep env.pd).2, ?_, ⟨?_, h3, ?_, h2, kd.trans hcl, kl.trans hlen⟩, ?_⟩
  · rw [hpe, ← h1]
  · simp only; rw [hs]
  · simp only; rw [h4, hf]
  · rw [hpe]; exact h5

/-- `next` after the last period. -/
theorem Going.done {env : Env W Freq} {m0 m : Mdl Freq} {P : List Period} {comps : List Nat}
    (h : Going env m0 m P comps P.length) :
    ∃ ts, m.ts.nextStep env.pd = (.error .stopIteration, ts) ∧ Going env m0 { m with ts := ts } P comps P.length ∧
      ∃ t, ts.current = some t ∧ t.index = P.length := by
  obtain ⟨hs, hP, hf, ha, hcl, hlen⟩ := h
  obtain ⟨kd, kl⟩ := nextStep_keeps env.pd m.ts
  subst hP
  obtain ⟨h1, h2, h3, h4, p, sec, h5⟩ := next_out env.pd (s := m.ts) ha
  refine ⟨(m.ts.nextStep env.pd).2, ?_, ⟨?_, h3, ?_, h2, kd.trans hcl, kl.trans hlen⟩, _, h5, rfl⟩
  · rw [← h1]
  · simp only; rw [hs]
  · simp only; rw [h4, hf]

theorem Going.step {env : Env W Freq} {m0 m : Mdl Freq} {P : List Period} {comps : List Nat} {k : Nat}
    (h : Going env m0 m P comps k) (j : Nat) (g : Global W) :
    ∃ r g', m.stepInner env j g = (r, m, g') ∧
      Did env (tag m0.id (stepPlan m0.graphNodes comps m0.param j)) g r g' := by
  have := stepInner_did env h.flat j g
  rwa [h.id, h.graphNodes, h.param] at this

theorem loop_did (env : Env W Freq) {m0 : Mdl Freq} {P : List Period} {comps : List Nat}
    (hg : ∀ p ∈ P, GoodPeriod p) (hsh : ∀ p, GoodPeriod p → GoodPeriod (env.pd.shift m0.ts.freq p)) (d : Nat) :
    ∀ (m : Mdl Freq) (k : Nat) (last : Option Timestep) (g : Global W), k + d = P.length →
      Going env m0 m P comps k →
      ∃ r last' m' k' g', m.loop env (d + 1) last g = (r, last', m', g') ∧ Going env m0 m' P comps k' ∧ m'.dirty = m.dirty ∧
        (r = none → (∃ t, m'.ts.current = some t ∧ t.index = P.length) ∧
          last' = if d = 0 then last else P.getLast?.map fun p => ⟨p, P.length - 1, p.seconds⟩) ∧
        Did env ((List.range' k d).flatMap fun k => tag m0.id (stepPlan m0.graphNodes comps m0.param k)) g r g' := by
  induction d with
  | zero =>
    intro m k last g hk h
    obtain rfl : k = P.length := by omega
    obtain ⟨ts, e, hgo, hc⟩ := h.done
    refine ⟨none, last, _, _, g, ?_, hgo, rfl, fun _ => ⟨hc, rfl⟩, ?_⟩
    · unfold Mdl.loop; rw [e]
    · exact Did.nil env g
  | succ d ih =>
    intro m k last g hk h
    obtain ⟨ts, e, hgo, hc⟩ := h.next hg hsh (by omega)
    obtain ⟨r, g1, e1, h1⟩ := hgo.step k g
    unfold Mdl.loop
    rw [e]
    simp only [e1]
    rw [List.range'_succ, List.flatMap_cons]
    cases r with
    | some err =>
      exact ⟨_, _, _, _, _, rfl, hgo, rfl, (fun h => nomatch h), h1.stop _⟩
    | none =>
      obtain ⟨r, last', m', k', g', e2, hgo', hdi, hr, hd⟩ := ih _ (k + 1) (some ⟨P[k], k, P[k].seconds⟩) g1 (by omega) hgo
      refine ⟨r, last', m', k', g', e2, hgo', hdi, fun h => ⟨(hr h).1, ?_⟩, h1.append hd⟩
      rw [(hr h).2, if_neg (Nat.succ_ne_zero d)]
      by_cases hd0 : d = 0
      · subst hd0
        have hk' : k = P.length - 1 := by omega
        subst hk'
        have hne : P ≠ [] := List.length_pos_iff.1 (by omega)
        rw [if_pos rfl, List.getLast?_eq_some_getLast hne, List.getLast_eq_getElem]
        rfl
      · rw [if_neg hd0]

end Verif.Run

import Verif.Spec.MultiRun
import Verif.Proof.Run
import Mathlib.Data.List.Forall2
import Mathlib.Tactic.FinCases

/-! # C49: coupled models advance in lock-step -/

namespace Verif.Run

open Verif.Timestepper

variable {W Freq : Type}

/-- The model object still belongs to the sub-model (only timestepper, flag and cached order may differ). -/
private def Loose (s : Sub Freq) (m : Mdl Freq) : Prop :=
  m = { s.m with ts := m.ts, dirty := m.dirty, flat := m.flat } ∧ (m.flat = none ∨ m.flat = some s.comps) ∧
    s.m.order = some s.comps

private theorem forModels_did (env : Env W Freq) (f : Mdl Freq → Global W → Option RunErr × Mdl Freq × Global W)
    (post : Sub Freq → Mdl Freq → Prop) (plan : Sub Freq → List (Nat × Call)) :
    ∀ (subs : List (Sub Freq)) (ms : List (Mdl Freq)), List.Forall₂ (fun s m => Loose s m ∧ ∀ g, ∃ r m' g',
        f m g = (r, m', g') ∧ (r = none → post s m') ∧ Loose s m' ∧ Did env (plan s) g r g') subs ms →
      ∀ g, ∃ r ms' g', forModels f ms g = (r, ms', g') ∧ (r = none → List.Forall₂ post subs ms') ∧
        List.Forall₂ Loose subs ms' ∧ Did env (subs.flatMap plan) g r g' := by
  intro subs ms h
  induction h with
  | nil => intro g; exact ⟨none, [], g, rfl, fun _ => .nil, .nil, Did.nil env g⟩
  | @cons s m subs ms hsm hrest ih =>
    intro g
    obtain ⟨hl, hf⟩ := hsm
    obtain ⟨r, m', g', e, hp, hl', hd⟩ := hf g
    unfold forModels
    rw [e, List.flatMap_cons]
    cases r with
    | some err =>
      refine ⟨_, _, _, rfl, (fun h => nomatch h), .cons hl' ?_, hd.stop _⟩
      exact hrest.imp fun _ _ h => h.1
    | none =>
      obtain ⟨r2, ms', g2, e2, hp2, hl2, hd2⟩ := ih g'
      simp only [e2]
      exact ⟨_, _, _, rfl, fun h => .cons (hp rfl) (hp2 h), .cons hl' hl2, hd.append hd2⟩

/-- Sub-model `m` is before timestep `k`, and its timestepper shows timestep `k - 1` as the current one. -/
private def GoingAt (env : Env W Freq) (k : Nat) (s : Sub Freq) (m : Mdl Freq) : Prop :=
  Going env s.m m s.P s.comps k ∧ (0 < k → ∃ t, m.ts.current = some t ∧ t.index + 1 = k) ∧ s.m.order = some s.comps

private theorem GoingAt.loose {env : Env W Freq} {k : Nat} {s : Sub Freq} {m : Mdl Freq} (h : GoingAt env k s m) :
    Loose s m := ⟨by rw [h.1.same], Or.inr h.1.flat, h.2.2⟩

/-- The timestep `k` of a sub-model. -/
private def tsAt (k : Nat) (s : Sub Freq) : Timestep :=
  match s.P[k]? with
  | some p => ⟨p, k, p.seconds⟩
  | none => ⟨⟨0, 0⟩, k, 0⟩

private theorem tsAt_eq {k : Nat} {s : Sub Freq} {p : Period} (h : s.P[k]? = some p) : tsAt k s = ⟨p, k, p.seconds⟩ := by
  unfold tsAt; rw [h]

private theorem zipNext_all (env : Env W Freq) (k : Nat) {subs : List (Sub Freq)} {ms : List (Mdl Freq)}
    (h : List.Forall₂ (GoingAt env k) subs ms) (hg : ∀ s ∈ subs, ∀ p ∈ s.P, GoodPeriod p)
    (hsh : ∀ s ∈ subs, ∀ p, GoodPeriod p → GoodPeriod (env.pd.shift s.m.ts.freq p))
    (hk : ∀ s ∈ subs, k < s.P.length) :
    ∃ ms', zipNext env ms = (.ok (some (subs.map (tsAt k))), ms') ∧ List.Forall₂ (GoingAt env (k + 1)) subs ms' := by
  induction h with
  | nil => exact ⟨[], rfl, .nil⟩
  | @cons s m subs ms hsm _ ih =>
    obtain ⟨ts, e, hgo, hc⟩ := hsm.1.next (hg s List.mem_cons_self) (hsh s List.mem_cons_self)
      (hk s List.mem_cons_self)
    obtain ⟨ms', e2, h2⟩ := ih (fun s hs => hg s (List.mem_cons_of_mem _ hs))
      (fun s hs => hsh s (List.mem_cons_of_mem _ hs)) (fun s hs => hk s (List.mem_cons_of_mem _ hs))
    unfold zipNext
    rw [e]
    simp only [e2]
    refine ⟨_, ?_, .cons ⟨hgo, fun _ => ⟨_, hc, rfl⟩, hsm.2.2⟩ h2⟩
    rw [List.map_cons, tsAt_eq (List.getElem?_eq_getElem (hk s List.mem_cons_self))]

/-- The timesteppers at the end of a run over `k` rounds in which the first model was exhausted: that of the first model is
one past the end, those of the others show the last timestep. -/
private def AtEnd (k : Nat) (ms : List (Mdl Freq)) : Prop :=
  ∃ m rest, ms = m :: rest ∧ (∃ t, m.ts.current = some t ∧ t.index = k) ∧
    (0 < k → ∀ m ∈ rest, ∃ t, m.ts.current = some t ∧ t.index + 1 = k)

private theorem going_current {env : Env W Freq} {k : Nat} {subs : List (Sub Freq)} {ms : List (Mdl Freq)}
    (h : List.Forall₂ (GoingAt env k) subs ms) (h0 : 0 < k) :
    ∀ m ∈ ms, ∃ t, m.ts.current = some t ∧ t.index + 1 = k := by
  induction h with
  | nil => exact fun _ h => nomatch h
  | cons hab _ ih =>
    intro m hm
    rcases List.mem_cons.1 hm with rfl | hm
    · exact hab.2.1 h0
    · exact ih m hm

private theorem zipNext_end (env : Env W Freq) (k : Nat) {subs : List (Sub Freq)} {ms : List (Mdl Freq)}
    (h : List.Forall₂ (GoingAt env k) subs ms) (hg : ∀ s ∈ subs, ∀ p ∈ s.P, GoodPeriod p)
    (hsh : ∀ s ∈ subs, ∀ p, GoodPeriod p → GoodPeriod (env.pd.shift s.m.ts.freq p))
    (hk : ∀ s ∈ subs, k ≤ s.P.length) (hx : ∃ s ∈ subs, s.P.length = k) :
    ∃ ms', zipNext env ms = (.ok none, ms') ∧ List.Forall₂ Loose subs ms' ∧
      ((∀ s ∈ subs, s.P.length = k) → AtEnd k ms') := by
  induction h with
  | nil => obtain ⟨s, hs, -⟩ := hx; cases hs
  | @cons s m subs ms hsm hrest ih =>
    rcases lt_or_eq_of_le (hk s List.mem_cons_self) with hlt | heq
    · obtain ⟨ts, e, hgo, hc⟩ := hsm.1.next (hg s List.mem_cons_self) (hsh s List.mem_cons_self) hlt
      obtain ⟨ms', e2, h2, -⟩ := ih (fun s hs => hg s (List.mem_cons_of_mem _ hs))
        (fun s hs => hsh s (List.mem_cons_of_mem _ hs)) (fun s hs => hk s (List.mem_cons_of_mem _ hs))
        (by
          obtain ⟨s', hs', he⟩ := hx
          rcases List.mem_cons.1 hs' with rfl | hs'
          · omega
          · exact ⟨s', hs', he⟩)
      unfold zipNext
      rw [e]
      simp only [e2]
      refine ⟨_, rfl, .cons ?_ h2, fun hall => ?_⟩
      · exact ⟨by rw [hgo.same], Or.inr hgo.flat, hsm.2.2⟩
      · have := hall s List.mem_cons_self; omega
    · have h0 := hsm.1
      rw [heq] at h0
      obtain ⟨ts, e, hgo, hc⟩ := h0.done
      unfold zipNext
      rw [e]
      refine ⟨_, rfl, .cons ⟨by rw [hgo.same], Or.inr hgo.flat, hsm.2.2⟩ ?_, fun _ => ⟨_, _, rfl, ?_, ?_⟩⟩
      · exact hrest.imp fun _ _ h => h.loose
      · rw [heq]; exact hc
      · intro h0 m hm
        exact going_current hrest h0 m hm

private theorem multiStep_did (env : Env W Freq) (k j : Nat) {subs : List (Sub Freq)} {ms : List (Mdl Freq)}
    (h : List.Forall₂ (GoingAt env j) subs ms) : ∀ g : Global W, ∃ r g',
      multiStep env ms (subs.map (tsAt k)) g = (r, ms, g') ∧ Did env (roundPlan subs k) g r g' := by
  induction h with
  | nil => intro g; exact ⟨none, g, by simp [multiStep], Did.nil env g⟩
  | @cons s m subs ms hsm hrest ih =>
    intro g
    obtain ⟨r, g1, e, hd⟩ := hsm.1.step k g
    have hi : (tsAt k s).index = k := by unfold tsAt; split <;> rfl
    rw [List.map_cons]
    unfold multiStep
    rw [hi, e]
    unfold roundPlan
    rw [List.flatMap_cons]
    cases r with
    | some err => exact ⟨_, _, rfl, hd.stop _⟩
    | none =>
      obtain ⟨r2, g2, e2, hd2⟩ := ih g1
      simp only [e2]
      exact ⟨_, _, rfl, hd.append hd2⟩

private theorem synchronised_iff {subs : List (Sub Freq)} {k : Nat} (hne : subs ≠ [])
    (hk : ∀ s ∈ subs, k < s.P.length) : synchronised (subs.map (tsAt k)) = true ↔ SameDate subs k := by
  cases subs with
  | nil => exact absurd rfl hne
  | cons s subs =>
    simp only [List.map_cons, synchronised, List.all_map, List.all_eq_true, Function.comp, decide_eq_true_eq]
    constructor
    · intro h
      refine ⟨(tsAt k s).period.start, ?_⟩
      intro s' hs'
      refine ⟨s'.P[k]'(hk s' hs'), List.getElem?_eq_getElem _, ?_⟩
      have he : tsAt k s' = _ := tsAt_eq (List.getElem?_eq_getElem (hk s' hs'))
      rcases List.mem_cons.1 hs' with rfl | hs''
      · rw [he]
      · have := h s' hs''
        rw [he] at this
        exact this
    · rintro ⟨d, hd⟩ s' hs'
      obtain ⟨p, hp, hpd⟩ := hd s List.mem_cons_self
      obtain ⟨q, hq, hqd⟩ := hd s' (List.mem_cons_of_mem _ hs')
      rw [tsAt_eq hp, tsAt_eq hq]
      simp only
      rw [hpd, hqd]

private theorem multiLoop_did (env : Env W Freq) {subs : List (Sub Freq)} (hne : subs ≠ [])
    (hg : ∀ s ∈ subs, ∀ p ∈ s.P, GoodPeriod p)
    (hsh : ∀ s ∈ subs, ∀ p, GoodPeriod p → GoodPeriod (env.pd.shift s.m.ts.freq p)) (R : Nat)
    (hR : ∀ k < R, SameDate subs k) (hend : ¬ SameDate subs R) (d : Nat) :
    ∀ (fuel k : Nat) (ms : List (Mdl Freq)) (g : Global W), k + d = R → d < fuel →
      List.Forall₂ (GoingAt env k) subs ms →
      ∃ r ms' g', multiLoop env fuel ms g = (r, ms', g') ∧ List.Forall₂ Loose subs ms' ∧
        ∃ r0, Did env ((List.range' k d).flatMap (roundPlan subs)) g r0 g' ∧
          (r0 = none → r = if (∃ s ∈ subs, s.P.length ≤ R) then none else some .notSynchronised) ∧
          (r0 ≠ none → r = r0) ∧ (r = none → (∀ s ∈ subs, s.P.length = R) → AtEnd R ms') := by
  have hlen : ∀ s ∈ subs, R ≤ s.P.length := by
    intro s hs
    by_contra hlt
    obtain ⟨dd, hd⟩ := hR s.P.length (by omega)
    obtain ⟨p, hp, -⟩ := hd s hs
    simp at hp
  induction d with
  | zero =>
    intro fuel k ms g hk hf h
    obtain rfl : k = R := by omega
    obtain ⟨fuel, rfl⟩ : ∃ n, fuel = n + 1 := ⟨fuel - 1, by omega⟩
    have hms : ms.isEmpty = false := by
      cases h with
      | nil => exact absurd rfl hne
      | cons _ _ => rfl
    unfold multiLoop
    rw [hms]
    simp only [Bool.false_eq_true, if_false]
    by_cases hx : ∃ s ∈ subs, s.P.length ≤ k
    · obtain ⟨ms', e, hl, hae⟩ := zipNext_end env k h hg hsh hlen (by
        obtain ⟨s, hs, hle⟩ := hx
        exact ⟨s, hs, le_antisymm hle (hlen s hs)⟩)
      rw [e]
      exact ⟨_, _, _, rfl, hl, none, Did.nil env g, fun _ => by rw [if_pos hx], fun h => absurd rfl h, fun _ => hae⟩
    · have hk' : ∀ s ∈ subs, k < s.P.length := by
        intro s hs
        by_contra hc
        exact hx ⟨s, hs, by omega⟩
      obtain ⟨ms', e, hl⟩ := zipNext_all env k h hg hsh hk'
      rw [e]
      have hns : synchronised (subs.map (tsAt k)) = false := by
        rw [← Bool.not_eq_true, synchronised_iff hne hk']; exact hend
      simp only [hns, Bool.not_false, if_true]
      exact ⟨_, _, _, rfl, hl.imp fun _ _ h => h.loose, none, Did.nil env g, fun _ => by rw [if_neg hx],
        fun h => absurd rfl h, fun h => nomatch h⟩
  | succ d ih =>
    intro fuel k ms g hk hf h
    obtain ⟨fuel, rfl⟩ : ∃ n, fuel = n + 1 := ⟨fuel - 1, by omega⟩
    have hms : ms.isEmpty = false := by
      cases h with
      | nil => exact absurd rfl hne
      | cons _ _ => rfl
    unfold multiLoop
    rw [hms]
    simp only [Bool.false_eq_true, if_false]
    have hk' : ∀ s ∈ subs, k < s.P.length := fun s hs => by have := hlen s hs; omega
    obtain ⟨ms', e, hl⟩ := zipNext_all env k h hg hsh hk'
    have hs : synchronised (subs.map (tsAt k)) = true := (synchronised_iff hne hk').2 (hR k (by omega))
    rw [e]
    simp only [hs, Bool.not_true, Bool.false_eq_true, if_false]
    obtain ⟨r1, g1, e1, hd1⟩ := multiStep_did env k (k + 1) hl g
    rw [e1, List.range'_succ, List.flatMap_cons]
    cases r1 with
    | some err =>
      exact ⟨_, _, _, rfl, hl.imp fun _ _ h => h.loose, some err, hd1.stop _, (fun h => nomatch h), fun _ => rfl,
        fun h => nomatch h⟩
    | none =>
      obtain ⟨r, ms2, g2, e2, hl2, r0, hd2, hr⟩ := ih fuel (k + 1) ms' g1 (by omega) (by omega) hl
      exact ⟨r, ms2, g2, e2, hl2, r0, hd1.append hd2, hr⟩

private theorem prepare_multi (env : Env W Freq) {subs : List (Sub Freq)} (h : MultiReady env subs) (g : Global W) :
    ∃ r ms' g', multiPrepare env true (subs.map Sub.m) g = (r, ms', g') ∧
      (r = none → List.Forall₂ (GoingAt env 0) subs ms') ∧ List.Forall₂ Loose subs ms' ∧
      Did env (multiStart subs) g r g' := by
  have hl : ∀ s ∈ subs, Loose s s.m := fun s hs => ⟨rfl, h.flat s hs, h.order s hs⟩
  unfold multiPrepare multiStart
  by_cases hs : AnyStale subs
  · have hany : (subs.map Sub.m).any (fun m => m.dirty || m.ts.dirty) = true := by
      obtain ⟨s, hs, hst⟩ := hs
      simp only [List.any_map, List.any_eq_true, Function.comp]
      exact ⟨s, hs, by simpa [Mdl.Stale] using hst⟩
    rw [if_pos hany]
    simp only [if_pos hs]
    unfold multiSetup
    obtain ⟨r, ms', g', e, hp, hl', hd⟩ := forModels_did env (fun m g => m.setup env g) (GoingAt env 0)
      (fun s => tag s.m.id (setupPlan s.m.graphNodes s.m.topNodes s.comps)) subs (subs.map Sub.m) (by
        rw [List.forall₂_map_right_iff, List.forall₂_same]
        intro s hsm
        refine ⟨hl s hsm, fun g => ?_⟩
        obtain ⟨r, m', g', e, hgo, hsame, hfl, hd⟩ := setup_did env (h.stale hs s hsm) (h.periods s hsm)
          (h.good s hsm) (h.order s hsm) g
        refine ⟨r, m', g', e, fun hr => ⟨(hgo hr).1, fun h => absurd h (Nat.lt_irrefl 0), h.order s hsm⟩,
          ⟨hsame, ?_, h.order s hsm⟩, hd⟩
        rcases hfl with hfl | hfl
        · rw [hfl]; exact h.flat s hsm
        · exact Or.inr hfl) g
    rw [e]
    cases r with
    | some err => exact ⟨_, _, _, rfl, hp, hl', hd⟩
    | none => exact ⟨_, _, _, rfl, fun _ => hp rfl, hl', hd⟩
  · have hany : ¬ (subs.map Sub.m).any (fun m => m.dirty || m.ts.dirty) = true := by
      intro hc
      simp only [List.any_map, List.any_eq_true, Function.comp] at hc
      obtain ⟨s, hs', hst⟩ := hc
      exact hs ⟨s, hs', by simpa [Mdl.Stale] using hst⟩
    rw [if_neg hany]
    simp only [if_neg hs]
    apply forModels_did env (fun m g => m.reset env none g) (GoingAt env 0)
      (fun s => tag s.m.id (resetPlan s.m.topNodes s.comps)) subs (subs.map Sub.m)
    rw [List.forall₂_map_right_iff, List.forall₂_same]
    intro s hsm
    refine ⟨hl s hsm, fun g => ?_⟩
    obtain ⟨hP, hf, hlen⟩ := h.fresh hs s hsm
    have hcl : s.m.ts.dirty = false := by
      by_contra hc
      exact hs ⟨s, hsm, Or.inr (by simpa using hc)⟩
    obtain ⟨r, m', g', e, hgo, -, hd⟩ := reset_did env hP.symm (h.periods s hsm) (h.good s hsm) hlen hcl hf g
    exact ⟨r, m', g', e, fun _ => ⟨hgo, fun h => absurd h (Nat.lt_irrefl 0), h.order s hsm⟩,
      ⟨by rw [hgo.same], Or.inr hgo.flat, h.order s hsm⟩, hd⟩

private theorem finish_loose (env : Env W Freq) {s : Sub Freq} {m : Mdl Freq} (h : Loose s m) (g : Global W) :
    ∃ r m' g', m.finish env g = (r, m', g') ∧ Loose s m' ∧
      Did env (tag s.m.id (finishPlan s.m.graphNodes s.comps (m.ts.current.map Timestep.index))) g r g' := by
  obtain ⟨hs, hf, ho⟩ := h
  have hid : m.id = s.m.id := by rw [hs]
  have hgn : m.graphNodes = s.m.graphNodes := by rw [hs]
  have hor : m.order = some s.comps := by rw [hs]; exact ho
  rw [← hid, ← hgn]
  rcases hf with hf | hf
  · have hfl : m.flatten false = (.ok s.comps, { m with flat := some s.comps }) := by
      unfold Mdl.flatten; rw [hf, hor]
    unfold Mdl.finish finishPlan
    obtain ⟨r1, g1, e1, h1⟩ := exec_did env m.id
      (m.graphNodes.map (.nodeFinish · (m.ts.current.map Timestep.index))) g
    rw [e1, tag_append]
    rcases r1 with _ | e
    · simp only [hfl]
      obtain ⟨r2, g2, e2, h2⟩ := exec_did env m.id
        (s.comps.map (.compFinish · (m.ts.current.map Timestep.index))) g1
      rw [e2]
      rcases r2 with _ | e <;>
        exact ⟨_, _, _, rfl, ⟨by rw [hs], Or.inr rfl, ho⟩, h1.append h2⟩
    · exact ⟨_, _, _, rfl, ⟨by rw [hs], Or.inl hf, ho⟩, h1.stop _⟩
  · obtain ⟨r, g', e, hd⟩ := finish_did env hf g
    exact ⟨r, m, g', e, ⟨hs, Or.inr hf, ho⟩, hd⟩

private theorem finish_models (env : Env W Freq) {subs : List (Sub Freq)} {ms : List (Mdl Freq)}
    (h : List.Forall₂ Loose subs ms) : ∀ g : Global W, ∃ r ms' g',
      forModels (fun m g => m.finish env g) ms g = (r, ms', g') ∧
      Did env (multiFinish subs (ms.map fun m => m.ts.current.map Timestep.index)) g r g' := by
  induction h with
  | nil => intro g; exact ⟨none, [], g, rfl, Did.nil env g⟩
  | @cons s m subs ms hsm _ ih =>
    intro g
    obtain ⟨r, m', g', e, -, hd⟩ := finish_loose env hsm g
    unfold forModels
    simp only [e, List.map_cons, multiFinish]
    cases r with
    | some err => exact ⟨_, _, _, rfl, hd.stop _⟩
    | none =>
      obtain ⟨r2, ms2, g2, e2, hd2⟩ := ih g'
      simp only [e2]
      exact ⟨_, _, _, rfl, hd.append hd2⟩

private theorem try_multi (env : Env W Freq) {subs : List (Sub Freq)} (h : MultiReady env subs) (R : Nat)
    (hR : ∀ k < R, SameDate subs k) (hend : ¬ SameDate subs R) (g : Global W) :
    ∃ r0 r ms' g', multiTry env true (subs.map Sub.m) g = (r, ms', g') ∧ List.Forall₂ Loose subs ms' ∧
      Did env (multiStart subs ++ roundsPlan subs R) g r0 g' ∧
      (r0 = none → (Exhausted subs R → r = none) ∧ (¬ Exhausted subs R → r = some .notSynchronised)) ∧
      (∀ e, r0 = some e → r = some e) ∧ (r = none → (∀ s ∈ subs, s.P.length = R) → AtEnd R ms') := by
  obtain ⟨r1, ms1, g1, e1, hgo, hl, hd⟩ := prepare_multi env h g
  unfold multiTry
  rw [e1]
  cases r1 with
  | some err =>
    exact ⟨some err, _, _, _, rfl, hl, hd.stop _, (fun h => nomatch h), (fun _ h => h), fun h => nomatch h⟩
  | none =>
    simp only
    have hgo := hgo rfl
    have hfuel : R < (ms1.head?.map fun m => m.ts.periods.length + 1).getD 0 := by
      cases hgo with
      | nil => exact absurd rfl h.nonempty
      | @cons s m subs' ms' hsm _ =>
        simp only [List.head?_cons, Option.map_some, Option.getD_some]
        rw [hsm.1.periods]
        by_contra hlt
        obtain ⟨dd, hd'⟩ := hR s.P.length (by omega)
        obtain ⟨p, hp, -⟩ := hd' s List.mem_cons_self
        simp at hp
    obtain ⟨r, ms2, g2, e2, hl2, r0, hd2, hn, hs, hae⟩ := multiLoop_did env h.nonempty h.good h.shift R hR hend R _ 0 ms1 g1
      (by omega) hfuel hgo
    refine ⟨r0, r, ms2, g2, e2, hl2, ?_, fun h0 => ⟨fun hx => ?_, fun hx => ?_⟩, fun e h0 => ?_, hae⟩
    · rw [roundsPlan, List.range_eq_range']
      exact hd.append hd2
    · rw [hn h0]; exact if_pos hx
    · rw [hn h0]; exact if_neg hx
    · rw [hs (by rw [h0]; exact fun h => nomatch h)]; exact h0

/-- **C49.** Let `R` be the first round in which the coupled models do not all have a timestep with the same date.
Whatever the hooks do, `MultiModel.run` sets up (or resets) the models in order, then performs rounds `0 … R - 1`: in each
round every model performs its complete timestep, in the configured order (so the values of an earlier model are those of
the same timestep), up to the end or the first call that raises; then, in either case, it finishes all models in order.
It returns normally exactly when nothing raised and some model has no timestep `R`; if nothing raised and all models still
have a timestep `R` (with different dates), this is reported. -/
theorem C49_run (env : Env W Freq) (subs : List (Sub Freq)) (h : MultiReady env subs) (R : Nat)
    (hR : ∀ k < R, SameDate subs k) (hend : ¬ SameDate subs R) (g : Global W) :
    ∃ (es fs : List Entry) (r r' : Bool) (curs : List (Option Nat)),
      (multiRun env true (subs.map Sub.m) g).2.2.log = g.log ++ es ++ fs ∧
      Followed (multiStart subs ++ roundsPlan subs R) es r ∧ Followed (multiFinish subs curs) fs r' ∧
      curs.length = subs.length ∧
      Ran env g.world (es ++ fs) (multiRun env true (subs.map Sub.m) g).2.2.world ∧
      ((multiRun env true (subs.map Sub.m) g).1 = none ↔ r = false ∧ r' = false ∧ Exhausted subs R) ∧
      (r = false → r' = false → ¬ Exhausted subs R →
        (multiRun env true (subs.map Sub.m) g).1 = some .notSynchronised) ∧
      (r = false → (∀ s ∈ subs, s.P.length = R) →
        curs = some R :: List.replicate (subs.length - 1) (some (R - 1))) := by
  obtain ⟨r0, r1, ms1, g1, e1, hl, ⟨es, le, fe, ke, -⟩, hnone, hsome, hae⟩ := try_multi env h R hR hend g
  obtain ⟨r2, ms2, g2, e2, ⟨fs, lf, ff, kf, -⟩⟩ := finish_models env hl g1
  refine ⟨es, fs, r0.isSome, r2.isSome, _, ?_, fe, ff, by rw [List.length_map, hl.length_eq], ?_, ?_, ?_, ?_⟩
  · unfold multiRun; rw [e1]; simp only [e2]
    cases r2 <;> simp [lf, le]
  · have hw : (multiRun env true (subs.map Sub.m) g).2.2.world = g2.world := by
      unfold multiRun; rw [e1]; simp only [e2]
      cases r2 <;> rfl
    rw [hw]; exact ke.append kf
  · unfold multiRun; rw [e1]; simp only [e2]
    cases r2 with
    | some e => simp
    | none =>
      simp only [Option.isSome_none, true_and]
      cases r0 with
      | some e =>
        simp only [Option.isSome_some, Bool.true_eq_false, false_and, iff_false]
        rw [hsome e rfl]; exact fun h => nomatch h
      | none =>
        obtain ⟨ha, hb⟩ := hnone rfl
        by_cases hx : Exhausted subs R
        · simp [ha hx, hx]
        · simp [hb hx, hx]
  · intro h0 h2 hx
    unfold multiRun; rw [e1]; simp only [e2]
    cases r2 with
    | some e => simp at h2
    | none =>
      cases r0 with
      | some e => simp at h0
      | none => exact (hnone rfl).2 hx
  · intro h0 hlen
    cases r0 with
    | some e => simp at h0
    | none =>
      obtain ⟨s0, hs0⟩ := List.exists_mem_of_ne_nil _ h.nonempty
      have hpos : 0 < R := by
        rw [← hlen s0 hs0]; exact List.length_pos_iff.2 (h.periods s0 hs0)
      obtain ⟨m, rest, rfl, ⟨t, ht, hti⟩, hrest⟩ := hae ((hnone rfl).1 ⟨s0, hs0, (hlen s0 hs0).le⟩) hlen
      have hlen' := hl.length_eq
      rw [List.length_cons] at hlen'
      rw [List.map_cons, ht, Option.map_some, hti]
      congr 1
      refine List.eq_replicate_iff.2 ⟨by rw [List.length_map]; omega, ?_⟩
      intro c hc
      obtain ⟨m', hm', rfl⟩ := List.mem_map.1 hc
      obtain ⟨t', ht', hti'⟩ := hrest hpos m' hm'
      rw [ht', Option.map_some]
      congr 1
      omega

/-- **C49 (which exception).** When `MultiModel.run` raises, the exception is that of the finish-hook which raised, if one
did; otherwise that of the call at which the models stopped; and if no call raised, the report that the dates differ. -/
theorem C49_exception (env : Env W Freq) (subs : List (Sub Freq)) (h : MultiReady env subs) (R : Nat)
    (hR : ∀ k < R, SameDate subs k) (hend : ¬ SameDate subs R) (g : Global W) (e : RunErr)
    (he : (multiRun env true (subs.map Sub.m) g).1 = some e) :
    ∃ (es fs : List Entry) (r : Bool) (curs : List (Option Nat)) (w : W),
      (multiRun env true (subs.map Sub.m) g).2.2.log = g.log ++ es ++ fs ∧
      Followed (multiStart subs ++ roundsPlan subs R) es r ∧ Ran env g.world es w ∧
      ((Followed (multiFinish subs curs) fs true ∧ Blames env w fs e) ∨
        (Followed (multiFinish subs curs) fs false ∧
          ((r = true ∧ Blames env g.world es e) ∨ (r = false ∧ e = .notSynchronised)))) := by
  obtain ⟨r0, r1, ms1, g1, e1, hl, ⟨es, le, fe, ke, be⟩, hnone, hsome, -⟩ := try_multi env h R hR hend g
  obtain ⟨r2, ms2, g2, e2, ⟨fs, lf, ff, kf, bf⟩⟩ := finish_models env hl g1
  unfold multiRun at he ⊢
  rw [e1] at he ⊢
  simp only [e2] at he ⊢
  cases r2 with
  | some e' =>
    obtain rfl : e' = e := by simpa using he
    exact ⟨es, fs, _, _, g1.world, by simp [lf, le], fe, ke, Or.inl ⟨ff, bf _ rfl⟩⟩
  | none =>
    simp only at he
    refine ⟨es, fs, _, _, g1.world, by simp [lf, le], fe, ke, Or.inr ⟨ff, ?_⟩⟩
    cases r0 with
    | some e' =>
      obtain rfl : e' = e := by simpa [hsome e' rfl] using he
      exact Or.inl ⟨rfl, be _ rfl⟩
    | none =>
      refine Or.inr ⟨rfl, ?_⟩
      by_cases hx : Exhausted subs R
      · rw [(hnone rfl).1 hx] at he; cases he
      · rw [(hnone rfl).2 hx] at he
        exact (Option.some.inj he).symm

/-- **C49 (models over the same dates).** If all sub-models have the same `n` dates, every model performs all its `n`
timesteps, in rounds; then the models are finished, the first one while its timestepper is one past the end (index `n`), the
others while theirs still show the last timestep (index `n - 1`). -/
theorem C49_same_dates (env : Env W Freq) (subs : List (Sub Freq)) (h : MultiReady env subs) (n : Nat)
    (dates : List Int) (hd : ∀ s ∈ subs, s.P.map Period.start = dates) (hn : dates.length = n) (g : Global W) :
    ∃ (es fs : List Entry) (r r' : Bool) (curs : List (Option Nat)),
      (multiRun env true (subs.map Sub.m) g).2.2.log = g.log ++ es ++ fs ∧
      Followed (multiStart subs ++ roundsPlan subs n) es r ∧ Followed (multiFinish subs curs) fs r' ∧
      (r = false → curs = some n :: List.replicate (subs.length - 1) (some (n - 1))) ∧
      Ran env g.world (es ++ fs) (multiRun env true (subs.map Sub.m) g).2.2.world ∧
      ((multiRun env true (subs.map Sub.m) g).1 = none ↔ r = false ∧ r' = false) := by
  have hlen : ∀ s ∈ subs, s.P.length = n := fun s hs => by rw [← hn, ← hd s hs, List.length_map]
  obtain ⟨s0, hs0⟩ := List.exists_mem_of_ne_nil _ h.nonempty
  have hx : Exhausted subs n := ⟨s0, hs0, (hlen s0 hs0).le⟩
  obtain ⟨es, fs, r, r', curs, h1, h2, h3, -, h5, h4, -, h6⟩ := C49_run env subs h n (by
    intro k hk
    refine ⟨dates[k]'(by omega), fun s hs => ⟨s.P[k]'(by rw [hlen s hs]; exact hk), List.getElem?_eq_getElem _, ?_⟩⟩
    have : (s.P.map Period.start)[k]? = dates[k]? := by rw [hd s hs]
    rw [List.getElem?_map, List.getElem?_eq_getElem (by rw [hlen s hs]; exact hk),
      List.getElem?_eq_getElem (by omega)] at this
    exact Option.some.inj this) (by
    rintro ⟨d, hdd⟩
    obtain ⟨p, hp, -⟩ := hdd s0 hs0
    rw [List.getElem?_eq_none (hlen s0 hs0).le] at hp
    cases hp) g
  exact ⟨es, fs, r, r', curs, h1, h2, h3, fun h0 => h6 h0 hlen, h5, by rw [h4]; simp [hx]⟩

private theorem finish_ts (env : Env W Freq) (m : Mdl Freq) (g : Global W) : (m.finish env g).2.1.ts = m.ts := by
  unfold Mdl.finish
  rcases exec env m.id (m.graphNodes.map (.nodeFinish · (m.ts.current.map Timestep.index))) g with ⟨_ | e, g1⟩
  · have hf : (m.flatten false).2.ts = m.ts := by
      unfold Mdl.flatten
      cases m.flat <;> cases m.order <;> rfl
    rcases hx : m.flatten false with ⟨e | comps, m'⟩
    · rw [hx] at hf; exact hf
    · rw [hx] at hf
      simp only at hf ⊢
      rcases exec env m'.id (comps.map (.compFinish · (m'.ts.current.map Timestep.index))) g1 with ⟨_ | e, g2⟩ <;> exact hf
  · rfl

private theorem forModels_ts (f : Mdl Freq → Global W → Option RunErr × Mdl Freq × Global W)
    (hf : ∀ m g, (f m g).2.1.ts = m.ts) : ∀ (ms : List (Mdl Freq)) (g : Global W),
      (forModels f ms g).2.1.map Mdl.ts = ms.map Mdl.ts := by
  intro ms
  induction ms with
  | nil => intro g; rfl
  | cons m ms ih =>
    intro g
    unfold forModels
    have h := hf m g
    rcases hx : f m g with ⟨_ | e, m', g'⟩
    · rw [hx] at h
      simp only at h ⊢
      rw [List.map_cons, List.map_cons, ih g', h]
    · rw [hx] at h
      simp only at h ⊢
      rw [List.map_cons, List.map_cons, h]

/-- **C49 (where the timesteppers stand).** After a normal run over the same `n` dates the timestepper of the first model
is one past its end (index `n`), as after `Model.run`; those of all other models still show the last timestep (index
`n - 1`). -/
theorem C49_current (env : Env W Freq) (subs : List (Sub Freq)) (h : MultiReady env subs) (n : Nat)
    (dates : List Int) (hd : ∀ s ∈ subs, s.P.map Period.start = dates) (hn : dates.length = n) (g : Global W)
    (hok : (multiRun env true (subs.map Sub.m) g).1 = none) :
    ∃ t rest, (multiRun env true (subs.map Sub.m) g).2.1.map (fun m => m.ts.current) = some t :: rest ∧
      t.index = n ∧ ∀ c ∈ rest, ∃ t, c = some t ∧ t.index + 1 = n := by
  have hlen : ∀ s ∈ subs, s.P.length = n := fun s hs => by rw [← hn, ← hd s hs, List.length_map]
  obtain ⟨s0, hs0⟩ := List.exists_mem_of_ne_nil _ h.nonempty
  have hpos : 0 < n := by
    rw [← hlen s0 hs0]; exact List.length_pos_iff.2 (h.periods s0 hs0)
  obtain ⟨r0, r1, ms1, g1, e1, -, -, -, -, hae⟩ := try_multi env h n (by
    intro k hk
    refine ⟨dates[k]'(by omega), fun s hs => ⟨s.P[k]'(by rw [hlen s hs]; exact hk), List.getElem?_eq_getElem _, ?_⟩⟩
    have : (s.P.map Period.start)[k]? = dates[k]? := by rw [hd s hs]
    rw [List.getElem?_map, List.getElem?_eq_getElem (by rw [hlen s hs]; exact hk),
      List.getElem?_eq_getElem (by omega)] at this
    exact Option.some.inj this) (by
    rintro ⟨d, hdd⟩
    obtain ⟨p, hp, -⟩ := hdd s0 hs0
    rw [List.getElem?_eq_none (hlen s0 hs0).le] at hp
    cases hp) g
  have hts := forModels_ts (fun m g => m.finish env g) (finish_ts env) ms1 g1
  have hmap : ∀ l : List (Mdl Freq), l.map (fun m => m.ts.current) = (l.map Mdl.ts).map State.current := by
    intro l; rw [List.map_map]; rfl
  rcases hx : forModels (fun m g => m.finish env g) ms1 g1 with ⟨r2, ms2, g2⟩
  rw [hx] at hts
  simp only at hts
  have hr : r1 = none ∧ (multiRun env true (subs.map Sub.m) g).2.1 = ms2 := by
    revert hok
    unfold multiRun
    rw [e1]
    simp only [hx]
    cases r2 with
    | some e => simp
    | none => intro h; exact ⟨h, rfl⟩
  obtain ⟨m, rest, rfl, ⟨t, ht, hti⟩, hrest⟩ := hae hr.1 hlen
  rw [hr.2, hmap, hts, ← hmap, List.map_cons, ht]
  refine ⟨t, _, rfl, hti, ?_⟩
  intro c hc
  obtain ⟨m', hm', rfl⟩ := List.mem_map.1 hc
  exact hrest hpos m' hm'

private theorem prepare_inconsistent (env : Env W Freq) {subs : List (Sub Freq)} (h : MultiReady env subs) (hs : AnyStale subs)
    (g : Global W) : ∃ r0 r ms' g', multiPrepare env false (subs.map Sub.m) g = (r, ms', g') ∧ r ≠ none ∧
      (r0 = none → r = some .scenarios) ∧ List.Forall₂ Loose subs ms' ∧ Did env (multiStart subs) g r0 g' := by
  obtain ⟨r, ms', g', e, -, hl, hd⟩ := prepare_multi env h g
  have hany : (subs.map Sub.m).any (fun m => m.dirty || m.ts.dirty) = true := by
    obtain ⟨s, hs, hst⟩ := hs
    simp only [List.any_map, List.any_eq_true, Function.comp]
    exact ⟨s, hs, by simpa [Mdl.Stale] using hst⟩
  unfold multiPrepare multiSetup at e ⊢
  rw [if_pos hany] at e ⊢
  rcases hx : forModels (fun m g => m.setup env g) (subs.map Sub.m) g with ⟨_ | err, ms1, g1⟩
  · rw [hx] at e
    simp only [if_true, Prod.mk.injEq] at e
    obtain ⟨rfl, rfl, rfl⟩ := e
    exact ⟨none, _, _, _, rfl, by simp, fun _ => rfl, hl, hd⟩
  · rw [hx] at e
    simp only [Prod.mk.injEq] at e
    obtain ⟨rfl, rfl, rfl⟩ := e
    exact ⟨some err, _, _, _, rfl, by simp, (fun h => nomatch h), hl, hd⟩

/-- **C49 (inconsistent scenarios).** When the scenarios of the sub-models are inconsistent and some sub-model needs setting
up, `MultiModel.run` sets up the models, performs no timestep at all, finishes the models and raises; if no hook raises,
what is raised is the error about the scenarios. -/
theorem C49_scenarios (env : Env W Freq) (subs : List (Sub Freq)) (h : MultiReady env subs) (hs : AnyStale subs) (g : Global W) :
    ∃ (es fs : List Entry) (r r' : Bool) (curs : List (Option Nat)),
      (multiRun env false (subs.map Sub.m) g).2.2.log = g.log ++ es ++ fs ∧
      Followed (multiStart subs) es r ∧ Followed (multiFinish subs curs) fs r' ∧
      (multiRun env false (subs.map Sub.m) g).1 ≠ none ∧
      (r = false → r' = false → (multiRun env false (subs.map Sub.m) g).1 = some .scenarios) := by
  obtain ⟨r0, r, ms', g', e, hr, hr0, hl, ⟨es, le, fe, -⟩⟩ := prepare_inconsistent env h hs g
  obtain ⟨r2, ms2, g2, e2, ⟨fs, lf, ff, -⟩⟩ := finish_models env hl g'
  obtain ⟨err, rfl⟩ := Option.ne_none_iff_exists'.1 hr
  refine ⟨es, fs, r0.isSome, r2.isSome, _, ?_, fe, ff, ?_, ?_⟩
  · unfold multiRun multiTry; rw [e]; simp only [e2]
    cases r2 <;> simp [lf, le]
  · unfold multiRun multiTry; rw [e]; simp only [e2]
    cases r2 <;> simp
  · intro h0 h2
    unfold multiRun multiTry; rw [e]; simp only [e2]
    cases r2 with
    | some e => simp at h2
    | none =>
      cases r0 with
      | some e => simp at h0
      | none => exact hr0 rfl

/-! ## Examples and failures -/

namespace Example

/-- Day `i`. -/
def day (i : Nat) : Period := ⟨i * 86400000000000, (i + 1) * 86400000000000 - 1⟩

/-- The frequency stands for the number of days. -/
def daysPd : Pandas Nat := ⟨fun _ _ n => (List.range n).map day, fun _ p => ⟨p.last + 1, p.last + 86400000000000⟩⟩

/-- A new model over `n` days. -/
def newModel (id n : Nat) : Mdl Nat where
  id := id
  ts := ⟨0, 0, n, [], none, none, none, true⟩
  dirty := true
  graphNodes := []
  topNodes := []
  order := some [0]
  flat := none
  param := fun _ => false

/-- No hook raises. -/
def quiet : Env Unit Nat := ⟨daysPd, fun _ _ w => (none, w)⟩

/-- A new model over `n` days with one component. -/
def subOf (id n : Nat) : Sub Nat := ⟨newModel id n, (List.range n).map day, [0]⟩

theorem subs_ready {env : Env W Nat} (he : env.pd = daysPd) (a b : Nat) (ha : 0 < a) (hb : 0 < b) :
    MultiReady env [subOf 0 a, subOf 1 b] := by
  have hst : AnyStale [subOf 0 a, subOf 1 b] := ⟨_, List.mem_cons_self, Or.inl rfl⟩
  have hgood : ∀ n, ∀ p ∈ (List.range n).map day, GoodPeriod p := by
    intro n p hp
    obtain ⟨i, -, rfl⟩ := List.mem_map.1 hp
    unfold GoodPeriod day
    simp only
    omega
  refine ⟨by simp, ?_, ?_, ?_, ?_, ?_, ?_, fun h => absurd hst h⟩
  · intro s hs; fin_cases hs <;> rfl
  · intro s hs; fin_cases hs <;> exact Or.inl rfl
  · intro s hs; fin_cases hs <;> simp [subOf] <;> omega
  · intro s hs; fin_cases hs
    · exact hgood a
    · exact hgood b
  · intro s _ p hp
    unfold GoodPeriod at *
    simp only [he, daysPd]
    omega
  · intro _ s hs; rw [he]; fin_cases hs <;> rfl

end Example

open Example

/-- The hypotheses of `C49_same_dates` can be met. -/
example : ∃ subs : List (Sub Nat), MultiReady quiet subs ∧ subs.length = 2 ∧
    ∀ s ∈ subs, s.P.map Period.start = [0, 86400000000000, 172800000000000] := by
  refine ⟨_, subs_ready (env := quiet) rfl 3 3 (by decide) (by decide), rfl, ?_⟩
  intro s hs; fin_cases hs <;> decide +kernel

/-- **C49 fails for models of different lengths.** When one sub-model has fewer timesteps than another, the run ends
normally after the shorter one: the other model silently misses its remaining timesteps. -/
theorem C49_truncation_fails : ∃ subs : List (Sub Nat), MultiReady quiet subs ∧
    (multiRun quiet true (subs.map Sub.m) ⟨(), []⟩).1 = none ∧
    (∃ s ∈ subs, s.P.length = 3 ∧ s.m.id = 1 ∧ ∀ k, 1 ≤ k →
      ⟨1, .solve k, false⟩ ∉ (multiRun quiet true (subs.map Sub.m) ⟨(), []⟩).2.2.log) := by
  refine ⟨_, subs_ready (env := quiet) rfl 1 3 (by decide) (by decide), by decide +kernel, subOf 1 3, by simp, by decide, rfl, ?_⟩
  have : (multiRun quiet true ([subOf 0 1, subOf 1 3].map Sub.m) ⟨(), []⟩).2.2.log =
      [⟨0, .scenariosSetup, false⟩, ⟨0, .compSetup 0, false⟩, ⟨0, .solverSetup, false⟩, ⟨0, .compReset 0, false⟩,
        ⟨0, .solverReset, false⟩, ⟨1, .scenariosSetup, false⟩, ⟨1, .compSetup 0, false⟩, ⟨1, .solverSetup, false⟩,
        ⟨1, .compReset 0, false⟩, ⟨1, .solverReset, false⟩, ⟨0, .compBefore 0 0, false⟩, ⟨0, .solve 0, false⟩,
        ⟨0, .compAfter 0 0, false⟩, ⟨1, .compBefore 0 0, false⟩, ⟨1, .solve 0, false⟩, ⟨1, .compAfter 0 0, false⟩,
        ⟨0, .compFinish 0 (some 1), false⟩, ⟨1, .compFinish 0 (some 0), false⟩] := by decide +kernel
  rw [this]
  intro k hk
  simp
  omega

/-- **C49 fails when a finish-hook raises.** The models after the one whose finish raised are not finished. -/
theorem C49_finish_raises_fails : ∃ (env : Env Unit Nat) (ms : List (Mdl Nat)),
    (∀ w c, (∀ cur, c ≠ .compFinish 0 cur) → (env.behave 0 c w).1 = none) ∧ (∀ w c, (env.behave 1 c w).1 = none) ∧
    ms.map Mdl.id = [0, 1] ∧ (∀ e ∈ (multiRun env true ms ⟨(), []⟩).2.2.log, e.model = 1 → ∀ x cur,
      e.call ≠ .compFinish x cur) := by
  refine ⟨⟨daysPd, fun i c w => (if i = 0 ∧ c = .compFinish 0 (some 1) then some 1 else none, w)⟩,
    [newModel 0 1, newModel 1 1], ?_, ?_, rfl, ?_⟩
  · intro w c hc
    simp only [true_and]
    rw [if_neg (hc _)]
  · intro w c; simp
  · have : (multiRun (⟨daysPd, fun i c w => (if i = 0 ∧ c = .compFinish 0 (some 1) then some 1 else none, w)⟩ :
        Env Unit Nat) true [newModel 0 1, newModel 1 1] ⟨(), []⟩).2.2.log =
      [⟨0, .scenariosSetup, false⟩, ⟨0, .compSetup 0, false⟩, ⟨0, .solverSetup, false⟩, ⟨0, .compReset 0, false⟩,
        ⟨0, .solverReset, false⟩, ⟨1, .scenariosSetup, false⟩, ⟨1, .compSetup 0, false⟩, ⟨1, .solverSetup, false⟩,
        ⟨1, .compReset 0, false⟩, ⟨1, .solverReset, false⟩, ⟨0, .compBefore 0 0, false⟩, ⟨0, .solve 0, false⟩,
        ⟨0, .compAfter 0 0, false⟩, ⟨1, .compBefore 0 0, false⟩, ⟨1, .solve 0, false⟩, ⟨1, .compAfter 0 0, false⟩,
        ⟨0, .compFinish 0 (some 1), true⟩] := by decide +kernel
    rw [this]
    intro e he
    fin_cases he <;> simp

/-- **C49 fails when run again after the error about the scenarios.** The sub-models count as set up when their scenarios
are compared, so the comparison is made only once: a second `run` of the same inconsistent models goes through all
timesteps and returns normally. -/
theorem C49_scenarios_again_fails : ∃ subs : List (Sub Nat), MultiReady quiet subs ∧ AnyStale subs ∧
    let first := multiRun quiet false (subs.map Sub.m) ⟨(), []⟩
    first.1 = some .scenarios ∧ (multiRun quiet false first.2.1 ⟨(), []⟩).1 = none ∧
      ∀ k < 3, ⟨1, .solve k, false⟩ ∈ (multiRun quiet false first.2.1 ⟨(), []⟩).2.2.log :=
  ⟨_, subs_ready (env := quiet) rfl 3 3 (by decide) (by decide), ⟨_, List.mem_cons_self, Or.inl rfl⟩, by decide +kernel⟩

end Verif.Run

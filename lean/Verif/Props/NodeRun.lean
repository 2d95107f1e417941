import Verif.Proof.NodeRun
/-! # C18 (re-running a model) and C19 (previous flow) -/

namespace Verif.NodeRun

/-! ## C19 -/

/-- **C19 (partial).** In every run, while timestep `k + 1` is being solved, the previous flow of an ordinary node (input, output, link, storage,
piecewise or multi-split link) is the flow it ended timestep `k` with; the same holds for a virtual storage that was active in timestep `k`. Missing:
the composite and aggregated nodes, for which it is false (`C19_composite_zero`, `C19_composite_fails`), and inactive virtual storages
(`C19_inactive_fails`). -/
theorem C19_partial (c : Config) (p : Policy) (u : Nat → Rat) (n k : Nat) (hk : k < (firstRun c p u n).length) (i : Nat) (hi : i < c.size)
    (hc : c.cls i = .node ∨ (∃ v q, c.cls i = .storage v q) ∨ (∃ subs, c.cls i = .piecewise subs) ∨
      ((∃ ms v q, c.cls i = .virtualStorage ms v q) ∧ ∀ k st, (p k st).active i = true)) (d : Decision) :
    (solved c d (firstRun c p u n)[k] i).prevFlow = ((firstRun c p u n)[k] i).flow := by
  rw [solved_prev]
  have h := runFrom_get c p n 0 (reset c (setup u)) k hk
  have hc' : ∀ k st, c.cls i = .node ∨ (∃ v q, c.cls i = .storage v q) ∨ (∃ subs, c.cls i = .piecewise subs) ∨
      ((∃ ms v q, c.cls i = .virtualStorage ms v q) ∧ (p k st).active i = true) := by
    intro k st
    rcases hc with h | h | h | ⟨h, ha⟩
    · exact .inl h
    · exact .inr (.inl h)
    · exact .inr (.inr (.inl h))
    · exact .inr (.inr (.inr ⟨h, ha k st⟩))
  unfold firstRun
  rw [h]
  split
  · exact step_prev c _ _ hi (hc' _ _)
  · exact step_prev c _ _ hi (hc' _ _)

/-- **C19 (first timestep).** In the first timestep of the first run the previous flow of every node is zero. -/
theorem C19_first (c : Config) (u : Nat → Rat) (d : Decision) (i : Nat) : (solved c d (reset c (setup u)) i).prevFlow = 0 := by
  rw [solved_prev]
  unfold reset resetNode
  split
  · cases c.cls i <;> rfl
  · rfl

/-- **C19 is false** for `BreakLink`, `DelayNode`, `LossLink`, `AggregatedNode` and `AggregatedStorage`: they copy the flow before they compute
it, so their previous flow is zero at all times, whatever flows through them. (The solver commits nothing to these nodes: they are on no route.) -/
theorem C19_composite_zero (c : Config) (p : Policy) (u : Nat → Rat) (n k : Nat) (hk : k < (firstRun c p u n).length) (i : Nat) (hi : i < c.size)
    (hc : (∃ m, c.cls i = .copyOf m) ∨ (∃ ms, c.cls i = .aggregated ms) ∨ (∃ ms v q, c.cls i = .aggregatedStorage ms v q))
    (hno : ∀ k st, ∀ q ∈ (p k st).commits, (q.1 = i → q.2 = 0) ∧ ∀ s, c.store q.1 = some s → s.1 ≠ i) :
    ((firstRun c p u n)[k] i).prevFlow = 0 := by
  have key : ∀ k st st', (step c (p k st) st' i).prevFlow = 0 := by
    intro k st st'
    unfold step
    rw [after_eq c _ _ hi]
    have e : (solved c (p k st) st' i).flow = 0 := by
      unfold solved
      rw [commits_untouched c _ (hno k st)]; rfl
    have e2 : afterUpTo c (p k st) (solved c (p k st) st') i i = solved c (p k st) st' i := afterUpTo_ge c _ _ (le_refl i)
    unfold afterNode
    rcases hc with ⟨m, hc⟩ | ⟨ms, hc⟩ | ⟨ms, v, q, hc⟩
    · rw [hc]; simp only [put_same, e2]; exact e
    · rw [hc]; simp only [put_same, e2]; exact e
    · rw [hc]; simp only [put_same, aggStorageAfter, e2]; exact e
  have h := runFrom_get c p n 0 (reset c (setup u)) k hk
  unfold firstRun
  rw [h]
  split
  · exact key _ _ _
  · exact key _ _ _

/-- A catchment (0), a link (1), a loss link taking over the link's flow (2), an aggregated node over the link (3), a virtual storage on the
link (4, inactive in odd timesteps), a child of a composite node (5). -/
private def sample : Config where
  size := 6
  cls := fun i => match i with
    | 2 => .copyOf 1 | 3 => .aggregated [(1, 2)] | 4 => .virtualStorage [(1, 1)] 100 (some 1) | _ => .node
  store := fun _ => none
  hidden := fun i => i == 5

private def samplePolicy : Policy := fun k _ => ⟨1, fun _ => 100, fun _ => 0, fun _ => k % 2 == 0, [(0, 5), (1, 5), (5, 5)]⟩

/-- **C19 fails**, witness: after a timestep with flow 5 (10 for the aggregated node) the previous flow is 0 in the next one. -/
theorem C19_composite_fails : ∃ (c : Config) (p : Policy) (i j : Nat), i < c.size ∧ j < c.size ∧
    ∃ h : 1 < (firstRun c p (fun _ => 0) 2).length,
      ((firstRun c p (fun _ => 0) 2)[0] i).flow = 5 ∧ ((firstRun c p (fun _ => 0) 2)[0] j).flow = 10 ∧
      ∀ d, (solved c d (firstRun c p (fun _ => 0) 2)[0] i).prevFlow = 0 ∧ (solved c d (firstRun c p (fun _ => 0) 2)[0] j).prevFlow = 0 := by
  refine ⟨sample, samplePolicy, 2, 3, by decide, by decide, by rw [firstRun, runFrom_length]; decide, by decide +kernel, by decide +kernel, ?_⟩
  intro d
  rw [solved_prev, solved_prev]
  exact ⟨by decide +kernel, by decide +kernel⟩

/-- **C19 fails** for a virtual storage (such as a seasonal one) in a timestep following an inactive one: it ended the inactive timestep with flow
0, but the previous flow is still the one of the last active timestep. -/
theorem C19_inactive_fails : ∃ (c : Config) (p : Policy) (i : Nat), i < c.size ∧ ∃ h : 1 < (firstRun c p (fun _ => 0) 3).length,
      ((firstRun c p (fun _ => 0) 3)[1] i).flow = 0 ∧ ∀ d, (solved c d (firstRun c p (fun _ => 0) 3)[1] i).prevFlow = -5 := by
  refine ⟨sample, samplePolicy, 4, by decide, by rw [firstRun, runFrom_length]; decide, by decide +kernel, ?_⟩
  intro d
  rw [solved_prev]
  decide +kernel

/-! ## C18 -/

/-- **C18 (partial).** Running the same model again after any history gives the states of the first run, timestep by timestep, provided nothing
reads the previous flow of nodes that have a parent (children of composite nodes, inputs and outputs of storages), nor of aggregated storages. Here `last` is
an arbitrary state, `u` arbitrary uninitialised memory. Missing: readers of those previous flows (`C18_fails`); state kept inside parameters is
treated per class (`Props/Rerun.lean`). -/
theorem C18_partial (c : Config) (hw : c.WF) (p : Policy) (hp : ∀ k st st', AgreeMostly c st st' → p k st = p k st')
    (u : Nat → Rat) (n : Nat) (last : St) : List.Forall₂ (Agree c) (firstRun c p u n) (secondRun c p n last) := by
  apply run_agree c hw p hp
  intro i hi
  refine ⟨rfl, fun h1 h2 => ?_, fun hv => ?_⟩
  · simp only [before, Storage.State.before, reset, hi, h1, and_self, if_true, resetNode]
    cases hc : c.cls i with
    | aggregatedStorage ms v q => exact absurd hc (h2 ms v q)
    | _ => rfl
  · have h1 : c.hidden i = false := by
      by_contra hx
      have := hw.2 i hi (by simpa using hx)
      rw [this] at hv; exact hv
    simp only [before, Storage.State.before, reset, hi, h1, and_self, if_true, resetNode]
    cases hc : c.cls i <;> rw [hc] at hv
    case node => exact hv.elim
    case aggregated => exact hv.elim
    case piecewise => exact hv.elim
    case copyOf => exact hv.elim
    all_goals exact ⟨rfl, rfl⟩

/-- The hypotheses are met by the sample model. -/
example : sample.WF ∧ (∀ k st st', AgreeMostly sample st st' → samplePolicy k st = samplePolicy k st') := by
  refine ⟨⟨?_, ?_⟩, fun _ _ _ _ => rfl⟩
  · intro i hi m hm
    have : i = 0 ∨ i = 1 ∨ i = 2 ∨ i = 3 ∨ i = 4 ∨ i = 5 := by simp [sample] at hi; omega
    rcases this with rfl | rfl | rfl | rfl | rfl | rfl <;> simp [sample, Cls.reads] at hm ⊢ <;> omega
  · intro i hi h
    simp [sample] at h
    subst h; rfl

/-- **C18 fails** when something (for example an annual licence or an interpolated flow parameter, which read `prev_flow` in the first timestep)
depends on the previous flow of a child node: `Model.reset` skips children, so the second run starts from the last flow of the first. -/
theorem C18_fails : ∃ (c : Config) (p : Policy), c.WF ∧ ((firstRun c p (fun _ => 0) 2).map fun st => (st 0).flow) = [10, 7] ∧
    ((secondRun c p 2 (finalState (reset c (setup fun _ => 0)) (firstRun c p (fun _ => 0) 2))).map fun st => (st 0).flow) = [5, 7] := by
  refine ⟨⟨1, fun _ => .node, fun _ => none, fun _ => true⟩,
    fun _ st => ⟨1, fun _ => 0, fun _ => 0, fun _ => true, [(0, if (st 0).prevFlow = 0 then 10 else if (st 0).prevFlow = 7 then 5 else 7)]⟩, ?_, by decide +kernel, by decide +kernel⟩
  exact ⟨by intro i _ m hm; simp [Cls.reads] at hm, fun _ _ _ => rfl⟩

end Verif.NodeRun

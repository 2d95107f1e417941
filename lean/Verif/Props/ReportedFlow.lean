import Verif.Proof.NodeRun
import Verif.Proof.Storage
import Mathlib.Algebra.BigOperators.Group.List.Basic
import Mathlib.Algebra.Ring.Rat
import Mathlib.Tactic.Ring
import Mathlib.Tactic.Linarith
/-! # C61: the flows reported by nodes; C62: aggregated storage -/

namespace Verif.NodeRun

/-- What a list of solver commits gives to node `i` itself. -/
def committedTo (i : Nat) (l : List (Nat × Rat)) : Rat := ((l.filter fun p => p.1 = i).map (·.2)).sum

/-- Signed sum of the commits to the inputs (leaving the storage, sign −1) and outputs (entering it, sign +1) of storage `i`. -/
def storedIn (c : Config) (i : Nat) (l : List (Nat × Rat)) : Rat :=
  (l.map fun p => match c.store p.1 with | some (s, sign) => if s = i then sign * p.2 else 0 | none => 0).sum

private theorem commits_flow (c : Config) (st : St) (l : List (Nat × Rat)) (i : Nat) :
    (commits c st l i).flow = (st i).flow + committedTo i l + storedIn c i l := by
  unfold commits
  induction l generalizing st with
  | nil => simp [committedTo, storedIn]
  | cons p l ih =>
    rw [List.foldl_cons, ih]
    have h1 : (commit c st p i).flow = (st i).flow + (if p.1 = i then p.2 else 0) +
        (match c.store p.1 with | some (s, sign) => if s = i then sign * p.2 else 0 | none => 0) := by
      unfold commit
      cases hs : c.store p.1 with
      | none =>
        simp only [addFlow_flow]
        by_cases h : p.1 = i
        · subst h; simp
        · simp [h, Ne.symm h]
      | some q =>
        obtain ⟨s, sign⟩ := q
        simp only [addFlow_flow]
        by_cases h : p.1 = i <;> by_cases h' : s = i <;> simp_all [eq_comm]
    rw [h1]
    unfold committedTo storedIn
    simp only [List.filter_cons, List.map_cons, List.sum_cons]
    by_cases h : p.1 = i
    · simp only [h, decide_true, if_true, List.map_cons, List.sum_cons]; ring
    · simp only [h, decide_false, Bool.false_eq_true, if_false]; ring

/-- While a timestep is being finished every node's flow is what the solver committed to it in this timestep, and nothing of earlier timesteps. -/
theorem C61_solved (c : Config) (d : Decision) (st : St) (i : Nat) :
    (solved c d st i).flow = committedTo i d.commits + storedIn c i d.commits := by
  unfold solved
  rw [commits_flow]
  have : (before st i).flow = 0 := rfl
  rw [this, zero_add]

private theorem afterUpTo_plain (c : Config) (d : Decision) (st : St) (n i : Nat) (hc : c.cls i = .node ∨ ∃ v p, c.cls i = .storage v p) :
    (afterUpTo c d st n i).flow = (st i).flow := by
  by_cases h : n ≤ i
  · rw [afterUpTo_ge c d st h]
  · rw [afterUpTo_lt c d st (by omega)]
    unfold afterNode
    rcases hc with hc | ⟨v, p, hc⟩ <;> rw [hc] <;> simp only [put_same, Storage.State.after, afterUpTo_ge c d st (le_refl i)]

/-- **C61 (plain nodes).** After every timestep, whatever happened before, the flow reported by an input, output, link is the sum of the flows the solver
committed to it, and the flow of a storage is what entered it through its outputs minus what left it through its inputs. -/
theorem C61_plain (c : Config) (d : Decision) (st : St) (i : Nat) (hc : c.cls i = .node ∨ ∃ v p, c.cls i = .storage v p) :
    (step c d st i).flow = committedTo i d.commits + storedIn c i d.commits := by
  unfold step
  rw [← C61_solved c d st i]
  exact afterUpTo_plain c d _ c.size i hc

/-- A node whose flow no later `after` changes: an ordinary node, or one that comes earlier in the graph. -/
def Settled (c : Config) (i m : Nat) : Prop := m < c.size ∧ (m < i ∨ c.cls m = .node ∨ ∃ v p, c.cls m = .storage v p)

private theorem settled_flow (c : Config) (d : Decision) (st : St) (i m : Nat) (h : Settled c i m) :
    (afterUpTo c d st i m).flow = (after c d st m).flow := by
  obtain ⟨hm, h | h⟩ := h
  · rw [afterUpTo_lt c d st h, after_eq c d st hm]
  · rw [afterUpTo_plain c d st i m h]
    exact (afterUpTo_plain c d st c.size m h).symm

private theorem depletion_eq (us : List VirtualStorage.Use) (a : Rat) :
    us.foldl (fun acc u => acc - u.factor * u.flow) a = a - (us.map fun u => u.factor * u.flow).sum := by
  induction us generalizing a with
  | nil => simp
  | cons u us ih => rw [List.foldl_cons, ih, List.map_cons, List.sum_cons]; ring

/-- **C61 (composite nodes, partial).** After every timestep: a piecewise or multi-split link reports the sum of its sublinks' flows (plus what was committed to
itself), a break link, delay node or loss link the flow of the inner node, an aggregated node the weighted sum of its members' flows, an aggregated
storage the sum, and an active virtual storage minus the weighted sum: all of them the flows the members report after the same timestep, provided the members are ordinary nodes or
come earlier in the graph. Missing: composite members that come later (`C61_fails`). -/
theorem C61_composite_partial (c : Config) (d : Decision) (st : St) (i : Nat) (hi : i < c.size) (hs : ∀ m ∈ (c.cls i).reads, Settled c i m) :
    (∀ subs, c.cls i = .piecewise subs → (step c d st i).flow =
      committedTo i d.commits + storedIn c i d.commits + (subs.map fun m => (step c d st m).flow).sum) ∧
    (∀ m, c.cls i = .copyOf m → (step c d st i).flow = committedTo i d.commits + storedIn c i d.commits + (step c d st m).flow) ∧
    (∀ ms, c.cls i = .aggregated ms → (step c d st i).flow = (ms.map fun p => (step c d st p.1).flow * p.2).sum) ∧
    (∀ ms v p, c.cls i = .aggregatedStorage ms v p → (step c d st i).flow = (ms.map fun m => (step c d st m).flow).sum) ∧
    (∀ ms v p, c.cls i = .virtualStorage ms v p → d.active i = true →
      (step c d st i).flow = - (ms.map fun p => p.2 * (step c d st p.1).flow).sum) := by
  have hself : afterUpTo c d (solved c d st) i i = solved c d st i := afterUpTo_ge c d _ (le_refl i)
  have hm : ∀ m ∈ (c.cls i).reads, (afterUpTo c d (solved c d st) i m).flow = (step c d st m).flow := fun m h => settled_flow c d _ i m (hs m h)
  have e : step c d st i = afterNode c d (afterUpTo c d (solved c d st) i) i i := after_eq c d _ hi
  refine ⟨fun subs h => ?_, fun m h => ?_, fun ms h => ?_, fun ms v p h => ?_, fun ms v p h ha => ?_⟩
  · rw [e]
    unfold afterNode
    rw [h] at hm ⊢
    simp only [put_same, hself, C61_solved]
    congr 1
    exact congrArg List.sum (List.map_congr_left fun m hmem => hm m hmem)
  · rw [e]
    unfold afterNode
    rw [h] at hm ⊢
    simp only [put_same, hself, C61_solved]
    rw [hm m (by simp [Cls.reads])]
  · rw [e]
    unfold afterNode
    rw [h] at hm ⊢
    simp only [put_same]
    exact congrArg List.sum (List.map_congr_left fun m hmem => by rw [hm m.1 (List.mem_map.2 ⟨m, hmem, rfl⟩)])
  · rw [e]
    unfold afterNode
    rw [h] at hm ⊢
    simp only [put_same, aggStorageAfter]
    exact congrArg List.sum (List.map_congr_left fun m hmem => hm m hmem)
  · rw [e]
    unfold afterNode
    rw [h] at hm ⊢
    simp only [ha, if_true, put_same, Storage.State.after, VirtualStorage.depletion]
    rw [depletion_eq, List.map_map, zero_sub]
    congr 1
    exact congrArg List.sum (List.map_congr_left fun m hmem => by
      simp only [Function.comp]
      rw [hm m.1 (List.mem_map.2 ⟨m, hmem, rfl⟩)])

/-- A storage (0) with its input (1) and output (2), a piecewise link (3) over the links 4 and 5, and an aggregated node (6) over 3 and 4. -/
private def demo : Config where
  size := 7
  cls := fun i => if i = 0 then .storage 10 (some 1) else if i = 3 then .piecewise [4, 5] else if i = 6 then .aggregated [(3, 1), (4, 2)] else .node
  store := fun i => if i = 1 then some (0, -1) else if i = 2 then some (0, 1) else none
  hidden := fun _ => false

private def demoDecision : Decision := ⟨1, fun _ => 100, fun _ => 0, fun _ => true, [(1, 3), (4, 3), (5, 4), (2, 1)]⟩

example : (∀ m ∈ (demo.cls 6).reads, Settled demo 6 m) ∧ (step demo demoDecision (setup fun _ => 7) 6).flow = 13 ∧
    (step demo demoDecision (setup fun _ => 7) 0).flow = -2 := by
  refine ⟨?_, by decide +kernel, by decide +kernel⟩
  intro m hm
  have hm : m = 3 ∨ m = 4 := by simpa [demo, Cls.reads] using hm
  rcases hm with rfl | rfl <;> exact ⟨by decide, .inl (by decide)⟩

/-- **C61 fails** for an aggregated node that was added to the model before a piecewise link it contains: its flow misses the link's flow. -/
theorem C61_fails : ∃ (c : Config) (d : Decision) (st : St), c.cls 0 = .aggregated [(1, 1)] ∧ c.cls 1 = .piecewise [2] ∧ c.size = 3 ∧
    (step c d st 1).flow = 5 ∧ (step c d st 0).flow = 0 := by
  refine ⟨⟨3, fun i => if i = 0 then .aggregated [(1, 1)] else if i = 1 then .piecewise [2] else .node, fun _ => none, fun _ => false⟩,
    ⟨1, fun _ => 0, fun _ => 0, fun _ => true, [(2, 5)]⟩, fun _ => ⟨0, 0, 0, none⟩, rfl, rfl, rfl, ?_, ?_⟩ <;> decide +kernel

/-! ## C62: aggregated storage -/

private theorem sum_abs (l : List Nat) (f g : Nat → Rat) (e : Rat) (h : ∀ m ∈ l, |f m - g m| ≤ e) :
    |(l.map f).sum - (l.map g).sum| ≤ l.length * e := by
  induction l with
  | nil => simp
  | cons a l ih =>
    simp only [List.map_cons, List.sum_cons, List.length_cons]
    have h1 := abs_le.1 (h a (by simp))
    have h2 := abs_le.1 (ih fun m hm => h m (by simp [hm]))
    rw [abs_le]
    push_cast
    constructor <;> linarith

private theorem sum_mul_right (l : List Nat) (f g : Nat → Rat) (k : Rat) :
    (l.map fun m => f m + g m * k).sum = (l.map f).sum + (l.map g).sum * k := by
  induction l with
  | nil => simp
  | cons a l ih => simp only [List.map_cons, List.sum_cons, ih]; ring

private theorem step_agg (c : Config) (d : Decision) (st : St) (i : Nat) (hi : i < c.size) (ms : List Nat) (v : Rat) (p : Option Rat)
    (hc : c.cls i = .aggregatedStorage ms v p) (hm : ∀ m ∈ ms, m < c.size ∧ ∃ v p, c.cls m = .storage v p) :
    |(step c d st i).volume - (ms.map fun m => (step c d st m).volume).sum| ≤
      |(st i).volume - (ms.map fun m => (st m).volume).sum| + (ms.length + 1) * (2 * Storage.e6) := by
  have hflow := (C61_composite_partial c d st i hi (by
    rw [hc]; intro m h
    exact ⟨(hm m h).1, .inr (.inr (hm m h).2)⟩)).2.2.2.1 ms v p hc
  have hvol : ∀ j, (solved c d st j).volume = (st j).volume := by
    intro j; unfold solved; rw [(commits_volume c _ _ j).1]; rfl
  have hi' : (step c d st i).volume = Storage.snap (ms.map d.mx).sum (ms.map d.mn).sum ((st i).volume + (step c d st i).flow * d.days) := by
    have e : step c d st i = afterNode c d (afterUpTo c d (solved c d st) i) i i := after_eq c d _ hi
    rw [e]
    unfold afterNode
    rw [hc]
    simp only [put_same, aggStorageAfter, afterUpTo_ge c d _ (le_refl i), hvol]
  have hm' : ∀ m ∈ ms, |(step c d st m).volume - ((st m).volume + (step c d st m).flow * d.days)| ≤ 2 * Storage.e6 := by
    intro m hmem
    obtain ⟨hlt, w, q, hcm⟩ := hm m hmem
    have e : step c d st m = afterNode c d (afterUpTo c d (solved c d st) m) m m := after_eq c d _ hlt
    rw [e]
    unfold afterNode
    rw [hcm]
    simp only [put_same, Storage.State.after, afterUpTo_ge c d _ (le_refl m), hvol]
    exact Storage.snap_err2 _ _ _
  have h1 := abs_le.1 (sum_abs ms _ _ _ hm')
  have h2 := abs_le.1 (Storage.snap_err2 (ms.map d.mx).sum (ms.map d.mn).sum ((st i).volume + (step c d st i).flow * d.days))
  rw [sum_mul_right, ← hflow] at h1
  rw [hi']
  have h3 := abs_le.1 (le_refl |(st i).volume - (ms.map fun m => (st m).volume).sum|)
  rw [abs_le]
  constructor <;> linarith

/-- **C62.** In every run, after `k` timesteps the volume of an aggregated storage over storages differs from the sum of their volumes by at most 2e-6 per timestep for each
of them and for itself (it is kept separately and snapped to its own limits). -/
theorem C62_sum (c : Config) (p : Policy) (u : Nat → Rat) (n k : Nat) (hk : k < (firstRun c p u n).length) (i : Nat) (hi : i < c.size) (hv : c.hidden i = false)
    (ms : List Nat) (init : Nat → Rat) (q : Option Rat) (hc : c.cls i = .aggregatedStorage ms (ms.map init).sum q)
    (hm : ∀ m ∈ ms, m < c.size ∧ c.hidden m = false ∧ ∃ r, c.cls m = .storage (init m) r) :
    |((firstRun c p u n)[k] i).volume - (ms.map fun m => ((firstRun c p u n)[k] m).volume).sum| ≤ (k + 1) * ((ms.length + 1) * (2 * Storage.e6)) := by
  have hm2 : ∀ m ∈ ms, m < c.size ∧ ∃ v p, c.cls m = .storage v p := fun m h => ⟨(hm m h).1, _, (hm m h).2.2⟩
  have h0 : (reset c (setup u) i).volume - (ms.map fun m => (reset c (setup u) m).volume).sum = 0 := by
    have e1 : (reset c (setup u) i).volume = (ms.map init).sum := by
      unfold reset; rw [if_pos ⟨hi, hv⟩, hc]; rfl
    have e2 : (ms.map fun m => (reset c (setup u) m).volume) = ms.map init := List.map_congr_left fun m h => by
      obtain ⟨a, b, r, hr⟩ := hm m h
      unfold reset; rw [if_pos ⟨a, b⟩, hr]; rfl
    rw [e1, e2, sub_self]
  unfold firstRun at hk ⊢
  induction k with
  | zero =>
    rw [runFrom_get c p n 0 _ 0 hk]
    simp only [dite_true]
    have := step_agg c (p 0 (before (reset c (setup u)))) (reset c (setup u)) i hi ms _ q hc hm2
    rw [h0, abs_zero] at this
    push_cast
    linarith
  | succ k ih =>
    have ih := ih (by omega)
    rw [runFrom_get c p n 0 _ (k + 1) hk]
    simp only [Nat.add_one_ne_zero, dite_false, Nat.add_sub_cancel]
    have := step_agg c (p (0 + (k + 1)) (before (runFrom c p 0 n (reset c (setup u)))[k])) (runFrom c p 0 n (reset c (setup u)))[k] i hi ms _ q hc hm2
    push_cast
    linarith

/-- **C62 (fraction).** Whatever happens in a timestep, at its end the fraction of an aggregated storage is its volume over the sum of the maximum volumes of its storages in that timestep, and not a number when that sum is zero. -/
theorem C62_fraction (c : Config) (d : Decision) (st : St) (i : Nat) (hi : i < c.size) (ms : List Nat) (v : Rat) (q : Option Rat)
    (hc : c.cls i = .aggregatedStorage ms v q) :
    ((ms.map d.mx).sum ≠ 0 → (step c d st i).pc = some ((step c d st i).volume / (ms.map d.mx).sum)) ∧ ((ms.map d.mx).sum = 0 → (step c d st i).pc = none) := by
  have e : step c d st i = afterNode c d (afterUpTo c d (solved c d st) i) i i := after_eq c d _ hi
  rw [e]
  unfold afterNode
  rw [hc]
  simp only [put_same, aggStorageAfter, Storage.fraction]
  exact ⟨fun h => by rw [if_neg h], fun h => by rw [if_pos h]⟩

/-- Two storages of one each and their aggregate; 0.9999995 goes to the first. -/
private def nearlyFull : Config := ⟨4, fun i => if i = 2 then .aggregatedStorage [0, 1] 0 none else if i = 3 then .node else .storage 0 none, fun i => if i = 3 then some (0, 1) else none, fun _ => false⟩

private def fills : Decision where
  days := 1
  commits := [(3, 9999995 / 10000000)]
  mx := fun _ => 1
  mn := fun _ => 0
  active := fun _ => true

/-- **C62: the bound is needed.** The volume of an aggregated storage is not exactly the sum: a storage is taken for full when it is nearly full, the aggregated storage is not. -/
theorem C62_not_exact : (step nearlyFull fills (reset nearlyFull (setup fun _ => 0)) 2).volume = 9999995 / 10000000 ∧
    ([0, 1].map fun m => (step nearlyFull fills (reset nearlyFull (setup fun _ => 0)) m).volume).sum = 1 := by
  constructor <;> decide +kernel

/-- Two storages and their aggregate. -/
example : let c : Config := ⟨3, fun i => if i = 2 then .aggregatedStorage [0, 1] ([0, 1].map fun m : Nat => (10 * m + 1 : Rat)).sum none else .storage (10 * i + 1) none,
      fun _ => none, fun _ => false⟩
    (∀ m ∈ [0, 1], m < c.size ∧ c.hidden m = false ∧ ∃ r, c.cls m = .storage ((fun m : Nat => (10 * m + 1 : Rat)) m) r) ∧
      (reset c (setup fun _ => 3) 2).volume = 12 := by
  refine ⟨?_, by decide +kernel⟩
  intro m hm
  simp only [List.mem_cons, List.not_mem_nil, or_false] at hm
  rcases hm with rfl | rfl <;> exact ⟨by decide, rfl, none, rfl⟩

end Verif.NodeRun

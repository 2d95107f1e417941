import Mathlib.Algebra.BigOperators.Group.List.Basic
import Mathlib.Algebra.Ring.Rat
import Mathlib.Tactic.Ring
import Verif.Spec.Attributes
/-!
# C106: an attribute of a node has one value, however it is asked for

Theorems about `Model/Attributes.lean`.
-/

namespace Verif.Attributes

open Verif.Bounds (F)

variable {V : Type}

private theorem getAll_spec {w : World V} {n : Nat} (hw : w.Ready n) (s : Slot V) {out : List V} (ho : out.length = n) :
    ∃ vs, getAll w s out = some vs ∧ vs.length = n ∧ ∀ i, i < n → getOne w s i = vs[i]? := by
  unfold getAll getOne
  cases s.param with
  | none =>
    refine ⟨_, rfl, by simpa using ho, fun i hi => ?_⟩
    simp [ho, hi]
  | some p =>
    have hl := (hw p).1
    refine ⟨w.values p, ?_, hl, fun i hi => rfl⟩
    simp only [fill, hl, ho, if_true]

/-- Asking for all combinations gives, for each of them, what asking for it alone gives, and that is what the attribute is worth; whatever the array given for the answer contained before. -/
theorem C106_all {w : World V} {n : Nat} (hw : w.Ready n) (s : Slot V) {out : List V} (ho : out.length = n) :
    ∃ vs, getAll w s out = some vs ∧ vs.length = n ∧ ∀ i, i < n → ∃ v, vs[i]? = some v ∧ getOne w s i = some v ∧ Worth w i (property s) v := by
  obtain ⟨vs, h1, h2, h3⟩ := getAll_spec hw s ho
  refine ⟨vs, h1, h2, fun i hi => ⟨vs[i]'(h2 ▸ hi), by rw [List.getElem?_eq_getElem], ?_, ?_⟩⟩
  · rw [h3 i hi, List.getElem?_eq_getElem]
  · have h4 : getOne w s i = some (vs[i]'(h2 ▸ hi)) := by rw [h3 i hi, List.getElem?_eq_getElem]
    unfold getOne at h4
    unfold property
    cases hp : s.param with
    | none =>
      rw [hp] at h4
      exact (Option.some.inj h4).symm
    | some p =>
      rw [hp] at h4
      exact h4

/-- An array for the answer that has not as many places as there are combinations is refused if the attribute is a parameter. If it is a number, every place is filled with it. -/
theorem C106_wrong_size {w : World V} {n : Nat} (hw : w.Ready n) (s : Slot V) {out : List V} (ho : out.length ≠ n) :
    (∀ p, s.param = some p → getAll w s out = none) ∧ (s.param = none → getAll w s out = some (List.replicate out.length s.fixed)) := by
  refine ⟨fun p hp => ?_, fun hp => ?_⟩
  · have : (w.values p).length ≠ out.length := by rw [(hw p).1]; exact fun e => ho e.symm
    simp [getAll, hp, fill, this]
  · simp [getAll, hp]

/-- Two combinations; parameter 0 varies, parameter 1 is constant. -/
def someWorld : World Rat := ⟨fun p => if p = 0 then [3, 5] else [7, 7], fun p => if p = 0 then none else some 7⟩

theorem someWorld_ready : someWorld.Ready 2 := by
  intro p
  unfold someWorld
  by_cases h : p = 0
  · simp [h]
  · simp [h]

example : someWorld.Ready 2 ∧ getAll someWorld ⟨1, some 0⟩ [0, 9] = some [3, 5] ∧ getAll someWorld ⟨1, none⟩ [0, 9] = some [1, 1] ∧ getOne someWorld ⟨1, some 0⟩ 1 = some 5 :=
  ⟨someWorld_ready, by decide +kernel⟩

/-- The ends of a storage: flow into the network costs minus what the storage costs, flow out of it the same, for one combination and for all. -/
theorem C106_ends {w : World Rat} {n : Nat} (hw : w.Ready n) (s : Slot Rat) {out : List Rat} (ho : out.length = n) :
    ∃ ins outs, inputAllCost w s out = some ins ∧ outputAllCost w s out = some outs ∧ ins.length = n ∧ outs.length = n ∧
      ∀ i, i < n → ∃ v, Worth w i (property s) v ∧ ins[i]? = some (-v) ∧ inputCost w s i = some (-v) ∧ outs[i]? = some v ∧ outputCost w s i = some v := by
  obtain ⟨vs, h1, h2, h3⟩ := C106_all hw s ho
  refine ⟨vs.map fun c => c * -1, vs, ?_, h1, by simpa using h2, h2, fun i hi => ?_⟩
  · unfold inputAllCost
    rw [h1]
    rfl
  · obtain ⟨v, e1, e2, e3⟩ := h3 i hi
    refine ⟨v, e3, ?_, ?_, e1, e2⟩
    · rw [List.getElem?_map, e1]
      simp
    · unfold inputCost
      rw [e2]
      rfl

example : inputAllCost someWorld ⟨1, some 0⟩ [0, 0] = some [-3, -5] ∧ inputCost someWorld ⟨1, some 0⟩ 0 = some (-3) := by decide +kernel

/-- Nodes without a cost cost nothing. -/
theorem C106_no_cost (out : List Rat) (i : Nat) (hi : i < out.length) : (noAllCost out)[i]? = some (noCost i) := by
  simp [noAllCost, noCost, hi]

example : (noAllCost [4, 5])[1]? = some 0 := by decide +kernel

private theorem addInto_eq {out xs : List Rat} {n : Nat} (ho : out.length = n) (hx : xs.length = n) : addInto out xs = some (List.zipWith (· + ·) out xs) := by
  unfold addInto
  rw [if_pos (by omega), hx, ← ho, List.drop_length, List.append_nil]

private theorem aggregated_fold {w : World Rat} {n : Nat} (hw : w.Ready n) (storages : List (Slot Rat)) : ∀ (acc : List Rat), acc.length = n →
    ∃ vs, storages.foldlM (fun acc s => (getAll w s (List.replicate n 0)).bind (addInto acc)) acc = some vs ∧ vs.length = n ∧
      ∀ i, i < n → ∀ a, acc[i]? = some a → storages.foldlM (fun acc s => (getOne w s i).map fun v => acc + v) a = vs[i]? := by
  induction storages with
  | nil =>
    intro acc ha
    exact ⟨acc, rfl, ha, fun i _ a h => by rw [h]; rfl⟩
  | cons s storages ih =>
    intro acc ha
    obtain ⟨xs, h1, h2, h3⟩ := getAll_spec hw s (List.length_replicate (n := n) (a := (0 : Rat)))
    have e := addInto_eq ha h2
    obtain ⟨vs, g1, g2, g3⟩ := ih (List.zipWith (· + ·) acc xs) (by simp [ha, h2])
    refine ⟨vs, ?_, g2, fun i hi a hai => ?_⟩
    · rw [List.foldlM_cons, h1, Option.bind_some, e]
      exact g1
    · have hx : xs[i]? = some (xs[i]'(h2 ▸ hi)) := List.getElem?_eq_getElem _
      rw [List.foldlM_cons, h3 i hi, hx]
      refine g3 i hi _ ?_
      rw [List.getElem?_zipWith, hai, hx]

/-- The volumes of an aggregated storage are, for every combination, the sums of those of its storages, whatever the array given for the answer contained before; the same sums are used by the
storage itself. -/
theorem C106_aggregated {w : World Rat} {n : Nat} (hw : w.Ready n) (storages : List (Slot Rat)) {out : Option (List Rat)} (ho : ∀ o, out = some o → o.length = n) :
    ∃ vs, aggregatedAll w n storages out = some vs ∧ vs.length = n ∧ ∀ i, i < n →
      aggregatedOne w storages i = vs[i]? ∧ ∃ parts : List Rat, List.Forall₂ (fun s v => Worth w i (property s) v) storages parts ∧ vs[i]? = some parts.sum := by
  obtain ⟨vs, h1, h2, h3⟩ := aggregated_fold hw storages (List.replicate n 0) (by simp)
  refine ⟨vs, ?_, h2, fun i hi => ?_⟩
  · unfold aggregatedAll
    cases out with
    | none => exact h1
    | some o =>
      show storages.foldlM _ (o.map fun _ => (0 : Rat)) = _
      rw [List.map_const', ho o rfl]
      exact h1
  · have h4 := h3 i hi 0 (by simp [hi])
    refine ⟨h4, ?_⟩
    have : ∀ (l : List (Slot Rat)) (a : Rat), ∃ parts : List Rat, List.Forall₂ (fun s v => Worth w i (property s) v) l parts ∧
        l.foldlM (fun acc s => (getOne w s i).map fun v => acc + v) a = some (a + parts.sum) := by
      intro l
      induction l with
      | nil => intro a; exact ⟨[], List.Forall₂.nil, by simp⟩
      | cons s l ih =>
        intro a
        obtain ⟨_, _, _, h⟩ := C106_all hw s (List.length_replicate (n := n) (a := (0 : Rat)))
        obtain ⟨v, _, e2, e3⟩ := h i hi
        obtain ⟨parts, p1, p2⟩ := ih (a + v)
        refine ⟨v :: parts, List.Forall₂.cons e3 p1, ?_⟩
        rw [List.foldlM_cons, e2]
        show l.foldlM _ (a + v) = _
        rw [p2, List.sum_cons, add_assoc]
    obtain ⟨parts, p1, p2⟩ := this storages 0
    refine ⟨parts, p1, ?_⟩
    rw [← h4, p2, zero_add]

example : aggregatedAll someWorld 2 [⟨1, some 0⟩, ⟨10, none⟩, ⟨0, some 1⟩] (some [100, 200]) = some [20, 22] := by decide +kernel

/-! ## Constants -/

/-- A constant limit is the value in every combination; every number and every constant parameter is reported as such. -/
theorem C106_constant {w : World V} {n : Nat} (hw : w.Ready n) (s : Slot V) :
    (∀ v, getConstant w s = some v → ∀ i, i < n → getOne w s i = some v) ∧ (getConstant w s = none ↔ ∃ p, property s = .inr p ∧ w.constant p = none) := by
  unfold getConstant getOne property
  cases s.param with
  | none => exact ⟨fun v h i _ => h, by simp⟩
  | some p =>
    refine ⟨fun v h i hi => ?_, by simp⟩
    obtain ⟨hl, hc⟩ := hw p
    have hg : (w.values p)[i]? = some ((w.values p)[i]'(hl ▸ hi)) := List.getElem?_eq_getElem _
    show (w.values p)[i]? = some v
    rw [hg, hc v h _ (List.getElem_mem _)]

/-- `has_constant_flows` tells whether both limits have a constant value, `has_fixed_flows` whether both are numbers; then the fixed limits are the values in every combination. -/
theorem C106_flows {w : World F} {n : Nat} (nd : Flows) :
    (nd.hasConstant w = true ↔ (getConstant w nd.minFlow).isSome ∧ (getConstant w nd.maxFlow).isSome) ∧ (nd.hasFixed = true ↔ (∃ a, property nd.minFlow = .inl a) ∧ ∃ b, property nd.maxFlow = .inl b) ∧
      (∀ v, nd.fixedMin = some v → ∀ i, i < n → getOne w nd.minFlow i = some v) ∧ ∀ v, nd.fixedMax = some v → ∀ i, i < n → getOne w nd.maxFlow i = some v := by
  obtain ⟨⟨a, pa⟩, ⟨b, pb⟩⟩ := nd
  refine ⟨?_, ?_, ?_, ?_⟩
  · cases pa <;> cases pb <;> simp [Flows.hasConstant, getConstant]
    exact And.comm
  · cases pa <;> cases pb <;> simp [Flows.hasFixed, property]
  · intro v h i _
    cases pa <;> cases pb <;> simp_all [Flows.fixedMin, Flows.hasFixed, getOne]
  · intro v h i _
    cases pa <;> cases pb <;> simp_all [Flows.fixedMax, Flows.hasFixed, getOne]

example : getConstant someWorld ⟨1, some 1⟩ = some 7 ∧ getConstant someWorld ⟨1, some 0⟩ = none ∧ getConstant someWorld ⟨1, none⟩ = some 1 := by decide +kernel
example : (newFlows.fixedMax = some .posInf) ∧ newFlows.hasConstant ⟨fun _ => [], fun _ => none⟩ = true := by decide +kernel

/-- What fails: `get_fixed_min_flow` is not a number if the other limit is a parameter, although the lower limit itself is fixed. -/
theorem C106_fixed_fails : ∃ nd : Flows, property nd.minFlow = .inl (.fin 2) ∧ nd.fixedMin = none := ⟨⟨⟨.fin 2, none⟩, ⟨.posInf, some 0⟩⟩, by decide +kernel⟩

/-! ## Assignments -/

/-- An accepted assignment has its effect, whatever was assigned, accepted or refused, before; the only assignments refused are those of things that are no numbers, and of `None` where it has no
meaning. -/
theorem C106_assign {whenNone : Option V} {s : Slot V} {before : List (Given V)} {g : Given V} :
    ((assign whenNone (history whenNone s before) g).2 = true ↔ ∃ x, Asked whenNone g x) ∧
      ∀ x, Asked whenNone g x → property (history whenNone s (before ++ [g])) = x := by
  unfold history
  rw [List.foldl_append]
  simp only [List.foldl_cons, List.foldl_nil]
  generalize List.foldl (fun s g => (assign whenNone s g).1) s before = s'
  cases g with
  | none =>
    cases whenNone with
    | none => simp [assign, Asked]
    | some d => simp [assign, Asked, property]
  | number v => simp [assign, Asked, property]
  | param p => simp [assign, Asked, property]
  | other => simp [assign, Asked]

/-- So does what is asked for afterwards. -/
theorem C106_assigned {w : World V} {n : Nat} (hw : w.Ready n) {whenNone : Option V} {s : Slot V} {before : List (Given V)} {g : Given V} {x : V ⊕ Nat} (hx : Asked whenNone g x) {i : Nat} (hi : i < n) :
    ∃ v, getOne w (history whenNone s (before ++ [g])) i = some v ∧ Worth w i x v := by
  have hp := (C106_assign (s := s) (before := before)).2 x hx
  cases h : (history whenNone s (before ++ [g])).param with
  | none =>
    refine ⟨(history whenNone s (before ++ [g])).fixed, by unfold getOne; rw [h], ?_⟩
    unfold property at hp
    rw [h] at hp
    rw [← hp]
    rfl
  | some p =>
    have hlen := (hw p).1
    refine ⟨(w.values p)[i]'(hlen ▸ hi), ?_, ?_⟩
    · unfold getOne
      rw [h]
      exact List.getElem?_eq_getElem _
    · unfold property at hp
      rw [h] at hp
      rw [← hp]
      exact List.getElem?_eq_getElem _

example : property (history (some (0 : Rat)) ⟨4, none⟩ [.param 3, .other, .number 2]) = .inl 2 := by decide +kernel

/-- What fails: a refused assignment is not without effect.  A parameter is gone, and the attribute is again the number it was before the parameter was assigned (of a new node: its default). -/
theorem C106_refused_fails (d : Option V) (s : Slot V) (p : Nat) : property (history d s [.param p]) = .inr p ∧ (assign d (history d s [.param p]) .other).2 = false ∧
    property (history d s [.param p, .other]) = .inl s.fixed := ⟨rfl, rfl, rfl⟩

/-- A refused assignment has no effect on a number. -/
theorem C106_refused_partial {d : Option V} {s : Slot V} {g : Given V} (hs : s.param = none) (hg : (assign d s g).2 = false) : (assign d s g).1 = s := by
  obtain ⟨a, b⟩ := s
  cases hs
  cases g with
  | none => cases d with
    | none => rfl
    | some d => cases hg
  | number v => cases hg
  | param p => cases hg
  | other => rfl

example : (assign (none : Option Rat) ⟨4, none⟩ .none) = (⟨4, none⟩, false) := by decide +kernel

/-- `None` stands for the default of a new node: no limits. -/
theorem C106_none_partial (s : Slot F) : (assign nodeMinNone s .none).1 = newFlows.minFlow ∧ (assign nodeMaxNone s .none).1 = newFlows.maxFlow ∧ (assign aggMaxNone s .none).1 = newFlows.maxFlow := ⟨rfl, rfl, rfl⟩

/-- What fails: the lower limit of an aggregated node is 0 unless `None` is assigned, and minus infinity then. -/
theorem C106_none_fails (s : Slot F) : property (assign aggMinNone s .none).1 = .inl .negInf ∧ property newFlows.minFlow = .inl (.fin 0) := ⟨rfl, rfl⟩

/-! ## Flows committed at once -/

private theorem commit_get {flow : List Rat} {i j : Nat} {v : Rat} : (commit flow i v)[j]? = (flow[j]?).map fun x => if i = j then x + v else x := by
  unfold commit
  rw [List.getElem?_modify]
  rfl

/-- Committing the flows of all combinations at once is committing them one by one. -/
theorem C106_commit_all {flow value : List Rat} (h : flow.length = value.length) :
    commitAll flow value = some ((List.range flow.length).foldl (fun f i => commit f i (value.getD i 0)) flow) := by
  unfold commitAll
  rw [if_pos (by omega)]
  congr 1
  have key : ∀ (n : Nat) (j : Nat), ((List.range n).foldl (fun f i => commit f i (value.getD i 0)) flow)[j]? = (flow[j]?).map fun x => if j < n then x + value.getD j 0 else x := by
    intro n
    induction n with
    | zero => intro j; simp
    | succ n ih =>
      intro j
      rw [List.range_succ, List.foldl_append]
      simp only [List.foldl_cons, List.foldl_nil]
      rw [commit_get, ih j, Option.map_map]
      cases flow[j]? with
      | none => rfl
      | some x =>
        simp only [Option.map_some, Function.comp_apply]
        by_cases h1 : n = j
        · subst h1; simp
        · by_cases h2 : j < n
          · simp [h1, h2, Nat.lt_succ_of_lt h2]
          · simp [h1, h2, show ¬ j < n + 1 by omega]
  apply List.ext_getElem?
  intro j
  rw [key, List.getElem?_zipWith]
  by_cases hj : j < flow.length
  · have hj' : j < value.length := h ▸ hj
    simp [hj, hj']
  · simp [hj]

/-- At an end of a storage: what goes into the network is taken from the storage, what comes out is added, in every combination. -/
theorem C106_commit_ends {sign : Rat} {e : End} {value : List Rat} (h1 : e.own.length = value.length) (h2 : e.storage.length = value.length) :
    endCommitAll sign e value = some ((List.range value.length).foldl (fun e i => endCommit sign e i (value.getD i 0)) e) := by
  unfold endCommitAll
  rw [C106_commit_all h1, Option.bind_some, C106_commit_all (by simpa using h2), Option.map_some]
  congr 1
  have : ∀ (l : List Nat) (e : End), (∀ i ∈ l, i < value.length) → l.foldl (fun e i => endCommit sign e i (value.getD i 0)) e =
      ⟨l.foldl (fun f i => commit f i (value.getD i 0)) e.own, l.foldl (fun f i => commit f i ((value.map fun v => sign * v).getD i 0)) e.storage⟩ := by
    intro l
    induction l with
    | nil => intro e _; rfl
    | cons i l ih =>
      intro e hl
      have hi := hl i List.mem_cons_self
      simp only [List.foldl_cons]
      rw [ih _ fun j hj => hl j (List.mem_cons_of_mem _ hj)]
      have : (value.map fun v => sign * v).getD i 0 = sign * value.getD i 0 := by
        simp [List.getD, hi]
      rw [this]
      rfl
  rw [this _ _ fun i hi => List.mem_range.1 hi, h1, h2]

example : commitAll [1, 2] [10, 20] = some [11, 22] ∧ endCommitAll (-1) ⟨[0, 0], [5, 5]⟩ [1, 2] = some ⟨[1, 2], [4, 3]⟩ := by decide +kernel

end Verif.Attributes

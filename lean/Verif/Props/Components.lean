import Verif.Proof.Components

/-! # C01, C02: evaluation order of parameters and recorders -/

namespace Verif.Components

open Verif

/-- **C01 (order).** For every construction history whose declared dependencies are acyclic, the model's component
order visits every created component exactly once and always after everything it depends on. -/
theorem C01_order (ops : List Op) (g : Digraph) (hb : build ops = some g)
    (hac : ¬ ∃ c, Relation.TransGen (declaredDep ops.reverse) c c) :
    ∃ order, flatten g = .ok order ∧ IsEvalOrder (created ops) (declaredDep ops.reverse) order := by
  have I := build_inv ops g hb
  have hac' : ¬ g.Cyclic := fun h => hac ((cyclic_iff I).1 h)
  exact ⟨_, flatten_ok I hac', evalOrder I hac'⟩

/-- **C01 (cycles).** A history with a dependency cycle (including a self-dependency) is rejected. -/
theorem C01_cycle_rejected (ops : List Op) (g : Digraph) (hb : build ops = some g)
    (hc : ∃ c, Relation.TransGen (declaredDep ops.reverse) c c) :
    flatten g = .error .modelStructure := by
  have I := build_inv ops g hb
  unfold flatten
  rw [(Digraph.hasCycle_iff I.wf).2 ((cyclic_iff I).2 hc)]
  simp

/-- **C01 (values).** If every component computes its value from components it declared as dependencies, then after
the value-calculation phase all stored values are mutually consistent: each equals what its rule gives on the
*current* values; and the result does not depend on the values left over from the previous timestep. -/
theorem C01_values (ops : List Op) (g : Digraph) (hb : build ops = some g) (order : List Nat)
    (hord : flatten g = .ok order) {β : Type} (f : Nat → (Nat → β) → β)
    (hf : ReadsOnly (declaredDep ops.reverse) f) (stale : Nat → β) :
    (∀ c ∈ created ops, calcValues f order stale c = f c (calcValues f order stale)) ∧
    (∀ stale', ∀ c ∈ created ops, calcValues f order stale' c = calcValues f order stale c) := by
  have hac : ¬ ∃ c, Relation.TransGen (declaredDep ops.reverse) c c := by
    intro hc; rw [C01_cycle_rejected ops g hb hc] at hord; cases hord
  obtain ⟨order', ho1, ho⟩ := C01_order ops g hb hac
  rw [hord] at ho1; cases ho1
  refine ⟨calcValues_consistent ho f hf stale, fun stale' => ?_⟩
  exact consistent_unique ho f hf _ _ (calcValues_consistent ho f hf stale') (calcValues_consistent ho f hf stale)

/-- **C01 (order independence).** Two construction histories that create the same components and declare the same
dependencies (in whatever order) compute the same values. -/
theorem C01_construction_order_irrelevant (ops ops' : List Op) (g g' : Digraph) (hb : build ops = some g)
    (hb' : build ops' = some g') (order order' : List Nat) (ho : flatten g = .ok order)
    (ho' : flatten g' = .ok order')
    (hc : ∀ c, c ∈ created ops ↔ c ∈ created ops')
    (hd : ∀ x d, declaredDep ops.reverse x d ↔ declaredDep ops'.reverse x d)
    {β : Type} (f : Nat → (Nat → β) → β) (hf : ReadsOnly (declaredDep ops.reverse) f) (stale stale' : Nat → β) :
    ∀ c ∈ created ops, calcValues f order stale c = calcValues f order' stale' c := by
  have hac : ¬ ∃ c, Relation.TransGen (declaredDep ops.reverse) c c := by
    intro h; rw [C01_cycle_rejected ops g hb h] at ho; cases ho
  obtain ⟨o, ho1, hO⟩ := C01_order ops g hb hac
  rw [ho] at ho1; cases ho1
  have hf' : ReadsOnly (declaredDep ops'.reverse) f := by
    intro c v w h; exact hf c v w (fun d hcd => h d ((hd c d).1 hcd))
  refine consistent_unique hO f hf _ _ (C01_values ops g hb order ho f hf stale).1 ?_
  intro c hcc
  exact (C01_values ops' g' hb' order' ho' f hf' stale').1 c ((hc c).1 hcc)

/-- A diamond of dependencies: 4 needs 2 and 3, both need 1. -/
def diamond : List Op :=
  [.create 4, .create 2, .create 3, .create 1, .addDep 4 2, .addDep 4 3, .addDep 2 1, .addDep 3 1]

/-- The hypotheses of `C01_order`/`C01_values` are satisfiable (non-trivial graph, accepted). -/
example : ∃ g, build diamond = some g ∧ flatten g = .ok [1, 3, 2, 4] := by
  refine ⟨⟨[0, 4, 2, 3, 1], [(0, 4), (0, 2), (0, 3), (0, 1), (2, 4), (3, 4), (1, 2), (1, 3)]⟩,
    by decide +kernel, ?_⟩
  rw [flatten, if_neg (by decide +kernel), if_neg (by decide +kernel)]
  simp [dfsPostorder, dfsLoop, Digraph.adj, root]

/-- The hypotheses of `C01_cycle_rejected` are satisfiable. -/
example : ((build [.create 1, .create 2, .addDep 1 2, .addDep 2 1]).map flatten) = some (.error .modelStructure) := by
  decide +kernel

/-! ## C02 -/

/-- What the users of a multiple-threshold parameter rely on (full statement of C02 for one threshold parameter `t`
and a multiple-threshold parameter `m` over a constant-valued input): whatever was created before, after the value
calculation the stored index of `m` is the index computed from the stored (i.e. current) value of `t`.
`tv` is the current value of the threshold parameter, `pv` that of the compared parameter. -/
def C02_statement : Prop :=
  ∀ (t m : Nat) (ops : List Op) (g : Digraph) (order : List Nat), t ≠ m →
    build (ops ++ multipleThresholdInit m [t]) = some g → flatten g = .ok order → t ∈ created ops →
    ∀ (pv tv : Int) (stale : Nat → Int),
      let f : Nat → (Nat → Int) → Int := fun c v => if c = m then (multipleThresholdIndex pv [v t] : Int) else tv
      calcValues f order stale m = (multipleThresholdIndex pv [calcValues f order stale t] : Int)

/-- **C02 fails.** A threshold parameter created before the multiple-threshold parameter is evaluated *after* it, so
the index is computed from the threshold's value of the previous timestep. -/
theorem C02_fails : ¬ C02_statement := by
  intro h
  have hb : build ([.create 1] ++ multipleThresholdInit 2 [1]) = some ⟨[0, 1, 2], [(0, 1), (0, 2)]⟩ := by
    decide +kernel
  have hfl : flatten ⟨[0, 1, 2], [(0, 1), (0, 2)]⟩ = .ok [2, 1] := by
    rw [flatten, if_neg (by decide +kernel), if_neg (by decide +kernel)]
    simp [dfsPostorder, dfsLoop, Digraph.adj, root]
  have := h 1 2 [.create 1] _ _ (by decide) hb hfl (by decide) 5 0 (fun _ => 10)
  revert this
  decide +kernel

/-- **C02, partial.** The value is right whenever the threshold is also registered as a dependency (what every other
parameter class does in its constructor); missing with respect to C02: the two multiple-threshold classes
do not register their thresholds. -/
theorem C02_partial (self : Nat) (children : List Nat) (ops : List Op) (g : Digraph) (order : List Nat)
    (hb : build (ops ++ registeringInit self children) = some g) (ho : flatten g = .ok order)
    {β : Type} (f : Nat → (Nat → β) → β) (stale : Nat → β) :
    ∀ d ∈ children, ∃ before after, order = before ++ self :: after ∧ d ∈ before ∧
      calcValues f order stale d = calcValues f before stale d := by
  have hac : ¬ ∃ c, Relation.TransGen (declaredDep (ops ++ registeringInit self children).reverse) c c := by
    intro h; rw [C01_cycle_rejected _ g hb h] at ho; cases ho
  obtain ⟨o, ho1, hO⟩ := C01_order _ g hb hac
  rw [ho] at ho1; cases ho1
  intro d hd
  have hself : self ∈ order := by
    rw [hO.all]
    simp [created, registeringInit, List.filterMap_append]
  obtain ⟨before, after, hlr⟩ := List.append_of_mem hself
  have hdep : declaredDep (ops ++ registeringInit self children).reverse self d := by
    have : ∀ (cs : List Nat) (older : List Op), d ∈ cs →
        declaredDep ((cs.map (fun d => Op.addDep self d)).reverse ++ older) self d := by
      intro cs
      induction cs using List.reverseRecOn with
      | nil => simp
      | append_singleton cs c ih =>
        intro older hmem
        simp only [List.map_append, List.map_cons, List.map_nil, List.reverse_append, List.reverse_cons,
          List.reverse_nil, List.nil_append, List.cons_append, declaredDep]
        rcases List.mem_append.1 hmem with h | h
        · exact .inr (ih older h)
        · simp at h; exact .inl ⟨trivial, h⟩
    simp only [registeringInit, List.reverse_append, List.reverse_cons, List.append_assoc]
    exact this children _ hd
  have hdb := hO.deps_first before self after hlr d (.single hdep)
  refine ⟨before, after, hlr, hdb, ?_⟩
  have hnd := hO.once
  rw [hlr] at hnd
  have hda : d ∉ self :: after := fun h => (List.nodup_append.1 hnd).2.2 d hdb d h rfl
  rw [hlr, calcValues_append, calcValues_not_mem _ _ _ _ hda]

/-- Satisfiable: an aggregated parameter over two existing parameters. -/
example : ∃ g, build ([.create 1, .create 2] ++ registeringInit 3 [1, 2]) = some g ∧
    flatten g = .ok [2, 1, 3] := by
  refine ⟨⟨[0, 1, 2, 3], [(0, 1), (0, 2), (0, 3), (1, 3), (2, 3)]⟩, by decide +kernel, ?_⟩
  rw [flatten, if_neg (by decide +kernel), if_neg (by decide +kernel)]
  simp [dfsPostorder, dfsLoop, Digraph.adj, root]

end Verif.Components

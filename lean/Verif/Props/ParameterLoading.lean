import Verif.Proof.ParameterLoading
/-!
# C105: a parameter in a document is the parameter that its constructor makes

Theorems about `Model/ParameterLoading.lean`, with the tables of `Spec/ParameterLoading.lean`.
-/

namespace Verif.ParameterLoading

/-- Loading a parameter from a document is calling its constructor with the arguments that the entries stand for: the same parameters are accepted, with the same attributes. -/
theorem C105_same {w : World} {c : Class} {t : Table} {doc : Kw} (h : Documented c t) (hn : (doc.map Prod.fst).Nodup) : fromDocument w c doc = (resolve w t doc).bind (construct c) :=
  plain_document (documented_agrees h).1 (documented_agrees h).2 hn

/-- A world for the examples. -/
def someWorld : World := ⟨["reservoir", "river"], ["rule", "demand"], ["flows", "levels"], ["climate"]⟩

example : fromDocument someWorld storageThreshold [("storage_node", .one (.text "reservoir")), ("threshold", .one (.text "rule")), ("ratchet", .one (.flag true)), ("predicate", .one (.text ">"))] =
    some [("is_variable", .one (.flag false)), ("comment", .one .null), ("threshold", .one (.param (.named "rule"))), ("values", .one .null), ("predicate", .one (.text "GT")),
      ("ratchet", .one (.flag true)), ("storage", .one (.node "reservoir"))] ∧
    (([("storage_node", Arg.one (.text "reservoir")), ("threshold", .one (.text "rule")), ("ratchet", .one (.flag true)), ("predicate", .one (.text ">"))] : Kw).map Prod.fst).Nodup := by
  decide +kernel

/-- The same with two names for a list: `IndexedArrayParameter`. -/
example : fromDocument someWorld indexedArray [("parameters", .many [.num 2, .text "demand"]), ("index_parameter", .one (.text "rule"))] =
    some [("is_variable", .one (.flag false)), ("comment", .one .null), ("index_parameter", .one (.param (.named "rule"))), ("params", .many [.param (.const 2), .param (.named "demand")])] := by
  decide +kernel

/-- A name that is not in the model, an unknown entry, and a missing entry are refused. -/
theorem C105_refused {w : World} {c : Class} {t : Table} {doc : Kw} (h : Documented c t) (hn : (doc.map Prod.fst).Nodup) (k : String) (v : Arg)
    (hb : ((k, v) ∈ doc ∧ ((t.entry k).bind fun m => stands w m.2 v) = none) ∨ ((k, v) ∈ doc ∧ t.entry k = some (k, .plain) ∧ c.args.lookup k = none) ∨
      (c.args.lookup k = some none ∧ ∀ e ∈ doc, (t.entry e.1).map Prod.fst ≠ some k)) : fromDocument w c doc = none :=
  document_refused (documented_agrees h).1 (documented_agrees h).2 hn k v hb

example : fromDocument someWorld negative [("parameter", .one (.text "dmeand"))] = none ∧ fromDocument someWorld negative [("parameter", .one (.text "demand")), ("treshold", .one (.num 1))] = none ∧
    fromDocument someWorld negative [] = none ∧ (fromDocument someWorld negative [("parameter", .one (.text "demand"))]).isSome = true := by decide +kernel

/-! ## Control curves with values -/

private theorem valuesOr_none {kw : Kw} {c : Class} {n : Nat} {o : Option Obj} (ho : o = none) (hv : c.arg kw "values" = .one .null) (hp : c.arg kw "parameters" = .one .null) :
    valuesOr n o (c.arg kw) = none := by
  unfold valuesOr
  rw [hv, hp, ho]

/-- The same for the three control curve parameters with values, if the document has control curves, and not both `values` and `parameters`. -/
theorem C105_curves_partial {w : World} {c : Class} {doc : Kw} (hc : (c = controlCurve ∨ c = interpolated) ∨ c = piecewise) (hn : (doc.map Prod.fst).Nodup)
    (h1 : has doc "control_curve" ∨ has doc "control_curves") (h2 : ¬(has doc "values" = true ∧ has doc "parameters" = true)) :
    fromDocument w c doc = (resolve w (if c.steps.length = 4 then curveTable else curveTable.dropLast) doc).bind (construct c) := by
  have hcs : curvesStep.found doc ≠ none := by
    intro hf
    have := found_none (s := curvesStep) rfl hf
    rcases h1 with h1 | h1
    · rw [this _ (by decide +kernel)] at h1; cases h1
    · rw [this _ (by decide +kernel)] at h1; cases h1
  rcases hc with (rfl | rfl) | rfl
  · have hA : Agrees controlCurve curveTable :=
      ⟨by decide +kernel, by decide +kernel, by decide +kernel, by decide +kernel, by decide +kernel, by decide +kernel, by decide +kernel, by decide +kernel⟩
    refine agrees_document hA hn ?_ ?_ ?_
    · intro s hs hf v hv
      simp only [controlCurve, List.mem_cons, List.not_mem_nil, or_false] at hs
      rcases hs with rfl | rfl | rfl | rfl
      · exact absurd hf hcs
      · unfold Step.take at hv
        simp only [hf] at hv
        cases hv
      · unfold Step.take at hv
        simp only [hf] at hv
        cases hv
        decide +kernel
      · have : some (Arg.one .null) = some v := by
          unfold Step.take at hv
          simp only [hf, ite_self] at hv
          exact hv
        cases this
        decide +kernel
    · intro s hs hb n hn'
      simp only [controlCurve, List.mem_cons, List.not_mem_nil, or_false] at hs
      rcases hs with rfl | rfl | rfl | rfl
      · cases hb
      · cases hb
      · cases hb
      · simp only [List.any_cons, List.any_nil, Bool.or_false] at hb
        simp only [Step.names, List.map_cons, List.map_nil, List.mem_singleton] at hn'
        subst hn'
        exact Bool.eq_false_iff.2 fun hp => h2 ⟨hb, hp⟩
    · intro s hs ht hf kw hkw
      simp only [controlCurve, List.mem_cons, List.not_mem_nil, or_false] at hs
      rcases hs with rfl | rfl | rfl | rfl
      · exact absurd hf hcs
      · exact construct_required (k := "storage_node") (by decide +kernel) (not_found hA (s := storageStep) (by simp [controlCurve]) (found_none rfl hf) hkw)
      · unfold Step.take at ht
        simp only [hf] at ht
        cases ht
      · unfold Step.take at ht
        simp only [hf, ite_self] at ht
        cases ht
  · have hA : Agrees interpolated curveTable :=
      ⟨by decide +kernel, by decide +kernel, by decide +kernel, by decide +kernel, by decide +kernel, by decide +kernel, by decide +kernel, by decide +kernel⟩
    refine agrees_document hA hn ?_ ?_ ?_
    · intro s hs hf v hv
      simp only [interpolated, List.mem_cons, List.not_mem_nil, or_false] at hs
      rcases hs with rfl | rfl | rfl | rfl
      · exact absurd hf hcs
      · unfold Step.take at hv
        simp only [hf] at hv
        cases hv
      · unfold Step.take at hv
        simp only [hf] at hv
        cases hv
        decide +kernel
      · have : some (Arg.one .null) = some v := by
          unfold Step.take at hv
          simp only [hf] at hv
          split at hv
          · exact hv
          · cases hv
        cases this
        decide +kernel
    · intro s hs hb n hn'
      simp only [interpolated, List.mem_cons, List.not_mem_nil, or_false] at hs
      rcases hs with rfl | rfl | rfl | rfl
      · cases hb
      · cases hb
      · cases hb
      · simp only [List.any_cons, List.any_nil, Bool.or_false] at hb
        simp only [Step.names, List.map_cons, List.map_nil, List.mem_singleton] at hn'
        subst hn'
        exact Bool.eq_false_iff.2 fun hp => h2 ⟨hp, hb⟩
    · intro s hs ht hf kw hkw
      simp only [interpolated, List.mem_cons, List.not_mem_nil, or_false] at hs
      rcases hs with rfl | rfl | rfl | rfl
      · exact absurd hf hcs
      · exact construct_required (k := "storage_node") (by decide +kernel) (not_found hA (s := storageStep) (by simp [interpolated]) (found_none rfl hf) hkw)
      · unfold Step.take at ht
        simp only [hf] at ht
        cases ht
      · -- neither `values` nor `parameters`
        have hbl : has doc "parameters" = false := by
          unfold Step.take at ht
          simp only [hf, List.any_cons, List.any_nil, Bool.or_false] at ht
          cases hb : has doc "parameters" with
          | false => rfl
          | true => rw [hb] at ht; cases ht
        have hv : ∀ n ∈ Step.names ⟨"values", [("values", .plain)], ["parameters"], none⟩, has doc n = false :=
          found_none (by simp [hbl]) hf
        have e1 : interpolated.arg kw "values" = .one .null := by
          unfold Class.arg
          rw [lookup_none (not_found hA (s := ⟨"values", [("values", .plain)], ["parameters"], none⟩) (by simp [interpolated]) hv hkw)]
          decide +kernel
        have e2 : interpolated.arg kw "parameters" = .one .null := by
          unfold Class.arg
          rw [lookup_none (not_found hA (s := ⟨"parameters", [("parameters", .params)], [], some (.one .null)⟩) (by simp [interpolated])
            (by intro n hn'; simp only [Step.names, List.map_cons, List.map_nil, List.mem_singleton] at hn'; subst hn'; exact hbl) hkw)]
          decide +kernel
        unfold construct
        split
        · exact seq_none (f := valuesOr (curveCount (interpolated.arg kw) + 2) none) (by simp) (valuesOr_none rfl e1 e2)
        · rfl
  · have hA : Agrees piecewise curveTable.dropLast :=
      ⟨by decide +kernel, by decide +kernel, by decide +kernel, by decide +kernel, by decide +kernel, by decide +kernel, by decide +kernel, by decide +kernel⟩
    refine agrees_document hA hn ?_ ?_ ?_
    · intro s hs hf v hv
      simp only [piecewise, List.mem_cons, List.not_mem_nil, or_false] at hs
      rcases hs with rfl | rfl | rfl
      · exact absurd hf hcs
      · unfold Step.take at hv
        simp only [hf] at hv
        cases hv
      · unfold Step.take at hv
        simp only [hf] at hv
        cases hv
    · intro s hs hb n hn'
      simp only [piecewise, List.mem_cons, List.not_mem_nil, or_false] at hs
      rcases hs with rfl | rfl | rfl <;> cases hb
    · intro s hs ht hf kw hkw
      simp only [piecewise, List.mem_cons, List.not_mem_nil, or_false] at hs
      rcases hs with rfl | rfl | rfl
      · exact absurd hf hcs
      · exact construct_required (k := "storage_node") (by decide +kernel) (not_found hA (s := storageStep) (by simp [piecewise]) (found_none rfl hf) hkw)
      · exact construct_required (k := "values") (by decide +kernel)
          (not_found hA (s := ⟨"values", [("values", .plain)], [], none⟩) (by simp [piecewise]) (found_none rfl hf) hkw)

example : fromDocument someWorld controlCurve [("storage_node", .one (.text "reservoir")), ("control_curve", .one (.num (1 / 2))), ("values", .many [.num 3, .num 5])] =
    some [("is_variable", .one (.flag false)), ("comment", .one .null), ("control_curves", .many [.param (.const (1 / 2))]), ("storage_node", .one (.node "reservoir")), ("values", .many [.num 3, .num 5]),
      ("variable_indices", .one .null), ("upper_bounds", .one .null), ("lower_bounds", .one .null)] := by decide +kernel

/-- What is missing: a document without control curves is accepted, and the parameter has one value for all volumes; the constructor needs `control_curves`. -/
theorem C105_no_curves_fails : (fromDocument someWorld controlCurve [("storage_node", .one (.text "reservoir")), ("values", .many [.num 3])]).isSome = true ∧
    (resolve someWorld curveTable [("storage_node", .one (.text "reservoir")), ("values", .many [.num 3])]).bind (construct controlCurve) = none := by decide +kernel

/-- A document with both `values` and `parameters` is
refused, while the constructor takes the values. -/
theorem C105_both_fails : fromDocument someWorld controlCurve [("storage_node", .one (.text "reservoir")), ("control_curve", .one (.text "rule")), ("values", .many [.num 3, .num 5]),
      ("parameters", .many [.text "rule", .text "demand"])] = none ∧
    ((resolve someWorld curveTable [("storage_node", .one (.text "reservoir")), ("control_curve", .one (.text "rule")), ("values", .many [.num 3, .num 5]),
      ("parameters", .many [.text "rule", .text "demand"])]).bind (construct controlCurve)).isSome = true := by decide +kernel

/-- `control_curve` is an entry of the other control curve parameters, not of `ControlCurveIndexParameter`. -/
theorem C105_index_curve_fails : fromDocument someWorld curveIndex [("storage_node", .one (.text "reservoir")), ("control_curve", .one (.text "rule"))] = none ∧
    (fromDocument someWorld curveIndex [("storage_node", .one (.text "reservoir")), ("control_curves", .many [.text "rule"])]).isSome = true := by decide +kernel

/-- Numbers stand for constants among the control curves, and are refused among the parameters of the same parameter. -/
theorem C105_numbers_fails (q : Rat) (p : String) (hp : p ∈ someWorld.params) :
    (fromDocument someWorld controlCurve [("storage_node", .one (.text "reservoir")), ("control_curves", .many [.num q]), ("parameters", .many [.text p, .text p])]).isSome = true ∧
    fromDocument someWorld controlCurve [("storage_node", .one (.text "reservoir")), ("control_curves", .many [.num q]), ("parameters", .many [.text p, .num q])] = none := by
  simp only [someWorld, List.mem_cons, List.not_mem_nil, or_false] at hp
  rcases hp with rfl | rfl <;> exact ⟨rfl, rfl⟩

/-- A number given to the constructor of `AggregatedParameter` is kept as it is; in a document it becomes a `ConstantParameter`. -/
theorem C105_aggregated_fails : (fromDocument someWorld aggregated [("parameters", .many [.num 2]), ("agg_func", .one (.text "sum"))]).bind (fun o => o.lookup "parameters") = some (.many [.param (.const 2)]) ∧
    (construct aggregated [("parameters", .many [.num 2]), ("agg_func", .one (.text "sum"))]).bind (fun o => o.lookup "parameters") = some (.many [.num 2]) := by decide +kernel

/-- **C105 fails for `TimestepLicense`**: it is registered for documents, but whatever a document says it cannot be loaded, although it can be made with the same arguments. -/
theorem C105_timestep_licence_fails : (∀ (w : World) (doc : Kw), fromDocument w timestepLicence doc = none) ∧
    (construct timestepLicence [("node", .one (.node "river")), ("amount", .one (.num 5))]).isSome = true ∧
    (fromDocument someWorld licence [("node", .one (.text "reservoir")), ("amount", .one (.num 5))]).isSome = true := by
  refine ⟨?_, by decide +kernel, by decide +kernel⟩
  intro w doc
  unfold fromDocument
  cases h : timestepLicence.steps.mapM fun s : Step => (s.take w doc).map fun v => (s.key, v) with
  | none => rfl
  | some passed =>
    have hp : ∃ v, passed = [("values", v)] := by
      simp only [timestepLicence, List.mapM_cons, List.mapM_nil, Option.pure_def, Option.bind_eq_bind, Option.bind_some, Option.bind_eq_some_iff, Option.map_eq_some_iff] at h
      obtain ⟨a, ⟨v, -, rfl⟩, h⟩ := h
      exact ⟨v, by simpa using h.symm⟩
    obtain ⟨v, rfl⟩ := hp
    simp [construct, Class.callable, timestepLicence, base, req]

/-- `null` is accepted in the place of the parameter that is to be negated, compared, shifted or divided. -/
theorem C105_null_fails (w : World) : ((fromDocument w negative [("parameter", .one .null)]).bind fun o => o.lookup "parameter") = some (.one .null) ∧
    ((fromDocument w maxMin [("parameter", .one .null)]).bind fun o => o.lookup "parameter") = some (.one .null) ∧
    ((fromDocument w division [("numerator", .one .null), ("denominator", .one .null)]).bind fun o => o.lookup "denominator") = some (.one .null) := ⟨rfl, rfl, rfl⟩

/-- A number is refused as the target, the least or the greatest flow of `HydropowerTargetParameter`; so it is for the parameters above. -/
theorem C105_hydropower_fails (w : World) (q : Rat) : fromDocument w hydropower [("target", .one (.num q))] = none ∧
    fromDocument someWorld hydropower [("target", .one (.text "demand")), ("max_flow", .one (.num q))] = none ∧ fromDocument w negative [("parameter", .one (.num q))] = none ∧
    (fromDocument someWorld hydropower [("target", .one (.text "demand")), ("max_flow", .one (.text "rule"))]).isSome = true := ⟨rfl, rfl, rfl, by decide +kernel⟩

/-- The two values of a threshold parameter may be of any number. -/
theorem C105_threshold_values_fails (w : World) (qs : List Rat) :
    ((fromDocument w yearThreshold [("threshold", .one (.num 2000)), ("values", .many (qs.map .num))]).bind fun o => o.lookup "values") = some (.many (qs.map .num)) := by
  have hq : numbers (.many (qs.map .num)) = some (qs.map .num) := by
    unfold numbers
    induction qs with
    | nil => rfl
    | cons q qs ih =>
      simp only [List.map_cons, List.mapM_cons] at ih ⊢
      rw [ih]
      rfl
  rw [C105_same .yearThreshold (by simp)]
  have hr : resolve w [("threshold", "threshold", .param)] [("threshold", .one (.num 2000)), ("values", .many (qs.map .num))] =
      some [("threshold", .one (.num 2000)), ("values", .many (qs.map .num))] := rfl
  rw [hr, Option.bind_some]
  have ht : attr "values" thresholdValues (yearThreshold.arg [("threshold", .one (.num 2000)), ("values", .many (qs.map .num))]) = some [("values", .many (qs.map .num))] := by
    show ((numbers (.many (qs.map .num))).map Arg.many).map _ = _
    rw [hq]
    rfl
  have hc : construct yearThreshold [("threshold", .one (.num 2000)), ("values", .many (qs.map .num))] =
      some [("is_variable", .one (.flag false)), ("comment", .one .null), ("threshold", .one (.num 2000)), ("values", .many (qs.map .num)), ("predicate", .one (.text "LT")), ("ratchet", .one (.flag false))] := by
    have h1 : yearThreshold.callable [("threshold", .one (.num 2000)), ("values", .many (qs.map .num))] = true := by
      rw [callable_iff]
      refine ⟨by simp, ?_, ?_⟩
      · intro e he
        simp only [List.mem_cons, List.not_mem_nil, or_false] at he
        rcases he with rfl | rfl
        · exact ⟨req "threshold", by simp [yearThreshold, thresholdArgs], rfl⟩
        · exact ⟨opt "values" .null, by simp [yearThreshold, thresholdArgs], rfl⟩
      · intro a ha h0
        simp only [yearThreshold, thresholdArgs, base, opt, req, List.cons_append, List.nil_append, List.mem_cons, List.not_mem_nil, or_false] at ha
        rcases ha with rfl | rfl | rfl | rfl | rfl | rfl
        · cases h0
        · cases h0
        · exact ⟨.one (.num 2000), by simp⟩
        · cases h0
        · cases h0
        · cases h0
    unfold construct
    rw [h1]
    show thresholdAttrs _ = _
    unfold thresholdAttrs seq
    simp only [List.mapM_cons, List.mapM_nil, ht]
    rfl
  rw [hc]
  rfl

/-! ## The numbers of values -/

private theorem seq_some {fs : List ((String → Arg) → Option Obj)} {a : String → Arg} {o : Obj} (h : seq fs a = some o) {f : (String → Arg) → Option Obj} (hf : f ∈ fs) :
    ∃ x, f a = some x ∧ ∀ e ∈ x, e ∈ o := by
  obtain ⟨l, hl, rfl⟩ := Option.map_eq_some_iff.1 h
  obtain ⟨x, hx, hfx⟩ := forall₂_mem_left (mapM_forall₂.1 hl) hf
  exact ⟨x, hfx, fun e he => List.mem_flatten.2 ⟨x, hx, he⟩⟩

private theorem baseCurve_some {a : String → Arg} {x : Obj} (h : baseCurve a = some x) : ∃ cs, curves (a "control_curves") = some cs ∧ ("control_curves", Arg.many cs) ∈ x ∧
    ∃ n, ("storage_node", Arg.one (.node n)) ∈ x := by
  unfold baseCurve at h
  obtain ⟨cs, hcs, h⟩ := Option.bind_eq_some_iff.1 h
  split at h
  · rename_i n _
    cases h
    exact ⟨cs, hcs, by simp, n, by simp⟩
  · cases h

private theorem valuesOr_some {n : Nat} {o : Option Obj} {a : String → Arg} {x : Obj} (h : valuesOr n o a = some x) :
    (o = some x) ∨ (∃ vs, ("values", Arg.many vs) ∈ x ∧ vs.length = n) ∨ ∃ ps, ("parameters", Arg.many ps) ∈ x ∧ ps.length = n := by
  unfold valuesOr at h
  split at h
  · split at h
    · exact Or.inl h
    · obtain ⟨ps, _, h⟩ := Option.bind_eq_some_iff.1 h
      split at h
      · rename_i hl
        cases h
        exact Or.inr (Or.inr ⟨ps, by simp, hl⟩)
      · cases h
  · obtain ⟨vs, _, h⟩ := Option.bind_eq_some_iff.1 h
    split at h
    · rename_i hl
      cases h
      exact Or.inr (Or.inl ⟨vs, by simp, hl⟩)
    · cases h

private theorem construct_some {c : Class} {kw : Kw} {o : Obj} (h : construct c kw = some o) : c.body (c.arg kw) = some o := by
  unfold construct at h
  split at h
  · exact h
  · cases h

/-- An accepted `ControlCurveParameter` has a storage node and one value, or one parameter, more than control curves. -/
theorem C105_levels {kw : Kw} {o : Obj} (h : construct controlCurve kw = some o) : ∃ cs, ("control_curves", Arg.many cs) ∈ o ∧ (∃ n, ("storage_node", Arg.one (.node n)) ∈ o) ∧
    ((∃ vs, ("values", Arg.many vs) ∈ o ∧ vs.length = cs.length + 1) ∨ ∃ ps, ("parameters", Arg.many ps) ∈ o ∧ ps.length = cs.length + 1) := by
  have h := construct_some h
  obtain ⟨x, hx, hxo⟩ := seq_some h (f := baseCurve) (by simp)
  obtain ⟨cs, hcs, h1, n, h2⟩ := baseCurve_some hx
  obtain ⟨y, hy, hyo⟩ := seq_some h (f := valuesOr (curveCount (controlCurve.arg kw) + 1)
    (some [("values", .many ((List.range (curveCount (controlCurve.arg kw) + 1)).map fun i => .num i))])) (by simp)
  have hcc : curveCount (controlCurve.arg kw) = cs.length := by unfold curveCount; rw [hcs]; rfl
  refine ⟨cs, hxo _ h1, ⟨n, hxo _ h2⟩, ?_⟩
  rw [hcc] at hy
  rcases valuesOr_some hy with hy | ⟨vs, hm, hl⟩ | ⟨ps, hm, hl⟩
  · cases hy
    exact Or.inl ⟨_, hyo _ (List.mem_singleton.2 rfl), by simp⟩
  · exact Or.inl ⟨vs, hyo _ hm, hl⟩
  · exact Or.inr ⟨ps, hyo _ hm, hl⟩

/-- An accepted `ControlCurveInterpolatedParameter` has two more. -/
theorem C105_interpolated_levels {kw : Kw} {o : Obj} (h : construct interpolated kw = some o) : ∃ cs, ("control_curves", Arg.many cs) ∈ o ∧ (∃ n, ("storage_node", Arg.one (.node n)) ∈ o) ∧
    ((∃ vs, ("values", Arg.many vs) ∈ o ∧ vs.length = cs.length + 2) ∨ ∃ ps, ("parameters", Arg.many ps) ∈ o ∧ ps.length = cs.length + 2) := by
  have h := construct_some h
  obtain ⟨x, hx, hxo⟩ := seq_some h (f := baseCurve) (by simp)
  obtain ⟨cs, hcs, h1, n, h2⟩ := baseCurve_some hx
  obtain ⟨y, hy, hyo⟩ := seq_some h (f := valuesOr (curveCount (interpolated.arg kw) + 2) none) (by simp)
  have hcc : curveCount (interpolated.arg kw) = cs.length := by unfold curveCount; rw [hcs]; rfl
  refine ⟨cs, hxo _ h1, ⟨n, hxo _ h2⟩, ?_⟩
  rw [hcc] at hy
  rcases valuesOr_some hy with hy | ⟨vs, hm, hl⟩ | ⟨ps, hm, hl⟩
  · cases hy
  · exact Or.inl ⟨vs, hyo _ hm, hl⟩
  · exact Or.inr ⟨ps, hyo _ hm, hl⟩

/-- An accepted `ControlCurvePiecewiseInterpolatedParameter` has one pair more than curves. -/
theorem C105_piecewise_levels {kw : Kw} {o : Obj} (h : construct piecewise kw = some o) : ∃ cs rs, ("control_curves", Arg.many cs) ∈ o ∧ ("values", Arg.rows rs) ∈ o ∧
    rs.length = cs.length + 1 ∧ ∀ r ∈ rs, r.length = 2 := by
  have h := construct_some h
  obtain ⟨x, hx, hxo⟩ := seq_some h (f := baseCurve) (by simp)
  obtain ⟨cs, hcs, h1, n, h2⟩ := baseCurve_some hx
  obtain ⟨y, hy, hyo⟩ := seq_some h (f := pairs (curveCount (piecewise.arg kw) + 1)) (by simp)
  have hcc : curveCount (piecewise.arg kw) = cs.length := by unfold curveCount; rw [hcs]; rfl
  rw [hcc] at hy
  unfold pairs at hy
  split at hy
  · rename_i rs _
    split at hy
    · rename_i hl
      cases hy
      exact ⟨cs, rs, hxo _ h1, hyo _ (List.mem_singleton.2 rfl), hl⟩
    · cases hy
  · cases hy

example : (construct interpolated [("storage_node", .one (.node "reservoir")), ("control_curves", .many [.num (1 / 2)]), ("values", .many [.num 1, .num 2, .num 3])]).isSome = true ∧
    construct interpolated [("storage_node", .one (.node "reservoir")), ("control_curves", .many [.num (1 / 2)]), ("values", .many [.num 1, .num 2])] = none ∧
    (construct piecewise [("storage_node", .one (.node "reservoir")), ("control_curves", .many [.num (1 / 2)]), ("values", .rows [[1, 2], [3, 4]])]).isSome = true := by decide +kernel

/-! ## What is left in the model -/

/-- An accepted construction adds one component with the given name; one that is refused for its arguments, or for its name, changes nothing. -/
theorem C105_unchanged_partial {m : List (Option String)} {c : Class} {name : Option String} {kw : Kw} :
    ((create m c name kw).2.isSome = true → (create m c name kw).1 = m ++ [name] ∧ construct c kw = (create m c name kw).2) ∧
      (c.callable kw = false ∨ c.early (c.arg kw) = false ∨ (name ≠ none ∧ name ∈ m) → create m c name kw = (m, none)) := by
  constructor
  · intro h
    unfold create at h ⊢
    unfold construct
    split at h
    · rename_i hc
      rw [if_pos hc, if_pos hc]
      split at h
      · cases h
      · rename_i hn
        rw [if_neg hn]
        exact ⟨rfl, rfl⟩
    · cases h
  · intro h
    unfold create
    rcases h with h | h | ⟨h1, h2⟩
    · rw [h]; rfl
    · rw [h, Bool.and_false]; rfl
    · have h3 : (name.isSome && m.contains name) = true := by
        rw [Bool.and_eq_true]
        exact ⟨Option.isSome_iff_ne_none.2 h1, List.elem_eq_true_of_mem h2⟩
      rw [h3]
      split <;> rfl

/-- Names of components stay different from each other. -/
theorem C105_names {m : List (Option String)} {c : Class} {name : Option String} {kw : Kw} (h : (m.filter Option.isSome).Nodup) : ((create m c name kw).1.filter Option.isSome).Nodup := by
  unfold create
  split
  · split
    · exact h
    · rename_i hn
      rw [List.filter_append]
      cases name with
      | none => simpa using h
      | some n =>
        have hm : some n ∉ m := by
          intro hm
          exact hn (by simpa using hm)
        have : ([some n].filter Option.isSome) = [some n] := rfl
        rw [this, List.nodup_append']
        refine ⟨h, List.nodup_singleton _, ?_⟩
        intro x hx hx'
        rw [List.mem_singleton.1 hx'] at hx
        exact hm (List.mem_filter.1 hx).1
  · exact h

/-- What is missing: a construction that is refused for the values of its arguments leaves a component with its name; the corrected construction is then refused because of the name. -/
theorem C105_used_name_fails : ∃ (m : List (Option String)) (bad good : Kw),
    (create [] controlCurve (some "release") bad) = (m, none) ∧ some "release" ∈ m ∧
      (create m controlCurve (some "release") good) = (m, none) ∧ (create [] controlCurve (some "release") good).2.isSome = true :=
  ⟨[some "release"], [("storage_node", .one (.node "reservoir")), ("control_curves", .many [.num (1 / 2)]), ("values", .many [.num 1])],
    [("storage_node", .one (.node "reservoir")), ("control_curves", .many [.num (1 / 2)]), ("values", .many [.num 1, .num 2])], by decide +kernel⟩

example : create [some "a"] controlCurve (some "release") [("storage_node", .one (.node "reservoir")), ("values", .many [.num 1])] = ([some "a"], none) ∧
    (create [some "a"] controlCurve (some "a") [("storage_node", .one (.node "reservoir")), ("control_curves", .many [.num (1 / 2)])]) = ([some "a"], none) := by decide +kernel

end Verif.ParameterLoading

import Verif.Proof.RecorderLoading
/-!
# C107: a recorder in a document is the recorder that its constructor makes

Theorems about `Model/RecorderLoading.lean`, with the tables of `Spec/RecorderLoading.lean`.
-/

namespace Verif.RecorderLoading
open Verif.ParameterLoading

/-- Loading a recorder from a document is calling its constructor with the arguments that the entries stand for: the same recorders are accepted, with the same attributes. -/
theorem C107_same {w : World} {cls : String} {c : Class} {t : Table} {doc : Kw} (h : Recorded cls c t) (hn : (doc.map Prod.fst).Nodup) :
    fromDocument w c doc = (resolve w t doc).bind (construct c) :=
  plain_document (recorded_agrees h).1 (recorded_agrees h).2 hn

/-- A world for the examples. -/
def aWorld : World := ⟨["reservoir", "river"], ["rule", "demand"], ["flows", "levels"], ["climate"]⟩

/-- What the base class assigns without any arguments but a name. -/
def plainBase (name : String) : Obj :=
  [("name", .one (.text name)), ("comment", .one .null), ("tags", .one .null), ("ignore_nan", .one (.flag false)), ("is_objective", .one .null), ("epsilon", .one (.num 1)),
    ("constraint_lower_bounds", .one .null), ("constraint_upper_bounds", .one .null), ("agg_func", .one (.text "mean"))]

example : fromDocument aWorld (numpyNode "numpyarraynoderecorder") [("node", .one (.text "river")), ("name", .one (.text "flow")), ("factor", .one (.num 2))] =
    some (plainBase "flow" ++ [("node", .one (.node "river")), ("temporal_agg_func", .one (.text "mean")), ("factor", .one (.num 2))]) ∧
    (fromDocument aWorld (numpyNode "numpyarraynoderecorder") [("node", .one (.text "river"))]).bind (fun o => o.lookup "name") = some (.one (.text "numpyarraynoderecorder.river")) ∧
    fromDocument aWorld (eventRecorder "eventrecorder") [("threshold", .one (.text "levels")), ("name", .one (.text "droughts")), ("agg_func", .one (.text "max"))] =
      some (((plainBase "droughts").dropLast ++ [("agg_func", .one (.text "max"))]) ++ [("event_agg_func", .one (.text "max")), ("threshold", .one (.recorder "levels")),
        ("minimum_event_length", .one (.num 1)), ("tracked_parameter", .one .null)]) := by decide +kernel

example : fromDocument aWorld (annualFlow "annualtotalflowrecorder") [("nodes", .many [.text "river", .text "reservoir"]), ("name", .one (.text "total"))] =
    some (plainBase "total" ++ [("nodes", .many [.node "river", .node "reservoir"]), ("factors", .many [.num 1, .num 1]), ("temporal_agg_func", .one (.text "sum"))]) ∧
    fromDocument aWorld (aggregatedRecorder "aggregatedrecorder") [("recorders", .many [.text "flows", .text "levels"]), ("name", .one (.text "both")), ("agg_func", .one (.text "sum"))] =
      some (((plainBase "both").dropLast ++ [("agg_func", .one (.text "sum"))]) ++ [("recorder_agg_func", .one (.text "sum")), ("recorders", .many [.recorder "flows", .recorder "levels"])]) := by
  decide +kernel

/-- A name that is not in the model, an unknown entry, and a missing entry are refused. -/
theorem C107_refused {w : World} {cls : String} {c : Class} {t : Table} {doc : Kw} (h : Recorded cls c t) (hn : (doc.map Prod.fst).Nodup) (k : String) (v : Arg)
    (hb : ((k, v) ∈ doc ∧ ((t.entry k).bind fun m => stands w m.2 v) = none) ∨ ((k, v) ∈ doc ∧ t.entry k = some (k, .plain) ∧ c.args.lookup k = none) ∨
      (c.args.lookup k = some none ∧ ∀ e ∈ doc, (t.entry e.1).map Prod.fst ≠ some k)) : fromDocument w c doc = none :=
  document_refused (recorded_agrees h).1 (recorded_agrees h).2 hn k v hb

example : fromDocument aWorld (nodeRecorder "noderecorder") [("node", .one (.text "rvier"))] = none ∧ fromDocument aWorld (nodeRecorder "noderecorder") [] = none ∧
    fromDocument aWorld (nodeRecorder "noderecorder") [("node", .one (.text "river")), ("fctor", .one (.num 1))] = none ∧
    fromDocument aWorld (kde "gaussiankdestoragerecorder") [("node", .one (.text "reservoir")), ("target_volume_pc", .one (.num 1)), ("proportional", .one (.flag true))] = none := by decide +kernel

/-- The recorders of parameters: an entry `node` must be a node of the model, and has no effect otherwise. -/
theorem C107_parameter {w : World} {cls : String} {c : Class} {doc : Kw} (h : OfParameter cls c) (hn : (doc.map Prod.fst).Nodup) :
    (parameterReader c).read w doc =
      if (∀ v, doc.lookup "node" = some v → ∃ n ∈ w.nodes, v = .one (.text n)) then (resolve w aboutParameter (leaveOut "node" doc)).bind (construct c) else none := by
  have hA := ofParameter_agrees h
  unfold Reader.read parameterReader
  simp only [List.all_cons, List.all_nil, Bool.and_true]
  rw [kept_none, plain_document hA.1 hA.2 (nodup_leaveOut hn)]
  cases hl : doc.lookup "node" with
  | none =>
    rw [if_pos rfl, if_pos]
    intro v hv
    cases hv
  | some v =>
    show (if (convert w Kind.node v).isSome = true then _ else none) = _
    have hiff : (convert w Kind.node v).isSome = true ↔ ∀ v', some v = some v' → ∃ n ∈ w.nodes, v' = .one (.text n) := by
      constructor
      · intro hv v' hv'
        cases hv'
        cases v with
        | one v =>
          cases v with
          | text s =>
            by_cases hs : s ∈ w.nodes
            · exact ⟨s, hs, rfl⟩
            · simp [convert, loadNode, hs] at hv
          | _ => cases hv
        | many vs => cases hv
        | rows rs => cases hv
      · intro hv
        obtain ⟨n, hn', rfl⟩ := hv v rfl
        simp [convert, loadNode, hn']
    by_cases hv : (convert w Kind.node v).isSome = true
    · rw [if_pos hv, if_pos (hiff.1 hv)]
    · rw [if_neg hv, if_neg (fun hc => hv (hiff.2 hc))]

example : (parameterReader (numpyParameter "numpyarrayparameterrecorder")).read aWorld [("node", .one (.text "river")), ("parameter", .one (.text "demand")), ("name", .one (.text "d"))] =
    some (plainBase "d" ++ [("param", .one (.param (.named "demand"))), ("temporal_agg_func", .one (.text "mean"))]) ∧
    (parameterReader (numpyParameter "numpyarrayparameterrecorder")).read aWorld [("node", .one (.text "rvier")), ("parameter", .one (.text "demand"))] = none := by decide +kernel

/-! ## Entries that are lost -/

/-- Deviations of flow duration curves: the same, if no scenario is given. -/
theorem C107_deviation_partial {w : World} {cls : String} {doc : Kw} (hn : (doc.map Prod.fst).Nodup) (hs : doc.lookup "scenario" = none) :
    (deviationReader cls).read w doc = (resolve w deviationTable doc).bind (construct (deviation cls)) := by
  unfold Reader.read deviationReader
  simp only [List.all_cons, List.all_nil, Bool.and_true, hs]
  rw [if_pos trivial, kept_none, leaveOut_of_lookup hs, plain_document deviation_agrees.1 deviation_agrees.2 hn]
  congr 1
  unfold resolve
  have key : ∀ l : Kw, (∀ e ∈ l, e.1 ≠ "scenario") → (l.mapM fun e => (Table.entry aboutNode e.1).bind fun m => (stands w m.2 e.2).map fun v => (m.1, v)) =
      l.mapM fun e => (Table.entry deviationTable e.1).bind fun m => (stands w m.2 e.2).map fun v => (m.1, v) := by
    intro l hl
    induction l with
    | nil => rfl
    | cons e l ih =>
      rw [List.mapM_cons, List.mapM_cons, ih fun e' he' => hl e' (List.mem_cons_of_mem _ he')]
      have he : Table.entry aboutNode e.1 = Table.entry deviationTable e.1 := by
        have h1 := hl e List.mem_cons_self
        by_cases h2 : e.1 = "node"
        · rw [h2]; decide +kernel
        · rw [entry_plain (t := aboutNode) (by simpa [aboutNode] using fun h => h2 h.symm) (by simpa [aboutNode] using fun h => h2 h.symm),
            entry_plain (t := deviationTable) (by simpa [deviationTable, aboutNode] using ⟨fun h => h2 h.symm, fun h => h1 h.symm⟩)
              (by simpa [deviationTable, aboutNode] using ⟨fun h => h2 h.symm, fun h => h1 h.symm⟩)]
      rw [he]
  refine key doc fun e he hk => ?_
  rw [List.lookup_eq_none_iff] at hs
  have := hs e he
  rw [hk] at this
  simp at this

example : ((deviationReader "flowdurationcurvedeviationrecorder").read aWorld
    [("node", .one (.text "river")), ("percentiles", .many [.num 10, .num 50]), ("upper_target_fdc", .many [.num 3, .num 4]), ("name", .one (.text "d"))]).isSome = true ∧
    (deviationReader "flowdurationcurvedeviationrecorder").read aWorld [("node", .one (.text "river")), ("percentiles", .many [.num 10, .num 50])] = none := by decide +kernel

/-- What is missing: a scenario in the document must be one of the model, and has no other effect: the recorder is the one without it. -/
theorem C107_scenario_fails {w : World} {cls : String} {doc : Kw} :
    (∀ s, doc.lookup "scenario" = some (.one (.text s)) → s ∈ w.scenarios → (deviationReader cls).read w doc = (deviationReader cls).read w (leaveOut "scenario" doc)) ∧
    ∃ d : Kw, ((deviationReader cls).read aWorld d).bind (fun o => o.lookup "scenario") = some (.one .null) ∧
      ((resolve aWorld deviationTable d).bind (construct (deviation cls))).bind (fun o => o.lookup "scenario") = some (.one (.scenario "climate")) := by
  constructor
  · intro s hs hw
    have hc : (convert w Kind.scenario (.one (.text s))).isSome = true := by simp [convert, hw]
    have hf : leaveOut "scenario" (leaveOut "scenario" doc) = leaveOut "scenario" doc := leaveOut_of_lookup lookup_leaveOut
    unfold Reader.read deviationReader
    simp only [List.all_cons, List.all_nil, Bool.and_true, hs, lookup_leaveOut, kept_none, hf, hc]
  · refine ⟨[("node", .one (.text "river")), ("percentiles", .many [.num 10, .num 50]), ("upper_target_fdc", .many [.num 3, .num 4]), ("name", .one (.text "d")), ("scenario", .one (.text "climate"))], ?_⟩
    exact ⟨rfl, rfl⟩

/-- Rolling means: the same, if the document has no other entries than four. -/
theorem C107_rolling_partial {w : World} {cls : String} {doc : Kw} (hn : (doc.map Prod.fst).Nodup) (hk : ∀ e ∈ doc, e.1 ∈ ["name", "node", "timesteps", "days"]) :
    (rollingMeanReader cls).read w doc = (resolve w rollingTable doc).bind (construct (rollingMean cls)) := by
  have hf : (rollingMeanReader cls).kept doc = doc := by
    unfold Reader.kept rollingMeanReader
    rw [List.filter_eq_self]
    intro e he
    simpa using hk e he
  unfold Reader.read
  rw [hf]
  show fromDocument w (rollingMean cls) doc = _
  exact plain_document rollingMean_agrees.1 rollingMean_agrees.2 hn

example : ((rollingMeanReader "rollingmeanflownoderecorder").read aWorld [("node", .one (.text "river")), ("days", .one (.num 30)), ("name", .one (.text "m"))]) =
    some (plainBase "m" ++ [("node", .one (.node "river")), ("timesteps", .one (.num 0)), ("days", .one (.num 30))]) ∧
    (rollingMeanReader "rollingmeanflownoderecorder").read aWorld [("node", .one (.text "river")), ("timesteps", .one (.num 0))] = none := by decide +kernel

/-- What is missing: every other entry is lost without a word, those of the base class and those that do not exist included. -/
theorem C107_rolling_fails {w : World} {cls : String} {doc : Kw} :
    (rollingMeanReader cls).read w doc = (rollingMeanReader cls).read w (doc.filter fun e => ["name", "node", "timesteps", "days"].contains e.1) ∧
    ∃ d : Kw, ((rollingMeanReader cls).read aWorld d).bind (fun o => o.lookup "agg_func") = some (.one (.text "mean")) ∧
      ((resolve aWorld rollingTable d).bind (construct (rollingMean cls))).bind (fun o => o.lookup "agg_func") = some (.one (.text "max")) := by
  constructor
  · unfold Reader.read
    have hf : (rollingMeanReader cls).kept (doc.filter fun e => ["name", "node", "timesteps", "days"].contains e.1) = (rollingMeanReader cls).kept doc := by
      unfold Reader.kept rollingMeanReader
      rw [List.filter_filter]
      congr 1
      funext e
      simp
    rw [hf]
    rfl
  · exact ⟨[("node", .one (.text "river")), ("days", .one (.num 30)), ("name", .one (.text "m")), ("agg_func", .one (.text "max"))], rfl, rfl⟩

/-! ## Defaults -/

/-- An aggregated recorder needs `agg_func` or `recorder_agg_func`, although both have defaults according to their description: without them it is refused. -/
theorem C107_aggregated_fails {w : World} {cls : String} {doc : Kw} (hn : (doc.map Prod.fst).Nodup) (h1 : ∀ v, ("agg_func", v) ∉ doc) (h2 : ∀ v, ("recorder_agg_func", v) ∉ doc) :
    fromDocument w (aggregatedRecorder cls) doc = none := by
  rw [C107_same (cls := cls) .aggregated hn]
  cases hr : resolve w [("recorders", "recorders", .recorders)] doc with
  | none => rfl
  | some kw =>
    have hno : ∀ k, k ≠ "recorders" → (∀ v, (k, v) ∉ doc) → kw.lookup k = none := by
      intro k hk hd
      refine lookup_none fun v hv => ?_
      obtain ⟨e, he, hke⟩ := resolve_key hr hv
      by_cases hr' : e.1 = "recorders"
      · rw [hr'] at hke
        have : (Table.entry [("recorders", "recorders", Kind.recorders)] "recorders").map Prod.fst = some "recorders" := by decide +kernel
        rw [this] at hke
        exact hk (Option.some.inj hke).symm
      · rw [entry_plain (by simpa using fun h => hr' h.symm) (by simpa using fun h => hr' h.symm)] at hke
        have : e.1 = k := Option.some.inj hke
        exact hd e.2 (this ▸ he)
    have ha : acrossRecorders ((aggregatedRecorder cls).arg kw) = none := by
      have e1 : (aggregatedRecorder cls).arg kw "recorder_agg_func" = absent := by
        unfold Class.arg
        rw [hno _ (by decide) h2]
        rfl
      have e2 : (aggregatedRecorder cls).arg kw "agg_func" = absent := by
        unfold Class.arg
        rw [hno _ (by decide) h1]
        rfl
      unfold acrossRecorders
      rw [e1, e2, if_pos rfl]
      rfl
    rw [Option.bind_some]
    unfold construct
    have he : (aggregatedRecorder cls).early ((aggregatedRecorder cls).arg kw) = false := by
      show (acrossRecorders _).isSome = false
      rw [ha]
      rfl
    rw [he, Bool.and_false]
    rfl

example : (fromDocument aWorld (aggregatedRecorder "aggregatedrecorder") [("recorders", .many [.text "flows"]), ("name", .one (.text "a")), ("recorder_agg_func", .one (.text "max"))]).bind
    (fun o => o.lookup "agg_func") = some (.one (.text "mean")) := by decide +kernel

/-- A window with a fraction is cut off in a document; the constructor refuses it. -/
theorem C107_window_fails : (fromDocument aWorld (rollingWindow "rollingwindowparameterrecorder") [("parameter", .one (.text "demand")), ("window", .one (.num (79 / 10)))]).bind (fun o => o.lookup "window") =
      some (.one (.num 7)) ∧
    construct (rollingWindow "rollingwindowparameterrecorder") [("param", .one (.param (.named "demand"))), ("window", .one (.num (79 / 10)))] = none := by decide +kernel

/-- The factors of an annual total are not counted. -/
theorem C107_factors_fails (cls : String) : (fromDocument aWorld (annualFlow cls) [("nodes", .many [.text "river", .text "reservoir"]), ("name", .one (.text "total")), ("factors", .many [.num 3])]).bind
      (fun o => o.lookup "factors") = some (.many [.num 3]) ∧
    (fromDocument aWorld (annualFlow cls) [("nodes", .many [.text "river"]), ("name", .one (.text "total")), ("factors", .many [])]).bind (fun o => o.lookup "factors") = some (.many []) := ⟨rfl, rfl⟩

/-- `null` is accepted in the place of the parameter by which a storage is normalised; a recorder of a parameter refuses it. -/
theorem C107_null_fails (cls : String) : (fromDocument aWorld (normalised cls) [("node", .one (.text "reservoir")), ("parameter", .one .null)]).bind (fun o => o.lookup "parameter") = some (.one .null) ∧
    fromDocument aWorld (numpyParameter cls) [("parameter", .one .null), ("name", .one (.text "p"))] = none := ⟨rfl, rfl⟩

/-! ## Names -/

/-- A recorder has a name that no other component has; making the same recorder again is refused, whether its name was given or not. -/
theorem C107_names {m m' : List String} {c : Class} {kw : Kw} {o : Obj} (h : record m c kw = (m', some o)) :
    (∃ n, o.lookup "name" = some (.one (.text n)) ∧ n ∉ m ∧ m' = n :: m) ∧ record m' c kw = (m', none) := by
  unfold record at h ⊢
  cases hc : construct c kw with
  | none => rw [hc] at h; cases h
  | some o' =>
    rw [hc] at h
    simp only at h ⊢
    split at h
    · rename_i n hn
      split at h
      · cases h
      · rename_i hm
        obtain ⟨rfl, rfl⟩ : n :: m = m' ∧ o' = o := by
          have := Prod.mk.inj h
          exact ⟨this.1, Option.some.inj this.2⟩
        refine ⟨⟨n, hn, hm, rfl⟩, ?_⟩
        rw [if_pos List.mem_cons_self]
    · cases h

/-- The names of recorders that are given none: the class, and the node or the parameter. -/
theorem C107_default_names (cls n : String) :
    (construct (nodeRecorder cls) [("node", .one (.node n))]).bind (fun o => o.lookup "name") = some (.one (.text (cls ++ "." ++ n))) ∧
    (construct (parameterRecorder cls) [("param", .one (.param (.named n)))]).bind (fun o => o.lookup "name") = some (.one (.text (cls ++ "." ++ n))) ∧
    (construct (eventRecorder cls) [("threshold", .one (.recorder n))]).bind (fun o => o.lookup "name") = some (.one (.text cls)) := ⟨rfl, rfl, rfl⟩

/-- So two recorders of events without names cannot be in one model, nor can two recorders of one class of one node, nor two of constants. -/
theorem C107_unnamed_fails (cls : String) (m : List String) (h : cls ∉ m) (hn : cls ++ ".None" ∉ m) :
    (∃ m' o, record m (eventRecorder cls) [("threshold", .one (.param (.named "rule")))] = (m', some o) ∧
      record m' (eventRecorder cls) [("threshold", .one (.param (.named "demand")))] = (m', none)) ∧
    ∃ m' o, record m (parameterRecorder cls) [("param", .one (.param (.const 1)))] = (m', some o) ∧
      record m' (parameterRecorder cls) [("param", .one (.param (.const 2)))] = (m', none) := by
  constructor
  · refine ⟨cls :: m, _, (if_neg h : (if cls ∈ m then (m, none) else _) = _), ?_⟩
    exact if_pos List.mem_cons_self
  · refine ⟨(cls ++ ".None") :: m, _, (if_neg hn : (if cls ++ ".None" ∈ m then (m, none) else _) = _), ?_⟩
    exact if_pos List.mem_cons_self

example : (record [] (nodeRecorder "noderecorder") [("node", .one (.node "river"))]).1 = ["noderecorder.river"] ∧
    (record ["noderecorder.river"] (nodeRecorder "noderecorder") [("node", .one (.node "river"))]).2 = none ∧
    (record ["noderecorder.river"] (nodeRecorder "noderecorder") [("node", .one (.node "river")), ("name", .one (.text "again"))]).1 = ["again", "noderecorder.river"] := by decide +kernel

end Verif.RecorderLoading

import Verif.Proof.NodeClasses
import Mathlib.Tactic.Set
/-!
# C82: a node in a document is the node that the constructor makes of the same arguments
-/

namespace Verif.NodeLoading

private theorem plain_given {c : Class} {k : String} {v : Arg} (h : ∀ a ∈ c.attrs, a.name = k → a.given v = some v) : Plain c k v := by
  intro a ha e
  rw [h a ha e, Option.bind_some]

private theorem noneIsZero_min_flow (v : Arg) : (noneIsZero v).bind (scalar (none, "min_flow") (orElse (.num 0))) = scalar (none, "min_flow") (orElse (.num 0)) v := by
  match v with
  | .one .none => rfl
  | .one (.num _) => rfl
  | .one .inf => rfl
  | .one (.param _) => rfl
  | .one (.text _) => rfl
  | .many _ => rfl

private theorem noneIsZero_of_ne {v : Arg} (h : v ≠ .one .none) : noneIsZero v = some v := by
  match v with
  | .one .none => exact absurd rfl h
  | .one (.num _) => rfl
  | .one .inf => rfl
  | .one (.param _) => rfl
  | .one (.text _) => rfl
  | .many _ => rfl

private theorem plain_nodeAttrs {c : Class} (hc : ∀ a ∈ c.attrs, a.given = asGiven ∨ a = nodeAttrs[0]) (k : String) (v : Arg) : Plain c k v := by
  intro a ha e
  rcases hc a ha with h | rfl
  · rw [h]; rfl
  · exact noneIsZero_min_flow v

/-- The classes that behave alike: the plain nodes, `LossLink`, `Catchment`, `PiecewiseLink` of any number of steps, `RiverGauge` and `RiverSplitWithGauge`. -/
inductive Alike : Class → Prop
  | node : Alike node
  | lossLink : Alike lossLink
  | catchment : Alike catchment
  | piecewise (n : Nat) : Alike (piecewise n)
  | gauge (extra : Nat) : Alike (gauge extra)

/-- **C82.** Whatever entries a node has in a document, in whatever order, loading it gives the node that the constructor makes of the same arguments, with the references replaced by the
parameters; and the document is refused exactly if a reference is unknown or the constructor refuses the arguments. -/
theorem C82_same {c : Class} (hc : Alike c) (known : String → Option Param) (doc : Kw) (hn : (doc.map Prod.fst).Nodup) :
    fromDocument known c doc = (resolve known c.held doc).bind (construct c) := by
  cases hc with
  | node => exact regular_document node_regular known doc hn fun e _ _ v _ => plain_nodeAttrs (by simp [node, nodeAttrs]) e.1 v
  | lossLink => exact regular_document loss_regular known doc hn fun e _ _ v _ => plain_nodeAttrs (by simp [lossLink, nodeAttrs]) e.1 v
  | catchment => exact regular_document catchment_regular known doc hn fun e _ _ v _ => plain_nodeAttrs (by simp [catchment, nodeAttrs]) e.1 v
  | piecewise n => exact regular_document (piecewise_regular n) known doc hn fun e _ _ v _ => plain_nodeAttrs (by simp [piecewise, nodeAttrs]) e.1 v
  | gauge extra =>
    refine regular_document (gauge_regular extra) known doc hn fun e _ _ v _ => plain_nodeAttrs ?_ e.1 v
    intro a ha
    rcases List.mem_append.1 ha with ha | ha
    · exact (show ∀ a ∈ (gauge 0).attrs, a.given = asGiven ∨ a = nodeAttrs[0] by simp [gauge, nodeAttrs]) a (by simpa [gauge] using ha)
    · obtain ⟨i, _, ha⟩ := List.mem_flatMap.1 ha
      simp only [List.mem_cons, List.not_mem_nil, or_false] at ha
      rcases ha with rfl | rfl <;> exact .inl rfl

private theorem plain_storage {c : Class} (hc : ∀ a ∈ c.attrs, a.given = asGiven ∨ a = storageAttrs[0]) (k : String) (v : Arg) (h : k = "min_volume" → v ≠ .one .none) :
    Plain c k v := by
  intro a ha e
  rcases hc a ha with hg | rfl
  · rw [hg]; rfl
  · show (noneIsZero v).bind _ = _
    rw [noneIsZero_of_ne (h e.symm)]; rfl

private theorem load_none {known : String → Option Param} {v : Arg} (h : load known v = some (.one .none)) : v = .one .none := by
  match v with
  | .one .none => rfl
  | .one (.num _) => simp [load, loadValue] at h
  | .one .inf => simp [load, loadValue] at h
  | .one (.param _) => simp [load, loadValue] at h
  | .one (.text s) => simp only [load, loadValue] at h; cases hk : known s <;> simp [hk] at h
  | .many vs => simp only [load] at h; cases hk : vs.mapM (loadValue known) <;> simp [hk] at h

/-- **C82.** The same for storages and virtual storages, unless `min_volume` is `null`. -/
theorem C82_storage_partial {c : Class} (hc : c = storage ∨ c = virtualStorage) (known : String → Option Param) (doc : Kw) (hn : (doc.map Prod.fst).Nodup)
    (hv : ("min_volume", Arg.one .none) ∉ doc) : fromDocument known c doc = (resolve known c.held doc).bind (construct c) := by
  have hp : ∀ e ∈ doc, ∀ v, load known e.2 = some v → e.1 = "min_volume" → v ≠ .one .none := by
    rintro ⟨k, u⟩ he v hl hk rfl
    have hu : u = .one .none := load_none hl
    rw [show k = "min_volume" from hk, hu] at he
    exact hv he
  rcases hc with rfl | rfl
  · exact regular_document storage_regular known doc hn fun e he _ v hl => plain_storage (by simp [storage, storageAttrs]) e.1 v (hp e he v hl)
  · exact regular_document virtual_regular known doc hn fun e he _ v hl => plain_storage (by simp [virtualStorage, storageAttrs]) e.1 v (hp e he v hl)

/-- The constructor takes `min_volume=None` for zero, but a document with `null` is refused. -/
theorem C82_null_fails (known : String → Option Param) :
    fromDocument known storage [("min_volume", .one .none)] = none ∧
      (construct storage [("min_volume", .one .none)]).map (fun o => o (none, "min_volume")) = some (some (.num 0)) := by
  constructor <;> rfl

/-! ## What the attributes are -/

private theorem avoid {post : List Attr} {x : Key} (h : ∀ b ∈ post, ∃ y conv, b.write = scalar y conv ∧ y ≠ x) :
    ∀ b ∈ post, ∀ v ws, b.write v = some ws → ∀ w ∈ ws, w.1 ≠ x := by
  intro b hb v ws hw w hm
  obtain ⟨y, conv, e, hne⟩ := h b hb
  rw [e] at hw
  rw [List.mem_singleton.1 ((scalar_exact hw w.1).1 ⟨w, hm, rfl⟩)]
  exact hne

/-- **C82.** The attributes of a node are its arguments; left out, the minimum and the cost are zero and the maximum is infinite; `None` stands for no limit. -/
theorem C82_node {kw : Kw} {o : Obj} (h : construct node kw = some o) :
    o (none, "min_flow") = keyword kw "min_flow" (.num 0) (.num 0) ∧ o (none, "max_flow") = keyword kw "max_flow" .inf .inf ∧
      (∀ n, o (none, "cost") = keyword kw "cost" (.num 0) n) := by
  refine ⟨?_, ?_, fun n => ?_⟩
  · exact scalar_get (n := .num 0) (d := .num 0) h rfl (pre := []) (post := nodeAttrs.drop 1) rfl (avoid (by
        intro b hb
        simp only [nodeAttrs, List.drop_succ_cons, List.drop_zero, List.mem_cons, List.not_mem_nil, or_false] at hb
        rcases hb with rfl | rfl | rfl <;> exact ⟨_, _, rfl, by decide⟩)) rfl
      (noneIsZero_scalar rfl orElse_eq)
  · exact scalar_get (n := .inf) (d := .inf) h rfl (pre := nodeAttrs.take 1) (post := nodeAttrs.drop 2) rfl (avoid (by
        intro b hb
        simp only [nodeAttrs, List.drop_succ_cons, List.drop_zero, List.mem_cons, List.not_mem_nil, or_false] at hb
        rcases hb with rfl | rfl <;> exact ⟨_, _, rfl, by decide⟩)) rfl
      (asGiven_scalar orElse_eq)
  · exact scalar_get (n := n) (d := .num 0) h rfl (pre := nodeAttrs.take 2) (post := nodeAttrs.drop 3) rfl (avoid (by
        intro b hb
        simp only [nodeAttrs, List.drop_succ_cons, List.drop_zero, List.mem_cons, List.not_mem_nil, or_false] at hb
        subst hb; exact ⟨_, _, rfl, by decide⟩)) rfl
      (asGiven_scalar strict_eq)

/-- **C82.** The same for a loss link: left out, the loss factor is zero and the other attributes are those of a node. -/
theorem C82_loss {kw : Kw} {o : Obj} (h : construct lossLink kw = some o) :
    o (none, "loss_factor") = keyword kw "loss_factor" (.num 0) .none ∧ o (none, "min_flow") = keyword kw "min_flow" (.num 0) (.num 0) ∧
      o (none, "max_flow") = keyword kw "max_flow" .inf .inf ∧ (∀ n, o (none, "cost") = keyword kw "cost" (.num 0) n) := by
  refine ⟨?_, ?_, ?_, fun n => ?_⟩
  · exact scalar_get (n := .none) (d := .num 0) h rfl (pre := []) (post := nodeAttrs) rfl (avoid (by
        intro b hb
        simp only [nodeAttrs, List.mem_cons, List.not_mem_nil, or_false] at hb
        rcases hb with rfl | rfl | rfl | rfl <;> exact ⟨_, _, rfl, by decide⟩)) rfl
      (asGiven_scalar fun v u hu => by cases hu; cases v <;> rfl)
  · exact scalar_get (n := .num 0) (d := .num 0) h rfl (pre := lossLink.attrs.take 1) (post := nodeAttrs.drop 1) rfl (avoid (by
        intro b hb
        simp only [nodeAttrs, List.drop_succ_cons, List.drop_zero, List.mem_cons, List.not_mem_nil, or_false] at hb
        rcases hb with rfl | rfl | rfl <;> exact ⟨_, _, rfl, by decide⟩)) rfl
      (noneIsZero_scalar rfl orElse_eq)
  · exact scalar_get (n := .inf) (d := .inf) h rfl (pre := lossLink.attrs.take 2) (post := nodeAttrs.drop 2) rfl (avoid (by
        intro b hb
        simp only [nodeAttrs, List.drop_succ_cons, List.drop_zero, List.mem_cons, List.not_mem_nil, or_false] at hb
        rcases hb with rfl | rfl <;> exact ⟨_, _, rfl, by decide⟩)) rfl
      (asGiven_scalar orElse_eq)
  · exact scalar_get (n := n) (d := .num 0) h rfl (pre := lossLink.attrs.take 3) (post := nodeAttrs.drop 3) rfl (avoid (by
        intro b hb
        simp only [nodeAttrs, List.drop_succ_cons, List.drop_zero, List.mem_cons, List.not_mem_nil, or_false] at hb
        subst hb; exact ⟨_, _, rfl, by decide⟩)) rfl
      (asGiven_scalar strict_eq)

example : (construct lossLink [("cost", .one (.num 3))]).map (fun o => (o (none, "loss_factor"), o (none, "cost"))) = some (some (.num 0), some (.num 3)) := by
  decide +kernel

/-- **C82.** The same for the limits and the cost of a storage: left out, the limits and the cost are zero. -/
theorem C82_storage_attributes {kw : Kw} {o : Obj} (h : construct storage kw = some o) :
    o (none, "min_volume") = keyword kw "min_volume" (.num 0) (.num 0) ∧ (∀ n, o (none, "max_volume") = keyword kw "max_volume" (.num 0) n) ∧
      (∀ n, o (none, "cost") = keyword kw "cost" (.num 0) n) := by
  refine ⟨?_, fun n => ?_, fun n => ?_⟩
  · exact scalar_get (n := .num 0) (d := .num 0) h rfl (pre := []) (post := storageAttrs.drop 1) rfl (avoid (by
        intro b hb
        simp only [storageAttrs, List.drop_succ_cons, List.drop_zero, List.mem_cons, List.not_mem_nil, or_false] at hb
        rcases hb with rfl | rfl | rfl | rfl | rfl | rfl <;> exact ⟨_, _, rfl, by decide⟩)) rfl
      (noneIsZero_scalar rfl strict_eq)
  · exact scalar_get (n := n) (d := .num 0) h rfl (pre := storageAttrs.take 1) (post := storageAttrs.drop 2) rfl (avoid (by
        intro b hb
        simp only [storageAttrs, List.drop_succ_cons, List.drop_zero, List.mem_cons, List.not_mem_nil, or_false] at hb
        rcases hb with rfl | rfl | rfl | rfl | rfl <;> exact ⟨_, _, rfl, by decide⟩)) rfl
      (asGiven_scalar strict_eq)
  · exact scalar_get (n := n) (d := .num 0) h rfl (pre := storageAttrs.take 4) (post := storageAttrs.drop 5) rfl (avoid (by
        intro b hb
        simp only [storageAttrs, List.drop_succ_cons, List.drop_zero, List.mem_cons, List.not_mem_nil, or_false] at hb
        rcases hb with rfl | rfl <;> exact ⟨_, _, rfl, by decide⟩)) rfl
      (asGiven_scalar strict_eq)

example : (construct storage [("max_volume", .one (.num 20))]).map (fun o => (o (none, "min_volume"), o (none, "max_volume"), o (none, "cost"))) =
    some (some (.num 0), some (.num 20), some (.num 0)) := by decide +kernel

private def sample : Kw := [("max_flow", .one (.text "limit")), ("cost", .one (.num (-10)))]
private def names (s : String) : Option Param := if s = "limit" ∨ s = "curve" then some (.named s) else none

/-- C82: a document with a reference, the constructor with the parameter; and a document with an unknown reference. -/
example : (sample.map Prod.fst).Nodup ∧
    (fromDocument names node sample).map (fun o => [o (none, "min_flow"), o (none, "max_flow"), o (none, "cost")]) =
      some [some (.num 0), some (.param (.named "limit")), some (.num (-10))] ∧
    (resolve names node.held sample) = some [("max_flow", .one (.param (.named "limit"))), ("cost", .one (.num (-10)))] ∧
    (fromDocument names node [("max_flow", .one (.text "limits"))]).isNone = true ∧
    (fromDocument names node [("max_flows", .one (.num 1))]).isNone = true := by decide +kernel

/-- **C82.** The minimum and maximum flow of a catchment are its `flow`, zero if it is left out, whatever `min_flow` and `max_flow` are given, unless the flow is `None`. -/
theorem C82_catchment_partial {kw : Kw} {o : Obj} (h : construct catchment kw = some o) (hf : kw.lookup "flow" ≠ some (.one .none)) :
    ∃ v, keyword kw "flow" (.num 0) .none = some v ∧ o (none, "min_flow") = some v ∧ o (none, "max_flow") = some v := by
  have hg := fun x => construct_get (x := x) h rfl (pre := nodeAttrs) (post := []) rfl (by simp)
  obtain ⟨ws, ha, h1⟩ := hg (none, "min_flow")
  obtain ⟨ws', ha', h2⟩ := hg (none, "max_flow")
  rw [ha] at ha'
  cases ha'
  unfold assign at ha
  unfold keyword
  match hl : kw.lookup "flow" with
  | none =>
    simp only [hl] at ha
    cases ha
    refine ⟨_, rfl, ?_, ?_⟩
    · rw [h1 (by simp)]; rfl
    · rw [h2 (by simp)]; rfl
  | some (.many _) => simp only [hl] at ha; cases ha
  | some (.one v) =>
    simp only [hl] at ha
    cases v with
    | none => exact absurd hl hf
    | text _ => cases ha
    | num q =>
      cases ha
      exact ⟨_, rfl, by rw [h1 (by simp)]; rfl, by rw [h2 (by simp)]; rfl⟩
    | inf =>
      cases ha
      exact ⟨_, rfl, by rw [h1 (by simp)]; rfl, by rw [h2 (by simp)]; rfl⟩
    | param p =>
      cases ha
      exact ⟨_, rfl, by rw [h1 (by simp)]; rfl, by rw [h2 (by simp)]; rfl⟩

/-- A catchment with `flow=None` supplies anything from nothing to an unlimited amount: `None` is zero for the minimum and infinity for the maximum. -/
theorem C82_catchment_fails :
    (construct catchment [("flow", .one .none)]).map (fun o => (o (none, "min_flow"), o (none, "max_flow"))) = some (some (.num 0), some .inf) := by decide +kernel

example : (construct catchment [("flow", .one (.num 5)), ("max_flow", .one (.num 2))]).map (fun o => (o (none, "min_flow"), o (none, "max_flow"))) =
    some (some (.num 5), some (.num 5)) := by decide +kernel

/-- **C82.** The first sub-link of a gauge carries at most the minimum residual flow at its cost, the second any amount at the other cost; the links of extra slots are free. -/
theorem C82_gauge {extra : Nat} {kw : Kw} {o : Obj} (h : construct (gauge extra) kw = some o) :
    o (some 0, "max_flow") = keyword kw "mrf" (.num 0) .inf ∧ (∀ n, o (some 0, "cost") = keyword kw "mrf_cost" (.num 0) n) ∧
      (∀ n, o (some 1, "cost") = keyword kw "cost" (.num 0) n) := by
  have htail : ∀ x : Key, (x = (some 0, "max_flow") ∨ x = (some 0, "cost") ∨ x = (some 1, "cost")) →
      ∀ b ∈ (List.range extra).flatMap (fun i : Nat => [(⟨"", some (.one (.num 0)), asGiven, scalar (some (i + 2), "cost") strict⟩ : Attr),
      ⟨"", some (.one .none), asGiven, scalar (some (i + 2), "max_flow") (orElse .inf)⟩]), ∃ y conv, b.write = scalar y conv ∧ y ≠ x := by
    intro x hx b hb
    obtain ⟨i, _, hb⟩ := List.mem_flatMap.1 hb
    simp only [List.mem_cons, List.not_mem_nil, or_false] at hb
    rcases hb with rfl | rfl <;> refine ⟨_, _, rfl, ?_⟩ <;> rcases hx with rfl | rfl | rfl <;> simp
  refine ⟨?_, fun n => ?_, fun n => ?_⟩
  · refine scalar_get (n := .inf) (d := .num 0) h rfl (pre := (gauge 0).attrs.take 5) (post := (gauge 0).attrs.drop 6 ++ _) rfl (avoid ?_) rfl (asGiven_scalar orElse_eq)
    intro b hb
    rcases List.mem_append.1 hb with hb | hb
    · simp only [gauge, List.range_zero, List.flatMap_nil, List.append_nil, List.drop_succ_cons, List.drop_zero, List.mem_cons, List.not_mem_nil, or_false] at hb
      subst hb; exact ⟨_, _, rfl, by decide⟩
    · exact htail _ (.inl rfl) b hb
  · refine scalar_get (n := n) (d := .num 0) h rfl (pre := (gauge 0).attrs.take 3) (post := (gauge 0).attrs.drop 4 ++ _) rfl (avoid ?_) rfl (asGiven_scalar strict_eq)
    intro b hb
    rcases List.mem_append.1 hb with hb | hb
    · simp only [gauge, List.range_zero, List.flatMap_nil, List.append_nil, List.drop_succ_cons, List.drop_zero, List.mem_cons, List.not_mem_nil, or_false] at hb
      rcases hb with rfl | rfl | rfl <;> exact ⟨_, _, rfl, by decide⟩
    · exact htail _ (.inr (.inl rfl)) b hb
  · refine scalar_get (n := n) (d := .num 0) h rfl (pre := (gauge 0).attrs.take 4) (post := (gauge 0).attrs.drop 5 ++ _) rfl (avoid ?_) rfl (asGiven_scalar strict_eq)
    intro b hb
    rcases List.mem_append.1 hb with hb | hb
    · simp only [gauge, List.range_zero, List.flatMap_nil, List.append_nil, List.drop_succ_cons, List.drop_zero, List.mem_cons, List.not_mem_nil, or_false] at hb
      rcases hb with rfl | rfl <;> exact ⟨_, _, rfl, by decide⟩
    · exact htail _ (.inr (.inr rfl)) b hb

/-- C82: a gauge from a document; its second link and the link of its extra slot have no limit. -/
example : (fromDocument names (gauge 1) [("mrf", .one (.text "limit")), ("cost", .one (.num 1)), ("mrf_cost", .one (.num (-100)))]).map
      (fun o => [o (some 0, "max_flow"), o (some 0, "cost"), o (some 1, "cost"), o (some 1, "max_flow"), o (some 2, "cost"), o (some 2, "max_flow")]) =
    some [some (.param (.named "limit")), some (.num (-100)), some (.num 1), some .inf, some (.num 0), some .inf] := by decide +kernel

/-! ## Reservoirs -/

private theorem reservoir_construct (kw : Kw) : construct reservoir kw = (reservoirPrepare kw).bind (construct storage) := by
  have hkeep : ∀ kw', reservoirPrepare kw = some kw' → ∃ v, kw' = ("cost", v) :: kw.filter fun e => e.1 != "control_curve" && e.1 != "above_curve_cost" && e.1 != "cost" := by
    intro kw' h
    unfold reservoirPrepare at h
    simp only at h
    split at h
    · exact ⟨_, (Option.some.inj h).symm⟩
    · exact ⟨_, (Option.some.inj h).symm⟩
    · obtain ⟨p, _, h⟩ := Option.bind_eq_some_iff.1 h
      split at h
      · exact ⟨_, (Option.some.inj h).symm⟩
      · cases h
    · cases h
  cases hp : reservoirPrepare kw with
  | none =>
    unfold construct
    rw [show reservoir.prepare kw = none from hp]
    split <;> rfl
  | some kw' =>
    obtain ⟨v, rfl⟩ := hkeep kw' hp
    rw [Option.bind_some]
    unfold construct
    rw [show reservoir.prepare kw = _ from hp]
    have hany : (kw.any fun e => !reservoir.keywords.contains e.1) =
        List.any ((("cost", v) :: kw.filter fun e => e.1 != "control_curve" && e.1 != "above_curve_cost" && e.1 != "cost")) fun e => !storage.keywords.contains e.1 := by
      rw [Bool.eq_iff_iff, List.any_eq_true, List.any_eq_true]
      constructor
      · rintro ⟨e, he, hk⟩
        have hk' : ¬ e.1 ∈ reservoir.keywords := by simpa using hk
        refine ⟨e, List.mem_cons_of_mem _ (List.mem_filter.2 ⟨he, ?_⟩), ?_⟩
        · simp only [reservoir, storageKeywords, List.mem_cons, List.not_mem_nil, or_false, not_or] at hk'
          simp [hk']
        · simp only [reservoir, storageKeywords, List.mem_cons, List.not_mem_nil, or_false, not_or] at hk'
          simp [storage, storageKeywords, hk']
      · rintro ⟨e, he, hk⟩
        have hk' : ¬ e.1 ∈ storage.keywords := by simpa using hk
        rcases List.mem_cons.1 he with rfl | he
        · exact absurd (show "cost" ∈ storage.keywords by decide) hk'
        · obtain ⟨he, hf⟩ := List.mem_filter.1 he
          refine ⟨e, he, ?_⟩
          simp only [storage, storageKeywords, List.mem_cons, List.not_mem_nil, or_false, not_or] at hk'
          simp only [Bool.and_eq_true, bne_iff_ne, ne_eq] at hf
          simp [reservoir, storageKeywords, hk', hf]
    rw [hany]
    rfl

private theorem storage_cost {kw : Kw} {o : Obj} {v : Value} (h : construct storage (("cost", .one v) :: kw) = some o) (hv : v ≠ .none) : o (none, "cost") = some v := by
  have := scalar_get (n := .none) (d := .num 0) h rfl (pre := storageAttrs.take 4) (post := storageAttrs.drop 5) rfl (avoid (by
        intro b hb
        simp only [storageAttrs, List.drop_succ_cons, List.drop_zero, List.mem_cons, List.not_mem_nil, or_false] at hb
        rcases hb with rfl | rfl <;> exact ⟨_, _, rfl, by decide⟩)) rfl
      (asGiven_scalar strict_eq)
  rw [this]
  unfold keyword
  rw [List.lookup_cons]
  cases v <;> simp_all

/-- **C82.** A reservoir made with an `above_curve_cost` has that cost at and above its control curve (`ControlCurveParameter`, C30) and `cost` below; without a curve this is at a full reservoir. -/
theorem C82_reservoir_cost {kw : Kw} {o : Obj} {above below : Rat} (h : construct reservoir kw = some o) (ha : kw.lookup "above_curve_cost" = some (.one (.num above)))
    (hb : kw.lookup "cost" = some (.one (.num below)) ∨ (kw.lookup "cost" = none ∧ below = 0)) :
    (kw.lookup "control_curve" = none ∨ kw.lookup "control_curve" = some (.one .none) → o (none, "cost") = some (.param (.curve (.const 1) above below))) ∧
      (∀ p, kw.lookup "control_curve" = some (.one (.param p)) → o (none, "cost") = some (.param (.curve p above below))) ∧
      (∀ q, kw.lookup "control_curve" = some (.one (.num q)) → o (none, "cost") = some (.param (.curve (.const q) above below))) := by
  have key : ∀ p, reservoirCurve (kw.lookup "control_curve") = some p → o (none, "cost") = some (.param (.curve p above below)) := by
    intro p hp
    have hprep : ∃ rest, reservoirPrepare kw = some (("cost", .one (.param (.curve p above below))) :: rest) := by
      unfold reservoirPrepare
      rcases hb with hb | ⟨hb, rfl⟩ <;> simp only [ha, hb, hp, Option.getD_some, Option.getD_none, Option.bind_some] <;> exact ⟨_, rfl⟩
    obtain ⟨rest, hr⟩ := hprep
    rw [reservoir_construct, hr, Option.bind_some] at h
    exact storage_cost h (by simp)
  exact ⟨fun e => key _ (by rcases e with e | e <;> rw [e] <;> rfl), fun p e => key _ (by rw [e]; rfl), fun q e => key _ (by rw [e]; rfl)⟩

/-- Loading a reservoir with both costs from a document gives a reservoir whose cost is `cost` at every volume: the control curve is made with a cost of zero, and then replaced by the plain `cost`. -/
theorem C82_reservoir_fails (known : String → Option Param) (above below : Rat) :
    (fromDocument known reservoir [("above_curve_cost", .one (.num above)), ("cost", .one (.num below))]).map (fun o => o (none, "cost")) = some (some (.num below)) ∧
      (construct reservoir [("above_curve_cost", .one (.num above)), ("cost", .one (.num below))]).map (fun o => o (none, "cost")) =
        some (some (.param (.curve (.const 1) above below))) := by
  constructor <;> rfl

/-- A control curve given by name is refused in a document, though the constructor takes the parameter. -/
theorem C82_curve_fails (known : String → Option Param) (above : Rat) (curve : String) :
    fromDocument known reservoir [("above_curve_cost", .one (.num above)), ("control_curve", .one (.text curve))] = none ∧
      (construct reservoir [("above_curve_cost", .one (.num above)), ("control_curve", .one (.param (.named curve)))]).map (fun o => o (none, "cost")) =
        some (some (.param (.curve (.named curve) above 0))) := by
  constructor <;> rfl

/-! ## Splits, aggregated nodes, aquifers -/

private theorem mapM_num {conv : Value → Option Value} (hc : ∀ q, conv (.num q) = some (.num q)) (qs : List Rat) : (qs.map Value.num).mapM conv = some (qs.map Value.num) := by
  induction qs with
  | nil => rfl
  | cons q qs ih => rw [List.map_cons, List.mapM_cons, hc, ih]; rfl

/-- The costs of a split with `n` steps and `extra` extra slots: the constructor takes `n` of them, a document must have `n + extra`; so with an extra slot, of which there is always one, no list is accepted by both. -/
theorem C82_split_fails (known : String → Option Param) (n extra : Nat) (qs : List Rat) :
    ((construct (multiSplit n extra) [("costs", .many (qs.map .num))]).isSome ↔ qs.length = n) ∧
      ((fromDocument known (multiSplit n extra) [("costs", .many (qs.map .num))]).isSome ↔ qs.length = n + extra) := by
  have hm := mapM_num (conv := strict) (fun _ => rfl)
  have hl := mapM_num (conv := loadValue known) (fun _ => rfl)
  have hw : ∀ rs : List Rat, (perLink (n + extra) "cost" strict (.many (rs.map .num))).isSome ↔ rs.length = n + extra := by
    intro rs
    simp only [perLink, List.length_map, hm]
    split <;> simp [*]
  have hnone : ∀ k, k ≠ "costs" → List.lookup k [("costs", Arg.many (qs.map .num))] = none := by
    intro k hk
    have : (k == "costs") = false := by simpa using hk
    simp [List.lookup_cons, this]
  constructor
  · have : qs.map Value.num ++ List.replicate extra (.num 0) = (qs ++ List.replicate extra 0).map Value.num := by simp
    have h1 : (construct (multiSplit n extra) [("costs", .many (qs.map .num))]).isSome = (perLink (n + extra) "cost" strict (.many ((qs ++ List.replicate extra 0).map .num))).isSome := by
      rw [← this]
      cases hc : perLink (n + extra) "cost" strict (.many (qs.map .num ++ List.replicate extra (.num 0))) <;>
        simp [construct, multiSplit, nodeKeywords, nodeAttrs, assign, scalar, orElse, strict, constant, pad, hc, hnone]
    rw [h1, hw]
    simp
  · have h1 : (fromDocument known (multiSplit n extra) [("costs", .many (qs.map .num))]).isSome = (perLink (n + extra) "cost" strict (.many (qs.map .num))).isSome := by
      cases hc : perLink (n + extra) "cost" strict (.many (qs.map .num)) <;>
        simp [fromDocument, preLoad, finaliseLoad, setattr, load, hl, construct, multiSplit, nodeKeywords, nodeAttrs, assign, scalar, orElse, strict, constant, hc]
    rw [h1, hw]

/-- The cells of the sub-links. -/
private def cells (attr : String) (ws : List Value) : List (Key × Value) := ws.zipIdx.map fun p => ((some p.2, attr), p.1)

private theorem perLink_many {n : Nat} {attr : String} {conv : Value → Option Value} {vs ws : List Value} (hl : vs.length = n) (hc : vs.mapM conv = some ws) :
    perLink n attr conv (.many vs) = some (cells attr ws) := by
  simp only [cells, perLink, if_pos hl, hc, Option.map_some]

private theorem set_links (o : Obj) (attr : String) (ws : List Value) (i : Nat) (b : String) :
    Obj.set o (cells attr ws) (some i, b) = if attr = b ∧ i < ws.length then ws[i]? else o (some i, b) := by
  unfold cells
  induction ws using List.reverseRecOn with
  | nil => simp [Obj.set]
  | append_singleton l w ih =>
    rw [List.zipIdx_append, List.map_append, set_append]
    simp only [List.zipIdx_singleton, List.map_cons, List.map_nil, Nat.zero_add, List.length_append, List.length_singleton]
    rw [set_get]
    simp only [List.reverse_cons, List.reverse_nil, List.nil_append, List.lookup_cons, List.lookup_nil]
    by_cases hb : attr = b
    · subst hb
      by_cases hi : i = l.length
      · subst hi; simp
      · have : ((some i, attr) == (some l.length, attr)) = false := by simpa using hi
        rw [this]
        simp only [Option.none_or, ih]
        rcases lt_or_ge i l.length with h | h
        · rw [if_pos ⟨trivial, h⟩, if_pos ⟨trivial, by omega⟩, List.getElem?_append_left h]
        · rw [if_neg (by omega), if_neg (by omega)]
    · have : ((some i, b) == (some l.length, attr)) = false := by simp; intro _ e; exact absurd e.symm hb
      rw [this]
      simp only [Option.none_or, ih, hb, false_and, if_false]

private theorem mapM_limit (ms : List (Option Rat)) : (ms.map fun m : Option Rat => (m.map Value.num).getD .none).mapM (orElse .inf) = some (ms.map fun m : Option Rat => (m.map Value.num).getD .inf) := by
  induction ms with
  | nil => rfl
  | cons m ms ih => rw [List.map_cons, List.mapM_cons, ih]; cases m <;> rfl

/-- **C82.** The sub-links of a split of a river made with one cost and limit for each step: the sub-links of the steps have these (`None` for no limit), the links of the extra slots are free and have no limit.  With
neither, there is one step, which is free and has no limit. -/
theorem C82_river_split (n extra : Nat) (qs : List Rat) (ms : List (Option Rat)) (hq : qs.length = n) (hm : ms.length = n) :
    (∃ o, construct (riverSplit n extra) [("costs", .many (qs.map .num)), ("max_flows", .many (ms.map fun m : Option Rat => (m.map Value.num).getD .none))] = some o ∧
      ∀ i < n + extra, o (some i, "cost") = some (.num (qs.getD i 0)) ∧ o (some i, "max_flow") = some (((ms.getD i none).map Value.num).getD .inf)) ∧
    (∃ o, construct (riverSplit 1 extra) [] = some o ∧ ∀ i < 1 + extra, o (some i, "cost") = some (.num 0) ∧ o (some i, "max_flow") = some .inf) := by
  have hget : ∀ (n : Nat) (qs : List Rat) (ms : List (Option Rat)), qs.length = n → ms.length = n → ∀ o : Obj, ∀ i < n + extra,
      Obj.set (Obj.set o (cells "cost" ((qs ++ List.replicate extra 0).map Value.num)))
        (cells "max_flow" ((ms ++ List.replicate extra none).map fun m : Option Rat => (m.map Value.num).getD .inf)) (some i, "cost") = some (.num (qs.getD i 0)) ∧
      Obj.set (Obj.set o (cells "cost" ((qs ++ List.replicate extra 0).map Value.num)))
        (cells "max_flow" ((ms ++ List.replicate extra none).map fun m : Option Rat => (m.map Value.num).getD .inf)) (some i, "max_flow") =
          some (((ms.getD i none).map Value.num).getD .inf) := by
    intro n qs ms hq hm o i hi
    simp only [set_links]
    constructor
    · rw [if_neg (fun h => absurd h.1 (by decide)), if_pos ⟨trivial, by simp; omega⟩, List.getElem?_map]
      rcases lt_or_ge i n with h | h
      · rw [List.getElem?_append_left (by omega), List.getD_eq_getElem?_getD, List.getElem?_eq_getElem (by omega)]; rfl
      · rw [List.getElem?_append_right (by omega), List.getElem?_replicate_of_lt (by omega), List.getD_eq_getElem?_getD, List.getElem?_eq_none (by omega)]; rfl
    · rw [if_pos ⟨trivial, by simp; omega⟩, List.getElem?_map]
      rcases lt_or_ge i n with h | h
      · rw [List.getElem?_append_left (by omega), List.getD_eq_getElem?_getD, List.getElem?_eq_getElem (by omega)]; rfl
      · rw [List.getElem?_append_right (by omega), List.getElem?_replicate_of_lt (by omega), List.getD_eq_getElem?_getD, List.getElem?_eq_none (by omega)]; rfl
  have hw : ∀ (n : Nat) (qs : List Rat), qs.length = n → perLink (n + extra) "cost" strict (.many (qs.map Value.num ++ List.replicate extra (.num 0))) =
      some (cells "cost" ((qs ++ List.replicate extra 0).map Value.num)) := by
    intro n qs hq
    have : qs.map Value.num ++ List.replicate extra (.num 0) = (qs ++ List.replicate extra 0).map Value.num := by simp
    rw [this]
    exact perLink_many (by simp [hq]) (mapM_num (conv := strict) (fun _ => rfl) _)
  have hx : ∀ (n : Nat) (ms : List (Option Rat)), ms.length = n → perLink (n + extra) "max_flow" (orElse .inf) (.many ((ms.map fun m : Option Rat => (m.map Value.num).getD .none) ++ List.replicate extra .none)) =
      some (cells "max_flow" ((ms ++ List.replicate extra none).map fun m : Option Rat => (m.map Value.num).getD .inf)) := by
    intro n ms hm
    have : (ms.map fun m : Option Rat => (m.map Value.num).getD .none) ++ List.replicate extra .none = (ms ++ List.replicate extra none).map fun m : Option Rat => (m.map Value.num).getD .none := by simp
    rw [this]
    exact perLink_many (by simp [hm]) (mapM_limit _)
  have hw1 := hw 1 [0] rfl
  have hx1 := hx 1 [none] rfl
  constructor
  · have : ∃ o : Obj, construct (riverSplit n extra) [("costs", .many (qs.map .num)), ("max_flows", .many (ms.map fun m : Option Rat => (m.map Value.num).getD .none))] =
        some (Obj.set (Obj.set o (cells "cost" ((qs ++ List.replicate extra 0).map Value.num)))
          (cells "max_flow" ((ms ++ List.replicate extra none).map fun m : Option Rat => (m.map Value.num).getD .inf))) := by
      refine ⟨(construct node []).getD fun _ => none, ?_⟩
      simp only [construct, riverSplit, nodeKeywords, nodeAttrs, assign, pad, asGiven, List.cons_append, List.nil_append, List.foldlM_cons, List.foldlM_nil, List.lookup_cons, List.lookup_nil,
        show ("min_flow" == "costs") = false from rfl, show ("min_flow" == "max_flows") = false from rfl, show ("max_flow" == "costs") = false from rfl, show ("max_flow" == "max_flows") = false from rfl,
        show ("cost" == "costs") = false from rfl, show ("cost" == "max_flows") = false from rfl, show ("conversion_factor" == "costs") = false from rfl,
        show ("conversion_factor" == "max_flows") = false from rfl, show ("max_flows" == "costs") = false from rfl, show ("costs" == "costs") = true from rfl,
        show ("max_flows" == "max_flows") = true from rfl, Option.bind_some, hw n qs hq, hx n ms hm]
      rfl
    obtain ⟨o, ho⟩ := this
    exact ⟨_, ho, hget n qs ms hq hm o⟩
  · have : ∃ o : Obj, construct (riverSplit 1 extra) [] =
        some (Obj.set (Obj.set o (cells "cost" (([(0 : Rat)] ++ List.replicate extra 0).map Value.num)))
          (cells "max_flow" (([none] ++ List.replicate extra none).map fun m : Option Rat => (m.map Value.num).getD .inf))) := by
      refine ⟨(construct node []).getD fun _ => none, ?_⟩
      simp only [List.map_cons, List.map_nil, Option.map_none, Option.getD_none, List.singleton_append] at hw1 hx1
      simp only [construct, riverSplit, nodeKeywords, nodeAttrs, assign, List.cons_append, List.nil_append, List.foldlM_cons, List.foldlM_nil, hw1, hx1]
      rfl
    obtain ⟨o, ho⟩ := this
    refine ⟨_, ho, fun i hi => ?_⟩
    have := hget 1 [0] [none] rfl rfl o i hi
    have h0 : [(0 : Rat)].getD i 0 = 0 := by cases i <;> rfl
    have hn : [(none : Option Rat)].getD i none = none := by cases i <;> rfl
    rw [h0, hn] at this
    exact this

example : (construct (riverSplit 2 1) [("costs", .many [.num (-5), .num 1]), ("max_flows", .many [.num 3, .none])]).map
      (fun o => [o (some 0, "cost"), o (some 1, "cost"), o (some 2, "cost"), o (some 0, "max_flow"), o (some 1, "max_flow"), o (some 2, "max_flow")]) =
    some [some (.num (-5)), some (.num 1), some (.num 0), some (.num 3), some .inf, some .inf] := by decide +kernel

/-- The limits and factors of an aggregated node can be given in a document, but none of them to the constructor. -/
theorem C82_aggregated_fails (known : String → Option Param) (q : Rat) :
    construct aggregatedNode [("max_flow", .one (.num q))] = none ∧
      (fromDocument known aggregatedNode [("max_flow", .one (.num q))]).map (fun o => o (none, "max_flow")) = some (some (.num q)) := by
  constructor <;> rfl

/-- A document with the area and storativity of an aquifer is refused, whatever they are: the constructor does not get the area. -/
theorem C82_aquifer_fails (a : Groundwater.Args) (hv : a.volumes = none) : (aquiferFromDocument a).toOption.isNone = true := by
  unfold aquiferFromDocument Groundwater.make
  split
  · rfl
  split
  · rfl
  split
  · rfl
  split
  · rfl
  · simp only [Groundwater.volumesOf, hv]
    rfl

/-- C82: the same arguments are accepted by the constructor. -/
example : (Groundwater.make ⟨1, [[0, 10]], [1000, 2000], some 1, [0, 10, 20], none, some 1000, some [1 / 10, 1 / 10]⟩).toOption.isSome = true ∧
    (aquiferFromDocument ⟨1, [[0, 10]], [1000, 2000], some 1, [0, 10, 20], none, some 1000, some [1 / 10, 1 / 10]⟩).toOption.isNone = true := by decide +kernel

/-! ## Reservoirs from documents -/

private theorem lookup_append {a b : Kw} {k : String} (h : k ∉ b.map Prod.fst) : (a ++ b).lookup k = a.lookup k := by
  induction a with
  | nil => exact lookup_none h
  | cons e l ih => obtain ⟨m, w⟩ := e; simp only [List.cons_append, List.lookup_cons, ih]

private theorem lookup_perm {a b : Kw} (h : a.Perm b) (hn : (a.map Prod.fst).Nodup) (k : String) : a.lookup k = b.lookup k := by
  apply Option.ext
  intro v
  rw [lookup_iff hn, lookup_iff ((h.map Prod.fst).nodup_iff.1 hn), h.mem_iff]

private theorem storage_zero_cost (rest : Kw) (h : "cost" ∉ rest.map Prod.fst) : construct storage (("cost", .one (.num 0)) :: rest) = construct storage rest := by
  have ha : ∀ a ∈ storage.attrs, assign (("cost", .one (.num 0)) :: rest) a = assign rest a := by
    intro a ha
    simp only [storage, storageAttrs, List.mem_cons, List.not_mem_nil, or_false] at ha
    rcases ha with rfl | rfl | rfl | rfl | rfl | rfl | rfl
    all_goals first
      | (unfold assign; simp only [lookup_none h, List.lookup_cons]; rfl)
  have hm : ∀ l : List Attr, (∀ a ∈ l, a ∈ storage.attrs) → l.mapM (assign (("cost", .one (.num 0)) :: rest)) = l.mapM (assign rest) := by
    intro l hl
    induction l with
    | nil => rfl
    | cons b l ih => rw [List.mapM_cons, List.mapM_cons, ha b (hl b List.mem_cons_self), ih fun b hb => hl b (List.mem_cons_of_mem _ hb)]
  unfold construct
  rw [show storage.prepare (("cost", .one (.num 0)) :: rest) = some _ from rfl, show storage.prepare rest = some rest from rfl, Option.bind_some, Option.bind_some,
    fold_assign, fold_assign, hm storage.attrs fun _ h => h]
  rfl

/-- The cost that the constructor of a reservoir passes on. -/
private def costOf (above cost curve : Option Arg) : Option Arg :=
  match above with
  | none => some (cost.getD (.one (.num 0)))
  | some (.one .none) => some (cost.getD (.one (.num 0)))
  | some (.one (.num a)) =>
    (reservoirCurve curve).bind fun p =>
      match cost.getD (.one (.num 0)) with
      | .one (.num b) => some (.one (.param (.curve p a b)))
      | _ => none
  | some _ => none

private def others (kw : Kw) : Kw := kw.filter fun e => e.1 != "control_curve" && e.1 != "above_curve_cost" && e.1 != "cost"

private theorem prepare_eq (kw : Kw) :
    reservoirPrepare kw = (costOf (kw.lookup "above_curve_cost") (kw.lookup "cost") (kw.lookup "control_curve")).map fun v => ("cost", v) :: others kw := by
  unfold reservoirPrepare costOf others
  simp only
  generalize kw.lookup "above_curve_cost" = a
  generalize (kw.lookup "cost").getD (.one (.num 0)) = c
  generalize reservoirCurve (kw.lookup "control_curve") = p
  match a with
  | none => rfl
  | some (.one .none) => rfl
  | some (.one .inf) => rfl
  | some (.one (.param _)) => rfl
  | some (.one (.text _)) => rfl
  | some (.many _) => rfl
  | some (.one (.num a)) =>
    cases p with
    | none => rfl
    | some p =>
      match c with
      | .one (.num _) => rfl
      | .one .none => rfl
      | .one .inf => rfl
      | .one (.param _) => rfl
      | .one (.text _) => rfl
      | .many _ => rfl

private theorem mem_others {kw : Kw} {e : String × Arg} : e ∈ others kw ↔ e ∈ kw ∧ e.1 ≠ "control_curve" ∧ e.1 ≠ "above_curve_cost" ∧ e.1 ≠ "cost" := by
  unfold others
  simp only [List.mem_filter, Bool.and_eq_true, bne_iff_ne, ne_eq, and_assoc]

/-- **C82.** For a reservoir: loading a document gives what the constructor makes of the same arguments if the document does not give both `cost` and `above_curve_cost` (nor a `null` minimum). -/
theorem C82_reservoir_partial (known : String → Option Param) (doc : Kw) (hn : (doc.map Prod.fst).Nodup) (hv : ("min_volume", Arg.one .none) ∉ doc)
    (hb : "cost" ∉ doc.map Prod.fst ∨ "above_curve_cost" ∉ doc.map Prod.fst) :
    fromDocument known reservoir doc = (resolve known reservoir.held doc).bind (construct reservoir) := by
  have hperm : (doc.filter (fun e => !reservoir.held.contains e.1) ++ doc.filter fun e => reservoir.held.contains e.1).Perm doc :=
    (List.perm_append_comm).trans (List.filter_append_perm _ doc)
  have hn' : ((doc.filter (fun e => !reservoir.held.contains e.1) ++ doc.filter fun e => reservoir.held.contains e.1).map Prod.fst).Nodup :=
    (hperm.map Prod.fst).nodup_iff.2 hn
  have hp : ∀ e ∈ doc.filter (fun e => reservoir.held.contains e.1), ∀ v, load known e.2 = some v → Plain storage e.1 v := by
    rintro ⟨k, u⟩ he v hl
    refine plain_storage (by simp [storage, storageAttrs]) k v ?_
    rintro hk rfl
    have hu : u = .one .none := load_none hl
    rw [hk, hu] at he
    exact hv (List.mem_filter.1 he).1
  have hkeys : ∀ l L' : Kw, (l.mapM fun e => (load known e.2).map fun v => (e.1, v)) = some L' → L'.map Prod.fst = l.map Prod.fst := by
    intro l
    induction l with
    | nil => intro L' h1; cases h1; rfl
    | cons e l ih =>
      intro L' h1
      rw [List.mapM_cons] at h1
      obtain ⟨b, hb, h1⟩ := Option.bind_eq_some_iff.1 h1
      obtain ⟨bs, hbs, h1⟩ := Option.bind_eq_some_iff.1 h1
      cases h1
      obtain ⟨v, _, rfl⟩ := Option.map_eq_some_iff.1 hb
      rw [List.map_cons, List.map_cons, ih bs hbs]
  have hheld : ∀ e ∈ doc.filter (fun e => reservoir.held.contains e.1), e.1 ∈ storage.held := by
    intro e he
    have := (List.mem_filter.1 he).2
    simpa [reservoir] using this
  have hthree : ∀ L' : Kw, L'.map Prod.fst = (doc.filter fun e => reservoir.held.contains e.1).map Prod.fst → ∀ e ∈ L', e.1 ≠ "control_curve" ∧ e.1 ≠ "above_curve_cost" := by
    intro L' hL e he
    have hm : e.1 ∈ L'.map Prod.fst := List.mem_map_of_mem he
    rw [hL] at hm
    obtain ⟨f, hf, e'⟩ := List.mem_map.1 hm
    have := hheld f hf
    rw [e'] at this
    simp only [storage, List.mem_cons, List.not_mem_nil, or_false] at this
    rcases this with h | h | h | h | h <;> rw [h] <;> decide
  set N := doc.filter (fun e => !reservoir.held.contains e.1) with hN
  set L := doc.filter (fun e => reservoir.held.contains e.1) with hL
  have hNcost : "cost" ∉ N.map Prod.fst := by
    intro h
    obtain ⟨e, he, h⟩ := List.mem_map.1 h
    have := (List.mem_filter.1 he).2
    rw [h] at this
    exact absurd this (by decide)
  -- the constructor gets `kw` followed by the attributes kept for later
  have steps : ∀ kw : Kw, ((kw ++ L).map Prod.fst).Nodup →
      (construct storage kw).bind (finaliseLoad known reservoir doc) = (L.mapM fun e => (load known e.2).map fun v => (e.1, v)).bind fun L' => construct storage (kw ++ L') :=
    fun kw hk => construct_steps storage_regular known L hheld hp kw hk
  have honodup : ((others N ++ L).map Prod.fst).Nodup := hn'.sublist ((List.filter_sublist.append (List.Sublist.refl _)).map _)
  unfold fromDocument preLoad
  rw [← hN, reservoir_construct, prepare_eq, lookup_none hNcost]
  have hA : ∀ L' doc' : Kw, (L.mapM fun e => (load known e.2).map fun v => (e.1, v)) = some L' → (N ++ L').Perm doc' →
      (doc'.map Prod.fst).Nodup ∧ doc'.lookup "above_curve_cost" = N.lookup "above_curve_cost" ∧ doc'.lookup "control_curve" = N.lookup "control_curve" ∧
        ∀ e, e ∈ doc' ↔ e ∈ N ∨ e ∈ L' := by
    intro L' doc' h1 h3
    have hk := hkeys L L' h1
    have hnn : ((N ++ L').map Prod.fst).Nodup := by rw [List.map_append, hk, ← List.map_append]; exact hn'
    have hout : ∀ k, (k = "above_curve_cost" ∨ k = "control_curve") → k ∉ L'.map Prod.fst := by
      intro k hk' hm
      obtain ⟨e, he, e'⟩ := List.mem_map.1 hm
      have := hthree L' hk e he
      rw [e'] at this
      rcases hk' with rfl | rfl
      · exact this.2 rfl
      · exact this.1 rfl
    refine ⟨(h3.map _).nodup_iff.1 hnn, ?_, ?_, ?_⟩
    · rw [← lookup_perm h3 hnn, lookup_append (hout _ (.inl rfl))]
    · rw [← lookup_perm h3 hnn, lookup_append (hout _ (.inr rfl))]
    · intro e; rw [← h3.mem_iff, List.mem_append]
  by_cases hcost : "cost" ∈ doc.map Prod.fst
  · -- the cost is given and the cost above the curve is not
    have habove : "above_curve_cost" ∉ doc.map Prod.fst := hb.resolve_left fun h => h hcost
    have hNabove : "above_curve_cost" ∉ N.map Prod.fst := fun h => habove ((List.filter_sublist.map _).subset h)
    rw [lookup_none hNabove]
    show ((some (("cost", Arg.one (.num 0)) :: others N)).bind (construct storage)).bind _ = _
    rw [Option.bind_some, storage_zero_cost, steps _ honodup]
    · rw [resolve_eq]
      rcases resolve_split (fun e => (load known e.2).map fun v => (e.1, v)) (fun e => reservoir.held.contains e.1) doc with ⟨h1, h2⟩ | ⟨L', doc', h1, h2, h3⟩
      · rw [← hL] at h1
        rw [h1, h2]; rfl
      · rw [← hL] at h1
        rw [h1, h2, Option.bind_some, Option.bind_some, reservoir_construct, prepare_eq]
        obtain ⟨hd, ha, _, hmem⟩ := hA L' doc' h1 h3
        rw [ha, lookup_none hNabove]
        have hin : "cost" ∈ doc'.map Prod.fst := by
          have : ((N ++ L').map Prod.fst).Perm (doc'.map Prod.fst) := h3.map _
          rw [← this.mem_iff, List.map_append, hkeys L L' h1, ← List.map_append, (hperm.map Prod.fst).mem_iff]
          exact hcost
        obtain ⟨⟨k, v⟩, he, rfl⟩ := List.mem_map.1 hin
        rw [(lookup_iff hd _ _).2 he]
        show _ = construct storage (("cost", v) :: others doc')
        have hc1 : ("cost", v) ∉ others doc' := fun h => (mem_others.1 h).2.2.2 rfl
        have hon : ((others N ++ L').map Prod.fst).Nodup := by rw [List.map_append, hkeys L L' h1, ← List.map_append]; exact honodup
        apply construct_perm (fun _ => rfl) _ hon
        rw [List.perm_ext_iff_of_nodup (hon.of_map _) (List.nodup_cons.2 ⟨hc1, (hd.of_map _).sublist List.filter_sublist⟩)]
        intro e
        rw [List.mem_append, List.mem_cons, mem_others, mem_others, hmem]
        constructor
        · rintro (⟨he, h⟩ | hl)
          · exact .inr ⟨.inl he, h⟩
          · by_cases hc : e.1 = "cost"
            · left
              have h1 := (lookup_iff hd e.1 e.2).2 ((hmem e).2 (.inr hl))
              rw [hc, (lookup_iff hd _ _).2 he] at h1
              rw [Option.some.inj h1, ← hc]
            · have := hthree L' (hkeys L L' h1) e hl
              exact .inr ⟨.inr hl, this.1, this.2, hc⟩
        · rintro (rfl | ⟨h | h, h'⟩)
          · rcases (hmem _).1 he with h | h
            · exact absurd (List.mem_map_of_mem (f := Prod.fst) h) hNcost
            · exact .inr h
          · exact .inl ⟨h, h'⟩
          · exact .inr h
    · intro h
      obtain ⟨e, he, h⟩ := List.mem_map.1 h
      exact (mem_others.1 he).2.2.2 h
  · -- the cost is not given
    have hcn : ∀ v, (((("cost", v) :: others N) ++ L).map Prod.fst).Nodup := by
      intro v
      rw [List.cons_append, List.map_cons, List.nodup_cons]
      refine ⟨fun h => hcost ?_, honodup⟩
      rw [← (hperm.map Prod.fst).mem_iff]
      exact ((List.filter_sublist.append (List.Sublist.refl _)).map _).subset h
    rw [Option.bind_assoc]
    have : ((costOf (N.lookup "above_curve_cost") none (N.lookup "control_curve")).map (fun v => ("cost", v) :: others N)).bind
        (fun kw => (construct storage kw).bind (finaliseLoad known reservoir doc)) =
        (costOf (N.lookup "above_curve_cost") none (N.lookup "control_curve")).bind fun v =>
          (L.mapM fun e => (load known e.2).map fun v => (e.1, v)).bind fun L' => construct storage ((("cost", v) :: others N) ++ L') := by
      cases costOf (N.lookup "above_curve_cost") none (N.lookup "control_curve") with
      | none => rfl
      | some v => exact steps _ (hcn v)
    rw [this]
    rw [resolve_eq]
    rcases resolve_split (fun e => (load known e.2).map fun v => (e.1, v)) (fun e => reservoir.held.contains e.1) doc with ⟨h1, h2⟩ | ⟨L', doc', h1, h2, h3⟩
    · rw [← hL] at h1
      rw [h1, h2]
      cases costOf (N.lookup "above_curve_cost") none (N.lookup "control_curve") <;> rfl
    · rw [← hL] at h1
      rw [h1, h2, Option.bind_some, reservoir_construct, prepare_eq]
      obtain ⟨hd, ha, hcc, hmem⟩ := hA L' doc' h1 h3
      have hout : "cost" ∉ doc'.map Prod.fst := by
        have : ((N ++ L').map Prod.fst).Perm (doc'.map Prod.fst) := h3.map _
        rw [← this.mem_iff, List.map_append, hkeys L L' h1, ← List.map_append, (hperm.map Prod.fst).mem_iff]
        exact hcost
      rw [ha, hcc, lookup_none hout]
      cases costOf (N.lookup "above_curve_cost") none (N.lookup "control_curve") with
      | none => rfl
      | some v =>
        show construct storage _ = construct storage _
        have hon : (((("cost", v) :: others N) ++ L').map Prod.fst).Nodup := by
          rw [List.map_append, hkeys L L' h1, ← List.map_append]; exact hcn v
        have hc1 : ("cost", v) ∉ others doc' := fun h => (mem_others.1 h).2.2.2 rfl
        apply construct_perm (fun _ => rfl) _ hon
        rw [List.perm_ext_iff_of_nodup (hon.of_map _) (List.nodup_cons.2 ⟨hc1, (hd.of_map _).sublist List.filter_sublist⟩)]
        intro e
        rw [List.cons_append, List.mem_cons, List.mem_append, List.mem_cons, mem_others, mem_others, hmem]
        constructor
        · rintro (h | ⟨he, h⟩ | hl)
          · exact .inl h
          · exact .inr ⟨.inl he, h⟩
          · have := hthree L' (hkeys L L' h1) e hl
            exact .inr ⟨.inr hl, this.1, this.2, fun hc => hout (hc ▸ List.mem_map_of_mem ((hmem e).2 (.inr hl)))⟩
        · rintro (h | ⟨h | h, h'⟩)
          · exact .inl h
          · exact .inr (.inl ⟨h, h'⟩)
          · exact .inr (.inr h)

/-- C82: a reservoir with a cost above its curve, a limit by name and no `cost`. -/
example : (fromDocument names reservoir [("max_volume", .one (.text "limit")), ("above_curve_cost", .one (.num 5)), ("control_curve", .one (.num (1 / 2)))]).map
    (fun o => [o (none, "max_volume"), o (none, "cost"), o (none, "level")]) =
      some [some (.param (.named "limit")), some (.param (.curve (.const (1 / 2)) 5 0)), some (.num 0)] := by decide +kernel

end Verif.NodeLoading

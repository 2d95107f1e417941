import Verif.Proof.NodeLoading
import Verif.Spec.NodeLoading
/-!
# Lemmas on the node classes in a document
-/

set_option linter.unusedSimpArgs false

namespace Verif.NodeLoading

theorem regular_document {c : Class} {cells : String → List Key} (hc : Regular c cells) (known : String → Option Param) (doc : Kw)
    (hn : (doc.map Prod.fst).Nodup) (hp : ∀ e ∈ doc, e.1 ∈ c.held → ∀ v, load known e.2 = some v → Plain c e.1 v) :
    fromDocument known c doc = (resolve known c.held doc).bind (construct c) := by
  have hperm : (doc.filter (fun e => !c.held.contains e.1) ++ doc.filter fun e => c.held.contains e.1).Perm doc :=
    (List.perm_append_comm).trans (List.filter_append_perm _ doc)
  have hn' : ((doc.filter (fun e => !c.held.contains e.1) ++ doc.filter fun e => c.held.contains e.1).map Prod.fst).Nodup :=
    (hperm.map Prod.fst).nodup_iff.2 hn
  unfold fromDocument preLoad
  show (construct c _).bind (fun o => (doc.filter fun e => c.held.contains e.1).foldlM _ o) = _
  rw [construct_steps hc known _ (fun e he => by simpa using (List.mem_filter.1 he).2)
    (fun e he => hp e (List.mem_filter.1 he).1 (by simpa using (List.mem_filter.1 he).2)) _ hn']
  rw [resolve_eq]
  rcases resolve_split (fun e => (load known e.2).map fun v => (e.1, v)) (fun e => c.held.contains e.1) doc with ⟨h1, h2⟩ | ⟨L', doc', h1, h2, h3⟩
  · rw [h1, h2]; rfl
  · rw [h1, h2, Option.bind_some, Option.bind_some]
    apply construct_perm hc.prepare h3
    have hk : L'.map Prod.fst = (doc.filter fun e => c.held.contains e.1).map Prod.fst := by
      clear hn' hperm h2 h3
      generalize (doc.filter fun e => c.held.contains e.1) = l at h1
      induction l generalizing L' with
      | nil => cases h1; rfl
      | cons e l ih =>
        rw [List.mapM_cons] at h1
        obtain ⟨b, hb, h1⟩ := Option.bind_eq_some_iff.1 h1
        obtain ⟨bs, hbs, h1⟩ := Option.bind_eq_some_iff.1 h1
        cases h1
        obtain ⟨v, _, rfl⟩ := Option.map_eq_some_iff.1 hb
        rw [List.map_cons, List.map_cons, ih bs hbs]
    rw [List.map_append, hk, ← List.map_append]
    exact hn'

/-! ## The classes -/

theorem scalar_exact {key : Key} {conv : Value → Option Value} {v : Arg} {ws : List (Key × Value)} (h : scalar key conv v = some ws) (x : Key) :
    (∃ w ∈ ws, w.1 = x) ↔ x ∈ [key] := by
  cases v with
  | many _ => cases h
  | one v =>
    obtain ⟨u, _, rfl⟩ := Option.map_eq_some_iff.1 h
    simp [eq_comm]

theorem scalar_avoid {key : Key} {conv : Value → Option Value} {v : Arg} {ws : List (Key × Value)} (h : scalar key conv v = some ws) {cells : List Key}
    (hk : key ∉ cells) : ∀ w ∈ ws, w.1 ∉ cells := by
  intro w hw hc
  have := (scalar_exact h w.1).1 ⟨w, hw, rfl⟩
  rw [List.mem_singleton.1 this] at hc
  exact hk hc

theorem flow_exact {v : Arg} {ws : List (Key × Value)} (h : flowWrite v = some ws) (x : Key) :
    (∃ w ∈ ws, w.1 = x) ↔ x ∈ [((none, "min_flow") : Key), (none, "max_flow")] := by
  cases v with
  | many _ => cases h
  | one v =>
    obtain ⟨a, _, h⟩ := Option.bind_eq_some_iff.1 h
    obtain ⟨b, _, rfl⟩ := Option.map_eq_some_iff.1 h
    simp [eq_comm]

theorem mapM_length {α β : Type} {f : α → Option β} {l : List α} {out : List β} (h : l.mapM f = some out) : out.length = l.length := by
  induction l generalizing out with
  | nil => cases h; rfl
  | cons a l ih =>
    rw [List.mapM_cons] at h
    obtain ⟨b, _, h⟩ := Option.bind_eq_some_iff.1 h
    obtain ⟨bs, hbs, h⟩ := Option.bind_eq_some_iff.1 h
    cases h
    simp [ih hbs]

theorem perLink_exact {n : Nat} {attr : String} {conv : Value → Option Value} {v : Arg} {ws : List (Key × Value)} (h : perLink n attr conv v = some ws) (x : Key) :
    (∃ w ∈ ws, w.1 = x) ↔ x ∈ (List.range n).map fun i : Nat => ((some i, attr) : Key) := by
  cases v with
  | one _ => cases h
  | many vs =>
    simp only [perLink] at h
    split at h
    case isFalse => cases h
    case isTrue hl =>
      obtain ⟨us, hu, rfl⟩ := Option.map_eq_some_iff.1 h
      have hlen := (mapM_length hu).trans hl
      constructor
      · rintro ⟨w, hw, rfl⟩
        obtain ⟨p, hp, rfl⟩ := List.mem_map.1 hw
        obtain ⟨_, h2⟩ := List.mem_zipIdx' (x := p.1) (i := p.2) hp
        exact List.mem_map.2 ⟨p.2, List.mem_range.2 (by omega), rfl⟩
      · intro hx
        obtain ⟨i, hi, rfl⟩ := List.mem_map.1 hx
        have hi' : i < us.length := by rw [hlen]; exact List.mem_range.1 hi
        exact ⟨((some i, attr), us[i]), List.mem_map.2 ⟨(us[i], i), by
          rw [List.mem_iff_getElem?]; exact ⟨i, by simp [hi']⟩, rfl⟩, rfl⟩

theorem perLink_avoid {n : Nat} {attr : String} {conv : Value → Option Value} {v : Arg} {ws : List (Key × Value)} (h : perLink n attr conv v = some ws) {cells : List Key}
    (hk : ∀ i, (some i, attr) ∉ cells) : ∀ w ∈ ws, w.1 ∉ cells := by
  intro w hw hc
  have := (perLink_exact h w.1).1 ⟨w, hw, rfl⟩
  obtain ⟨i, _, e⟩ := List.mem_map.1 this
  exact hk i (e ▸ hc)

/-- Cells of the attributes of the plain classes. -/
def plainCells (k : String) : List Key := if k = "flow" then [(none, "min_flow"), (none, "max_flow")] else [(none, k)]

theorem node_regular : Regular node plainCells := by
  refine ⟨fun _ => rfl, by decide, ?_⟩
  intro k hk
  simp only [node, List.mem_cons, List.not_mem_nil, or_false] at hk
  rcases hk with rfl | rfl | rfl
  · refine ⟨nodeAttrs.take 2, _, nodeAttrs.drop 3, rfl, rfl, by decide, ?_, fun v ws h => scalar_exact h, ?_⟩
    · rintro d h; cases h; rfl
    · intro b hb v ws h
      simp only [node, nodeAttrs, storageAttrs, List.take_succ_cons, List.take_zero, List.drop_succ_cons, List.drop_zero, List.cons_append, List.nil_append, List.mem_cons, List.not_mem_nil, or_false] at hb
      subst hb
      exact scalar_avoid h (by decide)
  · refine ⟨nodeAttrs.take 0, _, nodeAttrs.drop 1, rfl, rfl, by decide, ?_, fun v ws h => scalar_exact h, ?_⟩
    · rintro d h; cases h; rfl
    · intro b hb v ws h
      simp only [node, nodeAttrs, storageAttrs, List.take_succ_cons, List.take_zero, List.drop_succ_cons, List.drop_zero, List.cons_append, List.nil_append, List.mem_cons, List.not_mem_nil, or_false] at hb
      rcases hb with rfl | rfl | rfl
      · exact scalar_avoid h (by decide)
      · exact scalar_avoid h (by decide)
      · exact scalar_avoid h (by decide)
  · refine ⟨nodeAttrs.take 1, _, nodeAttrs.drop 2, rfl, rfl, by decide, ?_, fun v ws h => scalar_exact h, ?_⟩
    · rintro d h; cases h; rfl
    · intro b hb v ws h
      simp only [node, nodeAttrs, storageAttrs, List.take_succ_cons, List.take_zero, List.drop_succ_cons, List.drop_zero, List.cons_append, List.nil_append, List.mem_cons, List.not_mem_nil, or_false] at hb
      rcases hb with rfl | rfl
      · exact scalar_avoid h (by decide)
      · exact scalar_avoid h (by decide)

theorem loss_regular : Regular lossLink plainCells := by
  refine ⟨fun _ => rfl, by decide, ?_⟩
  intro k hk
  simp only [lossLink, List.mem_cons, List.not_mem_nil, or_false] at hk
  rcases hk with rfl | rfl | rfl | rfl
  · refine ⟨lossLink.attrs.take 0, _, lossLink.attrs.drop 1, rfl, rfl, by decide, ?_, fun v ws h => scalar_exact h, ?_⟩
    · rintro d h; cases h; rfl
    · intro b hb v ws h
      simp only [lossLink, nodeAttrs, storageAttrs, List.take_succ_cons, List.take_zero, List.drop_succ_cons, List.drop_zero, List.cons_append, List.nil_append, List.mem_cons, List.not_mem_nil, or_false] at hb
      rcases hb with rfl | rfl | rfl | rfl
      · exact scalar_avoid h (by decide)
      · exact scalar_avoid h (by decide)
      · exact scalar_avoid h (by decide)
      · exact scalar_avoid h (by decide)
  · refine ⟨lossLink.attrs.take 2, _, lossLink.attrs.drop 3, rfl, rfl, by decide, ?_, fun v ws h => scalar_exact h, ?_⟩
    · rintro d h; cases h; rfl
    · intro b hb v ws h
      simp only [lossLink, nodeAttrs, storageAttrs, List.take_succ_cons, List.take_zero, List.drop_succ_cons, List.drop_zero, List.cons_append, List.nil_append, List.mem_cons, List.not_mem_nil, or_false] at hb
      rcases hb with rfl | rfl
      · exact scalar_avoid h (by decide)
      · exact scalar_avoid h (by decide)
  · refine ⟨lossLink.attrs.take 1, _, lossLink.attrs.drop 2, rfl, rfl, by decide, ?_, fun v ws h => scalar_exact h, ?_⟩
    · rintro d h; cases h; rfl
    · intro b hb v ws h
      simp only [lossLink, nodeAttrs, storageAttrs, List.take_succ_cons, List.take_zero, List.drop_succ_cons, List.drop_zero, List.cons_append, List.nil_append, List.mem_cons, List.not_mem_nil, or_false] at hb
      rcases hb with rfl | rfl | rfl
      · exact scalar_avoid h (by decide)
      · exact scalar_avoid h (by decide)
      · exact scalar_avoid h (by decide)
  · refine ⟨lossLink.attrs.take 3, _, lossLink.attrs.drop 4, rfl, rfl, by decide, ?_, fun v ws h => scalar_exact h, ?_⟩
    · rintro d h; cases h; rfl
    · intro b hb v ws h
      simp only [lossLink, nodeAttrs, storageAttrs, List.take_succ_cons, List.take_zero, List.drop_succ_cons, List.drop_zero, List.cons_append, List.nil_append, List.mem_cons, List.not_mem_nil, or_false] at hb
      subst hb
      exact scalar_avoid h (by decide)

theorem catchment_regular : Regular catchment plainCells := by
  refine ⟨fun _ => rfl, by decide, ?_⟩
  intro k hk
  simp only [catchment, List.mem_cons, List.not_mem_nil, or_false] at hk
  rcases hk with rfl | rfl
  · refine ⟨catchment.attrs.take 2, _, catchment.attrs.drop 3, rfl, rfl, by decide, ?_, fun v ws h => scalar_exact h, ?_⟩
    · rintro d h; cases h; rfl
    · intro b hb v ws h
      simp only [catchment, nodeAttrs, storageAttrs, List.take_succ_cons, List.take_zero, List.drop_succ_cons, List.drop_zero, List.cons_append, List.nil_append, List.mem_cons, List.not_mem_nil, or_false] at hb
      rcases hb with rfl | rfl
      · exact scalar_avoid h (by decide)
      · exact fun w hw hc => absurd hc (by rcases List.mem_cons.1 ((flow_exact h w.1).1 ⟨w, hw, rfl⟩) with e | e <;> [rw [e]; rw [List.mem_singleton.1 e]] <;> decide)
  · refine ⟨catchment.attrs.take 4, _, catchment.attrs.drop 5, rfl, rfl, by decide, ?_, fun v ws h => flow_exact h, ?_⟩
    · rintro d h; cases h; rfl
    · intro b hb; simp [catchment, nodeAttrs] at hb

theorem storage_regular : Regular storage plainCells := by
  refine ⟨fun _ => rfl, by decide, ?_⟩
  intro k hk
  simp only [storage, List.mem_cons, List.not_mem_nil, or_false] at hk
  rcases hk with rfl | rfl | rfl | rfl | rfl
  · refine ⟨storageAttrs.take 4, _, storageAttrs.drop 5, rfl, rfl, by decide, ?_, fun v ws h => scalar_exact h, ?_⟩
    · rintro d h; cases h; rfl
    · intro b hb v ws h
      simp only [storage, nodeAttrs, storageAttrs, List.take_succ_cons, List.take_zero, List.drop_succ_cons, List.drop_zero, List.cons_append, List.nil_append, List.mem_cons, List.not_mem_nil, or_false] at hb
      rcases hb with rfl | rfl
      · exact scalar_avoid h (by decide)
      · exact scalar_avoid h (by decide)
  · refine ⟨storageAttrs.take 0, _, storageAttrs.drop 1, rfl, rfl, by decide, ?_, fun v ws h => scalar_exact h, ?_⟩
    · rintro d h; cases h; rfl
    · intro b hb v ws h
      simp only [storage, nodeAttrs, storageAttrs, List.take_succ_cons, List.take_zero, List.drop_succ_cons, List.drop_zero, List.cons_append, List.nil_append, List.mem_cons, List.not_mem_nil, or_false] at hb
      rcases hb with rfl | rfl | rfl | rfl | rfl | rfl
      · exact scalar_avoid h (by decide)
      · exact scalar_avoid h (by decide)
      · exact scalar_avoid h (by decide)
      · exact scalar_avoid h (by decide)
      · exact scalar_avoid h (by decide)
      · exact scalar_avoid h (by decide)
  · refine ⟨storageAttrs.take 1, _, storageAttrs.drop 2, rfl, rfl, by decide, ?_, fun v ws h => scalar_exact h, ?_⟩
    · rintro d h; cases h; rfl
    · intro b hb v ws h
      simp only [storage, nodeAttrs, storageAttrs, List.take_succ_cons, List.take_zero, List.drop_succ_cons, List.drop_zero, List.cons_append, List.nil_append, List.mem_cons, List.not_mem_nil, or_false] at hb
      rcases hb with rfl | rfl | rfl | rfl | rfl
      · exact scalar_avoid h (by decide)
      · exact scalar_avoid h (by decide)
      · exact scalar_avoid h (by decide)
      · exact scalar_avoid h (by decide)
      · exact scalar_avoid h (by decide)
  · refine ⟨storageAttrs.take 5, _, storageAttrs.drop 6, rfl, rfl, by decide, ?_, fun v ws h => scalar_exact h, ?_⟩
    · rintro d h; cases h; rfl
    · intro b hb v ws h
      simp only [storage, nodeAttrs, storageAttrs, List.take_succ_cons, List.take_zero, List.drop_succ_cons, List.drop_zero, List.cons_append, List.nil_append, List.mem_cons, List.not_mem_nil, or_false] at hb
      subst hb
      exact scalar_avoid h (by decide)
  · refine ⟨storageAttrs.take 6, _, storageAttrs.drop 7, rfl, rfl, by decide, ?_, fun v ws h => scalar_exact h, ?_⟩
    · rintro d h; cases h; rfl
    · intro b hb; simp [storageAttrs, nodeAttrs] at hb

theorem virtual_regular : Regular virtualStorage plainCells := by
  refine ⟨fun _ => rfl, by decide, ?_⟩
  intro k hk
  simp only [virtualStorage, List.mem_cons, List.not_mem_nil, or_false] at hk
  rcases hk with rfl | rfl
  · refine ⟨virtualStorage.attrs.take 0, _, virtualStorage.attrs.drop 1, rfl, rfl, by decide, ?_, fun v ws h => scalar_exact h, ?_⟩
    · rintro d h; cases h; rfl
    · intro b hb v ws h
      simp only [virtualStorage, nodeAttrs, storageAttrs, List.take_succ_cons, List.take_zero, List.drop_succ_cons, List.drop_zero, List.cons_append, List.nil_append, List.mem_cons, List.not_mem_nil, or_false] at hb
      rcases hb with rfl | rfl | rfl | rfl
      · exact scalar_avoid h (by decide)
      · exact scalar_avoid h (by decide)
      · exact scalar_avoid h (by decide)
      · exact scalar_avoid h (by decide)
  · refine ⟨virtualStorage.attrs.take 1, _, virtualStorage.attrs.drop 2, rfl, rfl, by decide, ?_, fun v ws h => scalar_exact h, ?_⟩
    · rintro d h; cases h; rfl
    · intro b hb v ws h
      simp only [virtualStorage, nodeAttrs, storageAttrs, List.take_succ_cons, List.take_zero, List.drop_succ_cons, List.drop_zero, List.cons_append, List.nil_append, List.mem_cons, List.not_mem_nil, or_false] at hb
      rcases hb with rfl | rfl | rfl
      · exact scalar_avoid h (by decide)
      · exact scalar_avoid h (by decide)
      · exact scalar_avoid h (by decide)

/-- Cells of the attributes of a `PiecewiseLink`. -/
def linkCells (n : Nat) (k : String) : List Key := (List.range n).map fun i : Nat => (some i, if k = "costs" then "cost" else "max_flow")

theorem piecewise_regular (n : Nat) : Regular (piecewise n) (linkCells n) := by
  refine ⟨fun _ => rfl, by intro k hk; simp only [piecewise, nodeKeywords, List.mem_cons, List.not_mem_nil, or_false] at hk ⊢; tauto, ?_⟩
  intro k hk
  simp only [piecewise, List.mem_cons, List.not_mem_nil, or_false] at hk
  rcases hk with rfl | rfl
  · refine ⟨(piecewise n).attrs.take 4, _, (piecewise n).attrs.drop 5, rfl, rfl, by simp [piecewise, nodeAttrs], ?_, fun v ws h => perLink_exact h, ?_⟩
    · rintro d h; cases h
    · intro b hb v ws h
      simp only [piecewise, nodeAttrs, storageAttrs, List.take_succ_cons, List.take_zero, List.drop_succ_cons, List.drop_zero, List.cons_append, List.nil_append, List.mem_cons, List.not_mem_nil, or_false] at hb
      subst hb
      exact perLink_avoid h (by simp [linkCells])
  · refine ⟨(piecewise n).attrs.take 5, _, (piecewise n).attrs.drop 6, rfl, rfl, by simp [piecewise, nodeAttrs], ?_, fun v ws h => perLink_exact h, ?_⟩
    · rintro d h; cases h
    · intro b hb; simp [piecewise, nodeAttrs] at hb

/-- Cells of the attributes of a gauge. -/
def gaugeCells (k : String) : List Key := if k = "mrf_cost" then [(some 0, "cost")] else if k = "cost" then [(some 1, "cost")] else [(some 0, "max_flow")]

theorem gauge_regular (extra : Nat) : Regular (gauge extra) gaugeCells := by
  refine ⟨fun _ => rfl, by show ∀ k ∈ ["cost", "mrf_cost", "mrf"], k ∈ ["min_flow", "max_flow", "conversion_factor", "mrf_cost", "cost", "mrf"]; decide, ?_⟩
  have htail : ∀ b ∈ (List.range extra).flatMap (fun i : Nat => [(⟨"", some (.one (.num 0)), asGiven, scalar (some (i + 2), "cost") strict⟩ : Attr),
      ⟨"", some (.one .none), asGiven, scalar (some (i + 2), "max_flow") (orElse .inf)⟩]),
      b.name = "" ∧ ∀ k v ws, b.write v = some ws → ∀ w ∈ ws, w.1 ∉ gaugeCells k := by
    intro b hb
    obtain ⟨i, _, hb⟩ := List.mem_flatMap.1 hb
    simp only [List.mem_cons, List.not_mem_nil, or_false] at hb
    rcases hb with rfl | rfl <;> refine ⟨rfl, fun k v ws h => scalar_avoid h ?_⟩ <;> unfold gaugeCells <;> split <;> try split
    all_goals simp
  intro k hk
  simp only [gauge, List.mem_cons, List.not_mem_nil, or_false] at hk
  rcases hk with rfl | rfl | rfl
  · refine ⟨((gauge 0).attrs).take 4, _, ((gauge 0).attrs).drop 5 ++ _, rfl, rfl, ?_, ?_, fun v ws h => scalar_exact h, ?_⟩
    · intro b hb
      rcases List.mem_append.1 hb with hb | hb
      · exact (show ∀ b ∈ ((gauge 0).attrs).take 4, b.name ≠ "cost" by decide) b hb
      · rcases List.mem_append.1 hb with hb | hb
        · exact (show ∀ b ∈ ((gauge 0).attrs).drop 5, b.name ≠ "cost" by decide) b hb
        · rw [(htail b hb).1]; decide
    · rintro d h; cases h; rfl
    · intro b hb v ws h
      rcases List.mem_append.1 hb with hb | hb
      · simp only [gauge, List.range_zero, List.flatMap_nil, List.append_nil, List.drop_succ_cons, List.drop_zero, List.mem_cons, List.not_mem_nil, or_false] at hb
        rcases hb with rfl | rfl <;> exact scalar_avoid h (by decide)
      · exact (htail b hb).2 _ v ws h
  · refine ⟨((gauge 0).attrs).take 3, _, ((gauge 0).attrs).drop 4 ++ _, rfl, rfl, ?_, ?_, fun v ws h => scalar_exact h, ?_⟩
    · intro b hb
      rcases List.mem_append.1 hb with hb | hb
      · exact (show ∀ b ∈ ((gauge 0).attrs).take 3, b.name ≠ "mrf_cost" by decide) b hb
      · rcases List.mem_append.1 hb with hb | hb
        · exact (show ∀ b ∈ ((gauge 0).attrs).drop 4, b.name ≠ "mrf_cost" by decide) b hb
        · rw [(htail b hb).1]; decide
    · rintro d h; cases h; rfl
    · intro b hb v ws h
      rcases List.mem_append.1 hb with hb | hb
      · simp only [gauge, List.range_zero, List.flatMap_nil, List.append_nil, List.drop_succ_cons, List.drop_zero, List.mem_cons, List.not_mem_nil, or_false] at hb
        rcases hb with rfl | rfl | rfl <;> exact scalar_avoid h (by decide)
      · exact (htail b hb).2 _ v ws h
  · refine ⟨((gauge 0).attrs).take 5, _, ((gauge 0).attrs).drop 6 ++ _, rfl, rfl, ?_, ?_, fun v ws h => scalar_exact h, ?_⟩
    · intro b hb
      rcases List.mem_append.1 hb with hb | hb
      · exact (show ∀ b ∈ ((gauge 0).attrs).take 5, b.name ≠ "mrf" by decide) b hb
      · rcases List.mem_append.1 hb with hb | hb
        · exact (show ∀ b ∈ ((gauge 0).attrs).drop 6, b.name ≠ "mrf" by decide) b hb
        · rw [(htail b hb).1]; decide
    · rintro d h; cases h; rfl
    · intro b hb v ws h
      rcases List.mem_append.1 hb with hb | hb
      · simp only [gauge, List.range_zero, List.flatMap_nil, List.append_nil, List.drop_succ_cons, List.drop_zero, List.mem_cons, List.not_mem_nil, or_false] at hb
        subst hb; exact scalar_avoid h (by decide)
      · exact (htail b hb).2 _ v ws h

/-- An attribute after construction, if the later assignments leave it alone. -/
theorem construct_get {c : Class} {kw : Kw} {o : Obj} (h : construct c kw = some o) (hprep : c.prepare kw = some kw) {pre post : List Attr} {a : Attr}
    (e : c.attrs = pre ++ a :: post) {x : Key} (hav : ∀ b ∈ post, ∀ v ws, b.write v = some ws → ∀ w ∈ ws, w.1 ≠ x) :
    ∃ ws, assign kw a = some ws ∧ ((∃ w ∈ ws, w.1 = x) → o x = Obj.set (fun _ => none) ws x) := by
  unfold construct at h
  split at h
  · cases h
  · rw [hprep, Option.bind_some, fold_assign, e, List.mapM_append, List.mapM_cons] at h
    cases hP : pre.mapM (assign kw) with
    | none => rw [hP] at h; cases h
    | some P =>
      cases hA : assign kw a with
      | none => rw [hP, hA] at h; cases h
      | some ws =>
        cases hQ : post.mapM (assign kw) with
        | none => rw [hP, hA, hQ] at h; cases h
        | some Q =>
          rw [hP, hA, hQ] at h
          have h' : some (Obj.set (fun _ => none) (P ++ (ws :: Q)).flatten) = some o := h
          refine ⟨ws, rfl, fun hx => ?_⟩
          rw [← Option.some.inj h', List.flatten_append, List.flatten_cons, set_append, set_append, set_out]
          · exact set_in hx
          · intro w hw ew
            obtain ⟨q, hq, hw⟩ := List.mem_flatten.1 hw
            obtain ⟨b, hb, hbq⟩ := mapM_mem hQ hq
            rcases assign_cells hbq with ⟨u, hu⟩ | rfl
            · exact hav b hb u q hu w hw ew
            · cases hw

/-- A scalar attribute after construction. -/
theorem scalar_get {c : Class} {kw : Kw} {o : Obj} (h : construct c kw = some o) (hprep : c.prepare kw = some kw) {pre post : List Attr} {k : String} {d n : Value}
    {conv : Value → Option Value} {given : Arg → Option Arg} {x : Key}
    (e : c.attrs = pre ++ ⟨k, some (.one d), given, scalar x conv⟩ :: post) (hav : ∀ b ∈ post, ∀ v ws, b.write v = some ws → ∀ w ∈ ws, w.1 ≠ x)
    (hd : conv d = some (if d = .none then n else d)) (hg : ∀ v ws, (given v).bind (scalar x conv) = some ws → ∃ w, v = .one w ∧ ws = [(x, if w = .none then n else w)]) :
    o x = keyword kw k (if d = .none then n else d) n := by
  obtain ⟨ws, ha, hget⟩ := construct_get h hprep e hav
  unfold assign at ha
  unfold keyword
  cases hl : kw.lookup k with
  | none =>
    simp only [hl] at ha
    simp only [scalar, hd, Option.map_some] at ha
    rw [hget ⟨_, by rw [← Option.some.inj ha]; exact List.mem_cons_self, rfl⟩, ← Option.some.inj ha]
    simp [Obj.set]
  | some v =>
    simp only [hl] at ha
    obtain ⟨w, rfl, rfl⟩ := hg v ws ha
    rw [hget ⟨_, List.mem_cons_self, rfl⟩]
    cases w <;> simp [Obj.set]

theorem asGiven_scalar {x : Key} {conv : Value → Option Value} {n : Value} (hc : ∀ v u, conv v = some u → u = if v = .none then n else v) (v : Arg) (ws : List (Key × Value))
    (h : (asGiven v).bind (scalar x conv) = some ws) : ∃ w, v = .one w ∧ ws = [(x, if w = .none then n else w)] := by
  cases v with
  | many _ => cases h
  | one w =>
    obtain ⟨u, hu, rfl⟩ := Option.map_eq_some_iff.1 (show (conv w).map _ = some ws from h)
    exact ⟨w, rfl, by rw [hc w u hu]⟩

theorem noneIsZero_scalar {x : Key} {conv : Value → Option Value} (h0 : conv (.num 0) = some (.num 0)) (hc : ∀ v u, conv v = some u → u = if v = .none then .num 0 else v) (v : Arg)
    (ws : List (Key × Value)) (h : (noneIsZero v).bind (scalar x conv) = some ws) : ∃ w, v = .one w ∧ ws = [(x, if w = .none then .num 0 else w)] := by
  by_cases hv : v = .one .none
  · subst hv
    refine ⟨.none, rfl, ?_⟩
    simp only [noneIsZero, Option.bind_some, scalar, h0, Option.map_some] at h
    rw [← Option.some.inj h]; rfl
  · refine asGiven_scalar hc v ws ?_
    rw [← h]
    match v with
    | .one .none => exact absurd rfl hv
    | .one (.num _) => rfl
    | .one .inf => rfl
    | .one (.param _) => rfl
    | .one (.text _) => rfl
    | .many _ => rfl

theorem strict_eq {n : Value} (v u : Value) (h : strict v = some u) : u = if v = .none then n else v := by
  cases v <;> simp [strict] at h <;> subst h <;> simp

theorem orElse_eq {n : Value} (v u : Value) (h : orElse n v = some u) : u = if v = .none then n else v := by
  cases v <;> simp [orElse] at h <;> subst h <;> simp

theorem number_eq (v u : Value) (h : number v = some u) : u = if v = .none then .none else v := by
  cases v <;> simp [number] at h <;> subst h <;> simp

theorem constant_eq {n : Value} (v u : Value) (h : constant v = some u) : u = if v = .none then n else v := by
  cases v <;> simp [constant] at h <;> subst h <;> simp

end Verif.NodeLoading

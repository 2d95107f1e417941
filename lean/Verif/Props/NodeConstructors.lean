import Verif.Proof.NodeConstructors
import Verif.Proof.NodeClasses
import Verif.Props.NodeLoading
/-!
# C82: what the constructors of nodes take and keep
-/

namespace Verif.NodeLoading

/-- **C82.** The constructor of a node takes the described arguments and no others, refuses a call exactly if it has to, and makes of the call the described attributes and no others. -/
theorem C82_constructor {c : Class} {rows : List Row} (h : Attributes c rows) (kw : Kw) (o : Obj) : construct c kw = some o ↔ Makes rows kw o := by
  cases h with
  | node =>
    rw [← singles nodeRows]
    refine makes_iff (fun _ => rfl) (fun k => ?_) (fun kw _ => node_rows kw) kw o
    rw [singles]
    simp [node, nodeKeywords, nodeRows, own, eq_comm]
  | lossLink =>
    rw [← singles (own "loss_factor" .free (.num 0) :: nodeRows)]
    refine makes_iff (fun _ => rfl) (fun k => ?_) (fun kw _ => .cons ?_ (node_rows kw)) kw o
    · rw [singles]
      simp [lossLink, nodeKeywords, nodeRows, own, eq_comm]
    · exact assign_own rfl (fun v => by cases v <;> rfl) fun _ => rfl
  | catchment =>
    rw [← singles nodeRows, ← List.flatten_singleton (l := [_, _]), ← List.flatten_append]
    refine makes_iff (fun _ => rfl) (fun k => ?_) (fun kw _ => List.rel_append (node_rows kw) (.cons ?_ .nil)) kw o
    · rw [List.flatten_append, singles]
      simp [catchment, nodeKeywords, nodeRows, own, eq_comm]
      tauto
    · exact assign_flow kw
  | storage =>
    rw [← singles (volumeRows ++ _), List.map_append]
    refine makes_iff (fun _ => rfl) (fun k => ?_) (fun kw _ => List.rel_append (volume_rows kw) (.cons ?_ (.cons ?_ .nil))) kw o
    · rw [← List.map_append, singles]
      simp [storage, storageKeywords, volumeRows, own, eq_comm]
    · exact assign_own rfl (fun v => by cases v <;> rfl) fun _ => rfl
    · exact assign_own rfl (fun v => by cases v <;> rfl) fun _ => rfl
  | virtualStorage =>
    rw [← singles volumeRows]
    refine makes_iff (fun _ => rfl) (fun k => ?_) (fun kw _ => volume_rows kw) kw o
    rw [singles]
    simp [virtualStorage, volumeRows, own, eq_comm]
  | gauge extra =>
    rw [← singles (_ ++ _), List.map_append]
    refine makes_iff (fun _ => rfl) (fun k => ?_) (fun kw hkw => ?_) kw o
    · rw [← List.map_append, singles]
      rw [show k ∈ (gauge extra).keywords ↔ k ∈ ["min_flow", "max_flow", "conversion_factor", "mrf_cost", "cost", "mrf"] from Iff.rfl]
      constructor
      · intro hk
        simp only [List.mem_cons, List.not_mem_nil, or_false] at hk
        rcases hk with rfl | rfl | rfl | rfl | rfl | rfl <;> simp [own]
      · rintro ⟨r, hr, e⟩
        rcases List.mem_append.1 hr with hr | hr
        · simp only [List.mem_cons, List.not_mem_nil, or_false] at hr
          rcases hr with rfl | rfl | rfl | rfl | rfl | rfl | rfl <;> simp [own] at e <;> simp [← e]
        · obtain ⟨i, _, hr⟩ := List.mem_flatMap.1 hr
          simp only [List.mem_cons, List.not_mem_nil, or_false] at hr
          rcases hr with rfl | rfl <;> cases e
    · have hl : kw.lookup "" = none := lookup_none fun h => by
        obtain ⟨e, he, h⟩ := List.mem_map.1 h
        have := hkw e he
        rw [h] at this
        exact absurd this (by simp [gauge])
      refine List.rel_append ?_ ?_
      · refine .cons ?_ (.cons ?_ (.cons ?_ (.cons ?_ (.cons ?_ (.cons ?_ (.cons ?_ .nil))))))
        · exact assign_own rfl (fun v => by cases v <;> rfl) fun _ => rfl
        · exact assign_own rfl (fun v => by cases v <;> rfl) fun _ => rfl
        · exact assign_own rfl (fun v => by cases v <;> rfl) fun _ => rfl
        · exact assign_row rfl (fun v => by cases v <;> rfl) fun _ => rfl
        · exact assign_row rfl (fun v => by cases v <;> rfl) fun _ => rfl
        · exact assign_row rfl (fun v => by cases v <;> rfl) fun _ => rfl
        · exact assign_fixed hl rfl
      · induction List.range extra with
        | nil => exact .nil
        | cons i l ih =>
          rw [List.flatMap_cons, List.flatMap_cons, List.map_append]
          refine List.rel_append ?_ ih
          exact .cons (assign_fixed hl rfl) (.cons (assign_fixed hl rfl) .nil)

/-- **C82.** So does a document. -/
theorem C82_document {c : Class} {rows : List Row} (hc : Alike c) (h : Attributes c rows) (known : String → Option Param) (doc : Kw) (hn : (doc.map Prod.fst).Nodup) (o : Obj) :
    fromDocument known c doc = some o ↔ ∃ kw, resolve known c.held doc = some kw ∧ Makes rows kw o := by
  rw [C82_same hc known doc hn, Option.bind_eq_some_iff]
  exact exists_congr fun kw => and_congr_right fun _ => C82_constructor h kw o

/-- A storage with all of its attributes, and calls that are refused: a parameter for an initial volume, `None` for a cost, an unknown argument. -/
example : (construct storage [("initial_volume", .one (.num 5)), ("level", .one (.param (.named "curve"))), ("max_volume", .one .inf)]).map
      (fun o => ["min_volume", "max_volume", "initial_volume", "initial_volume_pc", "cost", "level", "area"].map fun k => o (none, k)) =
    some [some (.num 0), some .inf, some (.num 5), some .none, some (.num 0), some (.param (.named "curve")), some (.num 0)] ∧
    (construct storage [("initial_volume", .one (.param (.named "curve")))]).isNone = true ∧ (construct storage [("cost", .one .none)]).isNone = true ∧
    (construct virtualStorage [("level", .one (.num 0))]).isNone = true := by decide +kernel

/-- A conversion factor is a number. -/
example : (construct node [("conversion_factor", .one .inf)]).map (fun o => o (none, "conversion_factor")) = some (some .inf) ∧
    (construct node [("conversion_factor", .one (.param (.named "factor")))]).isNone = true := by decide +kernel

private theorem finalise_get {known : String → Option Param} {c : Class} {key : String} {a : Attr} {x : Key} {conv : Value → Option Value}
    (hf : (c.attrs.find? fun a => a.name == key) = some a) (hw : a.write = scalar x conv)
    (hother : ∀ k, k ≠ key → ∀ v o o', setattr c k v o = some o' → o' x = o x) (l : Kw) (hn : (l.map Prod.fst).Nodup) {o o' : Obj}
    (h : l.foldlM (fun o e => (load known e.2).bind fun v => setattr c e.1 v o) o = some o') :
    o' x = match l.lookup key with
      | none => o x
      | some (.one v) => (standsFor known v).bind conv
      | some (.many _) => none := by
  have hstay : ∀ (l : Kw) (o o' : Obj), key ∉ l.map Prod.fst → l.foldlM (fun o e => (load known e.2).bind fun v => setattr c e.1 v o) o = some o' → o' x = o x := by
    intro l
    induction l with
    | nil => intro o o' _ h; cases h; rfl
    | cons e l ih =>
      intro o o' hk h
      rw [List.foldlM_cons] at h
      obtain ⟨o1, h1, h2⟩ := Option.bind_eq_some_iff.1 h
      obtain ⟨v, _, h1⟩ := Option.bind_eq_some_iff.1 h1
      rw [List.map_cons, List.mem_cons, not_or] at hk
      rw [ih o1 o' hk.2 h2, hother e.1 (fun e' => hk.1 e'.symm) v o o1 h1]
  induction l generalizing o with
  | nil => cases h; rfl
  | cons e l ih =>
    obtain ⟨k, u⟩ := e
    rw [List.foldlM_cons] at h
    obtain ⟨o1, h1, h2⟩ := Option.bind_eq_some_iff.1 h
    obtain ⟨v, hv, h1⟩ := Option.bind_eq_some_iff.1 h1
    rw [List.map_cons, List.nodup_cons] at hn
    by_cases hk : key = k
    · subst hk
      rw [hstay l o1 o' hn.1 h2]
      simp only [setattr, hf] at h1
      obtain ⟨ws, hws, rfl⟩ := Option.map_eq_some_iff.1 h1
      rw [hw] at hws
      simp only [List.lookup_cons, beq_self_eq_true]
      match u with
      | .many us =>
        simp only [load] at hv
        obtain ⟨vs, _, rfl⟩ := Option.map_eq_some_iff.1 hv
        cases hws
      | .one w =>
        simp only [load] at hv
        obtain ⟨w', hw', rfl⟩ := Option.map_eq_some_iff.1 hv
        obtain ⟨y, hy, rfl⟩ := Option.map_eq_some_iff.1 hws
        have : standsFor known w = some w' := by
          rw [← hw']; cases w <;> simp [standsFor, loadValue]
          rename_i s; cases known s <;> rfl
        simp [this, hy, Obj.set]
    · have hb : (key == k) = false := by simpa using hk
      simp only [List.lookup_cons, hb]
      rw [ih hn.2 h2]
      have := hother k (fun e => hk e.symm) v o o1 h1
      rw [this]

private theorem aggregated_other {key : String} (hkey : key = "min_flow" ∨ key = "max_flow") (k : String) (hk : k ≠ key) (v : Arg) (o o' : Obj)
    (h : setattr aggregatedNode k v o = some o') : o' (none, key) = o (none, key) := by
  unfold setattr at h
  split at h
  · rename_i a ha
    obtain ⟨ws, hws, rfl⟩ := Option.map_eq_some_iff.1 h
    refine set_out fun w hw => ?_
    have hm := List.mem_of_find?_eq_some ha
    have hp := List.find?_some ha
    have hp' : a.name = k := by simpa using hp
    simp only [aggregatedNode, List.mem_cons, List.not_mem_nil, or_false] at hm
    rcases hm with rfl | rfl | rfl
    · match v with
      | .one .none =>
        cases hws
        rw [List.mem_singleton.1 hw]
        rcases hkey with rfl | rfl <;> decide
      | .one (.num _) => cases hws
      | .one .inf => cases hws
      | .one (.param _) => cases hws
      | .one (.text _) => cases hws
      | .many vs =>
        obtain ⟨us, _, rfl⟩ := Option.map_eq_some_iff.1 hws
        obtain ⟨p, _, rfl⟩ := List.mem_map.1 hw
        intro e; cases e
    · have := (scalar_exact hws w.1).1 ⟨w, hw, rfl⟩
      rw [List.mem_singleton.1 this]
      intro e; cases e; exact hk hp'.symm
    · have := (scalar_exact hws w.1).1 ⟨w, hw, rfl⟩
      rw [List.mem_singleton.1 this]
      intro e; cases e; exact hk hp'.symm
  · cases h; rfl

/-- **C82.** An aggregated node from a document: only limits and factors are taken; its limits are those of the document, and those that are left out are not assigned, so that they stay as the constructor of the
base class made them. -/
theorem C82_aggregated {known : String → Option Param} {doc : Kw} (hn : (doc.map Prod.fst).Nodup) {o : Obj} (h : fromDocument known aggregatedNode doc = some o) :
    (∀ e ∈ doc, e.1 = "factors" ∨ e.1 = "min_flow" ∨ e.1 = "max_flow") ∧
      o (none, "min_flow") = (match doc.lookup "min_flow" with
        | some (.one v) => (standsFor known v).bind Accepts.amount.meaning
        | _ => none) ∧
      o (none, "max_flow") = match doc.lookup "max_flow" with
        | some (.one v) => (standsFor known v).bind (Accepts.orNull .inf).meaning
        | _ => none := by
  obtain ⟨o1, h1, h2⟩ := Option.bind_eq_some_iff.1 h
  have hall : ∀ e ∈ doc, aggregatedNode.held.contains e.1 = true := by
    intro e he
    by_contra hc
    unfold preLoad construct at h1
    rw [if_pos] at h1
    · cases h1
    · refine List.any_eq_true.2 ⟨e, List.mem_filter.2 ⟨he, by simpa using hc⟩, rfl⟩
  have hnil : doc.filter (fun e => !aggregatedNode.held.contains e.1) = [] := by
    rw [List.filter_eq_nil_iff]; intro e he; rw [hall e he]; decide
  have hself : doc.filter (fun e => aggregatedNode.held.contains e.1) = doc := List.filter_eq_self.2 hall
  have ho1 : o1 = fun _ => none := by
    unfold preLoad at h1
    rw [hnil] at h1
    exact (Option.some.inj h1).symm
  unfold finaliseLoad at h2
  rw [hself] at h2
  refine ⟨fun e he => by simpa [aggregatedNode] using hall e he, ?_, ?_⟩
  · rw [finalise_get (key := "min_flow") rfl rfl (fun k hk => aggregated_other (.inl rfl) k hk) doc hn h2, ho1]
    cases hl : doc.lookup "min_flow" with
    | none => rfl
    | some u =>
      cases u with
      | many _ => rfl
      | one v => cases v <;> simp [standsFor, strict, Accepts.meaning]; rename_i s; cases known s <;> rfl
  · rw [finalise_get (key := "max_flow") rfl rfl (fun k hk => aggregated_other (.inr rfl) k hk) doc hn h2, ho1]
    cases hl : doc.lookup "max_flow" with
    | none => rfl
    | some u =>
      cases u with
      | many _ => rfl
      | one v => cases v <;> simp [standsFor, orElse, Accepts.meaning]; rename_i s; cases known s <;> rfl

/-- C82: a limit by name, and the factors of three nodes. -/
example : (fromDocument (fun s => if s = "limit" then some (.named s) else none) aggregatedNode [("factors", .many [.num 1, .num 2, .text "limit"]), ("max_flow", .one (.text "limit"))]).map
      (fun o => [o (none, "min_flow"), o (none, "max_flow"), o (some 0, "factors"), o (some 1, "factors"), o (some 2, "factors"), o (some 3, "factors")]) =
    some [none, some (.param (.named "limit")), some (.num 1), some (.num 2), some (.param (.named "limit")), none] := by decide +kernel

/-! ## Nodes with sub-links -/

/-- What a list of values means for the sub-links: as many values as there are sub-links, each of them accepted. -/
def LinksHave (a : Accepts) (count : Nat) (vs : List Value) (got : Nat → Option Value) : Prop :=
  vs.length = count ∧ (∀ v ∈ vs, (a.meaning v).isSome) ∧ ∀ i, got i = vs[i]?.bind a.meaning

private theorem mapM_getElem? {α β : Type} {f : α → Option β} {l : List α} {out : List β} (h : l.mapM f = some out) (i : Nat) : out[i]? = l[i]?.bind f := by
  induction l generalizing out i with
  | nil => cases h; simp
  | cons a l ih =>
    rw [List.mapM_cons] at h
    obtain ⟨b, hb, h⟩ := Option.bind_eq_some_iff.1 h
    obtain ⟨bs, hbs, h⟩ := Option.bind_eq_some_iff.1 h
    cases h
    cases i with
    | zero => simp [hb]
    | succ i => simpa using ih hbs i

private theorem set_cells (o : Obj) (attr : String) (us : List Value) (i : Nat) :
    Obj.set o (us.zipIdx.map fun p => (((some p.2, attr), p.1) : Key × Value)) (some i, attr) = (us[i]?).or (o (some i, attr)) := by
  induction us using List.reverseRecOn with
  | nil => simp [Obj.set]
  | append_singleton l w ih =>
    rw [List.zipIdx_append, List.map_append, set_append]
    simp only [List.zipIdx_singleton, List.map_cons, List.map_nil, Nat.zero_add]
    rw [set_get]
    simp only [List.reverse_cons, List.reverse_nil, List.nil_append, List.lookup_cons, List.lookup_nil]
    by_cases hi : i = l.length
    · subst hi; simp
    · have : ((some i, attr) == (some l.length, attr)) = false := by simpa using hi
      rw [this]
      simp only [Option.none_or, ih]
      rcases lt_or_ge i l.length with h | h
      · rw [List.getElem?_append_left h]
      · rw [List.getElem?_eq_none h, List.getElem?_eq_none (by simp; omega)]

private theorem finalise_cell {known : String → Option Param} {c : Class} {key : String} {x : Key} {val : Arg → Option Value}
    (hset : ∀ u v o o', load known u = some v → setattr c key v o = some o' → o x = none → o' x = val u)
    (hother : ∀ k, k ≠ key → ∀ v o o', setattr c k v o = some o' → o' x = o x) (l : Kw) (hn : (l.map Prod.fst).Nodup) {o o' : Obj} (ho : o x = none)
    (h : l.foldlM (fun o e => (load known e.2).bind fun v => setattr c e.1 v o) o = some o') : o' x = (l.lookup key).bind val := by
  have hstay : ∀ (l : Kw) (o o' : Obj), key ∉ l.map Prod.fst → l.foldlM (fun o e => (load known e.2).bind fun v => setattr c e.1 v o) o = some o' → o' x = o x := by
    intro l
    induction l with
    | nil => intro o o' _ h; cases h; rfl
    | cons e l ih =>
      intro o o' hk h
      rw [List.foldlM_cons] at h
      obtain ⟨o1, h1, h2⟩ := Option.bind_eq_some_iff.1 h
      obtain ⟨v, _, h1⟩ := Option.bind_eq_some_iff.1 h1
      rw [List.map_cons, List.mem_cons, not_or] at hk
      rw [ih o1 o' hk.2 h2, hother e.1 (fun e' => hk.1 e'.symm) v o o1 h1]
  induction l generalizing o with
  | nil => cases h; exact ho
  | cons e l ih =>
    obtain ⟨k, u⟩ := e
    rw [List.foldlM_cons] at h
    obtain ⟨o1, h1, h2⟩ := Option.bind_eq_some_iff.1 h
    obtain ⟨v, hv, h1⟩ := Option.bind_eq_some_iff.1 h1
    rw [List.map_cons, List.nodup_cons] at hn
    by_cases hk : key = k
    · subst hk
      rw [hstay l o1 o' hn.1 h2, hset u v o o1 hv h1 ho]
      simp
    · have hb : (key == k) = false := by simpa using hk
      simp only [List.lookup_cons, hb]
      exact ih hn.2 (by rw [hother k (fun e => hk e.symm) v o o1 h1, ho]) h2

/-- **C82.** The factors of an aggregated node from a document: to each member the entry at its place, by name or as a number, and none if there is no list. -/
theorem C82_factors {known : String → Option Param} {doc : Kw} (hn : (doc.map Prod.fst).Nodup) {o : Obj} (h : fromDocument known aggregatedNode doc = some o) (i : Nat) :
    o (some i, "factors") = match doc.lookup "factors" with
      | some (.many vs) => (vs[i]?.bind (standsFor known)).bind Accepts.amount.meaning
      | _ => none := by
  obtain ⟨o1, h1, h2⟩ := Option.bind_eq_some_iff.1 h
  have ho1 : o1 = fun _ => none := by
    unfold preLoad construct at h1
    split at h1
    · cases h1
    · rename_i hc
      have : doc.filter (fun e => !aggregatedNode.held.contains e.1) = [] := by
        rw [List.filter_eq_nil_iff]
        intro e he hh
        exact hc (List.any_eq_true.2 ⟨e, List.mem_filter.2 ⟨he, hh⟩, rfl⟩)
      rw [this] at h1
      exact (Option.some.inj h1).symm
  subst ho1
  have hsub : ((doc.filter fun e => aggregatedNode.held.contains e.1).map Prod.fst).Nodup := hn.sublist (List.filter_sublist.map _)
  have hl : (doc.filter fun e => aggregatedNode.held.contains e.1).lookup "factors" = doc.lookup "factors" := by
    clear h h1 h2 hn hsub
    induction doc with
    | nil => rfl
    | cons e l ih =>
      obtain ⟨k, u⟩ := e
      rw [List.filter_cons]
      by_cases hk : k = "factors"
      · subst hk
        rw [if_pos (show aggregatedNode.held.contains "factors" = true by decide)]
        simp
      · have hb : ("factors" == k) = false := by simpa using fun e => hk e.symm
        split
        · simp only [List.lookup_cons, hb]; exact ih
        · simp only [List.lookup_cons, hb]; exact ih
  rw [finalise_cell (key := "factors") (x := (some i, "factors"))
    (val := fun u => match u with | .many vs => (vs[i]?.bind (standsFor known)).bind Accepts.amount.meaning | _ => none) ?_ ?_ _ hsub rfl h2, hl]
  · cases doc.lookup "factors" with
    | none => rfl
    | some u => cases u <;> rfl
  · intro u v o o' hv hs ho
    obtain ⟨ws, hws, rfl⟩ := Option.map_eq_some_iff.1 (show (factorsWrite v).map (Obj.set o) = some o' from hs)
    match u with
    | .one w =>
      obtain ⟨w', hw', rfl⟩ := Option.map_eq_some_iff.1 (show (loadValue known w).map Arg.one = some v from hv)
      cases w' with
      | none => cases hws; simpa [Obj.set] using ho
      | num _ => cases hws
      | inf => cases hws
      | param _ => cases hws
      | text _ => cases hws
    | .many us =>
      obtain ⟨us', hu, rfl⟩ := Option.map_eq_some_iff.1 (show (us.mapM (loadValue known)).map Arg.many = some v from hv)
      obtain ⟨vs', hv', rfl⟩ := Option.map_eq_some_iff.1 (show (us'.mapM strict).map _ = some ws from hws)
      rw [set_cells, ho, Option.or_none, mapM_getElem? hv' i, mapM_getElem? hu i]
      show (us[i]?.bind (loadValue known)).bind strict = (us[i]?.bind (standsFor known)).bind Accepts.amount.meaning
      cases us[i]? with
      | none => rfl
      | some w => cases w <;> simp [standsFor, loadValue, strict, Accepts.meaning]; rename_i s; cases known s <;> rfl
  · intro k hk v o o' hs
    unfold setattr at hs
    split at hs
    · rename_i a ha
      obtain ⟨ws, hws, rfl⟩ := Option.map_eq_some_iff.1 hs
      refine set_out fun w hw => ?_
      have hm := List.mem_of_find?_eq_some ha
      have hp : a.name = k := by simpa using List.find?_some ha
      simp only [aggregatedNode, List.mem_cons, List.not_mem_nil, or_false] at hm
      rcases hm with rfl | rfl | rfl
      · exact absurd hp.symm hk
      · rw [List.mem_singleton.1 ((scalar_exact hws w.1).1 ⟨w, hw, rfl⟩)]; intro e; cases e
      · rw [List.mem_singleton.1 ((scalar_exact hws w.1).1 ⟨w, hw, rfl⟩)]; intro e; cases e
    · cases hs; rfl

private theorem perLink_have {count : Nat} {attr : String} {conv : Value → Option Value} {a : Accepts} (hc : ∀ v, conv v = a.meaning v) {v : Arg} {ws : List (Key × Value)}
    (h : perLink count attr conv v = some ws) (o : Obj) (ho : ∀ i, o (some i, attr) = none) : ∃ vs, v = .many vs ∧ LinksHave a count vs fun i => Obj.set o ws (some i, attr) := by
  match v with
  | .one _ => cases h
  | .many vs =>
    simp only [perLink] at h
    split at h
    · rename_i hl
      obtain ⟨us, hu, rfl⟩ := Option.map_eq_some_iff.1 h
      refine ⟨vs, rfl, hl, ?_, fun i => ?_⟩
      · have := (mapM_isSome conv vs).1 (by rw [hu]; rfl)
        intro v hv; rw [← hc]; exact this v hv
      · show Obj.set o _ (some i, attr) = _
        rw [set_cells, ho, Option.or_none, mapM_getElem? hu i]
        cases vs[i]? with
        | none => rfl
        | some v => exact hc v
    · cases h

private theorem node_links_none {kw : Kw} {o : Obj} (h : nodeAttrs.foldlM (fun o a => (assign kw a).map (Obj.set o)) (fun _ => none) = some o) (i : Nat) (attr : String) :
    o (some i, attr) = none := by
  rw [fold_assign] at h
  obtain ⟨ws, hw, rfl⟩ := Option.map_eq_some_iff.1 h
  refine set_out fun w hm => ?_
  obtain ⟨l, hl, hm⟩ := List.mem_flatten.1 hm
  obtain ⟨a, ha, e⟩ := mapM_mem hw hl
  rcases assign_cells e with ⟨v, hv⟩ | rfl
  · simp only [nodeAttrs, List.mem_cons, List.not_mem_nil, or_false] at ha
    rcases ha with rfl | rfl | rfl | rfl <;> (rw [List.mem_singleton.1 ((scalar_exact hv w.1).1 ⟨w, hm, rfl⟩)]; intro e; cases e)
  · cases hm

private theorem links_have {count : Nat} {kw : Kw} {o : Obj} {g1 g2 : Arg → Option Arg}
    (h : (nodeAttrs ++ [(⟨"costs", none, g1, perLink count "cost" strict⟩ : Attr), ⟨"max_flows", none, g2, perLink count "max_flow" (orElse .inf)⟩]).foldlM
      (fun o a => (assign kw a).map (Obj.set o)) (fun _ => none) = some o) :
    (match kw.lookup "costs" with
      | none => ∀ i, o (some i, "cost") = none
      | some v => ∃ vs, g1 v = some (.many vs) ∧ LinksHave .amount count vs fun i => o (some i, "cost")) ∧
    match kw.lookup "max_flows" with
      | none => ∀ i, o (some i, "max_flow") = none
      | some v => ∃ vs, g2 v = some (.many vs) ∧ LinksHave (.orNull .inf) count vs fun i => o (some i, "max_flow") := by
  rw [List.foldlM_append] at h
  obtain ⟨o0, h0, h⟩ := Option.bind_eq_some_iff.1 h
  rw [List.foldlM_cons] at h
  obtain ⟨o1, h1, h⟩ := Option.bind_eq_some_iff.1 h
  rw [List.foldlM_cons] at h
  obtain ⟨o2, h2, h⟩ := Option.bind_eq_some_iff.1 h
  cases h
  obtain ⟨w1, hw1, rfl⟩ := Option.map_eq_some_iff.1 h1
  obtain ⟨w2, hw2, rfl⟩ := Option.map_eq_some_iff.1 h2
  have hn := node_links_none h0
  have hs : ∀ v, strict v = Accepts.amount.meaning v := fun v => by cases v <;> rfl
  have ho : ∀ v, orElse .inf v = (Accepts.orNull .inf).meaning v := fun v => by cases v <;> rfl
  have hav1 : ∀ w ∈ w1, ∀ i, w.1 ≠ (some i, "max_flow") := by
    intro w hw i
    rcases assign_cells hw1 with ⟨v, hv⟩ | rfl
    · obtain ⟨j, _, e⟩ := List.mem_map.1 ((perLink_exact hv w.1).1 ⟨w, hw, rfl⟩)
      rw [← e]; simp
    · cases hw
  have hav2 : ∀ w ∈ w2, ∀ i, w.1 ≠ (some i, "cost") := by
    intro w hw i
    rcases assign_cells hw2 with ⟨v, hv⟩ | rfl
    · obtain ⟨j, _, e⟩ := List.mem_map.1 ((perLink_exact hv w.1).1 ⟨w, hw, rfl⟩)
      rw [← e]; simp
    · cases hw
  have hc : ∀ i, Obj.set (Obj.set o0 w1) w2 (some i, "cost") = Obj.set o0 w1 (some i, "cost") := fun i => set_out fun w hw => hav2 w hw i
  constructor
  · simp only [hc]
    unfold assign at hw1
    simp only at hw1
    match hl : kw.lookup "costs" with
    | none =>
      rw [hl] at hw1
      cases hw1
      intro i; exact hn i _
    | some v =>
      rw [hl] at hw1
      obtain ⟨v', hv', hw1⟩ := Option.bind_eq_some_iff.1 hw1
      obtain ⟨vs, rfl, hh⟩ := perLink_have hs hw1 o0 fun i => hn i _
      exact ⟨vs, hv', hh⟩
  · have hm : ∀ i, Obj.set o0 w1 (some i, "max_flow") = none := fun i => (set_out fun w hw => hav1 w hw i).trans (hn i _)
    unfold assign at hw2
    simp only at hw2
    match hl : kw.lookup "max_flows" with
    | none =>
      rw [hl] at hw2
      cases hw2
      exact hm
    | some v =>
      rw [hl] at hw2
      obtain ⟨v', hv', hw2⟩ := Option.bind_eq_some_iff.1 hw2
      obtain ⟨vs, rfl, hh⟩ := perLink_have ho hw2 (Obj.set o0 w1) hm
      exact ⟨vs, hv', hh⟩

private theorem construct_fold {c : Class} {kw : Kw} {o : Obj} (hp : c.prepare kw = some kw) (h : construct c kw = some o) :
    c.attrs.foldlM (fun o a => (assign kw a).map (Obj.set o)) (fun _ => none) = some o := by
  unfold construct at h
  split at h
  · cases h
  · rw [hp] at h; exact h

/-- **C82.** The sub-links of a piecewise link have the costs and the limits of the lists, one by one (`None` for no limit); a list is refused unless it has a value for each sub-link; sub-links without
a list are left as they are. -/
theorem C82_piecewise {n : Nat} {kw : Kw} {o : Obj} (h : construct (piecewise n) kw = some o) :
    (match kw.lookup "costs" with
      | none => ∀ i, o (some i, "cost") = none
      | some (.many vs) => LinksHave .amount n vs fun i => o (some i, "cost")
      | some (.one _) => False) ∧
    match kw.lookup "max_flows" with
      | none => ∀ i, o (some i, "max_flow") = none
      | some (.many vs) => LinksHave (.orNull .inf) n vs fun i => o (some i, "max_flow")
      | some (.one _) => False := by
  obtain ⟨h1, h2⟩ := links_have (construct_fold (c := piecewise n) rfl h)
  constructor
  · match hl : kw.lookup "costs" with
    | none => rw [hl] at h1; exact h1
    | some (.one _) => rw [hl] at h1; obtain ⟨vs, e, _⟩ := h1; cases e
    | some (.many _) => rw [hl] at h1; obtain ⟨vs, e, hh⟩ := h1; cases e; exact hh
  · match hl : kw.lookup "max_flows" with
    | none => rw [hl] at h2; exact h2
    | some (.one _) => rw [hl] at h2; obtain ⟨vs, e, _⟩ := h2; cases e
    | some (.many _) => rw [hl] at h2; obtain ⟨vs, e, hh⟩ := h2; cases e; exact hh

/-- **C82.** The same for a split: the links of the extra slots are free and have no limit. -/
theorem C82_split {n extra : Nat} {kw : Kw} {o : Obj} (h : construct (multiSplit n extra) kw = some o) :
    (match kw.lookup "costs" with
      | none => ∀ i, o (some i, "cost") = none
      | some (.many vs) => LinksHave .amount (n + extra) (vs ++ List.replicate extra (.num 0)) fun i => o (some i, "cost")
      | some (.one _) => False) ∧
    match kw.lookup "max_flows" with
      | none => ∀ i, o (some i, "max_flow") = none
      | some (.many vs) => LinksHave (.orNull .inf) (n + extra) (vs ++ List.replicate extra .inf) fun i => o (some i, "max_flow")
      | some (.one _) => False := by
  obtain ⟨h1, h2⟩ := links_have (construct_fold (c := multiSplit n extra) rfl h)
  constructor
  · match hl : kw.lookup "costs" with
    | none => rw [hl] at h1; exact h1
    | some (.one _) => rw [hl] at h1; obtain ⟨vs, e, _⟩ := h1; cases e
    | some (.many _) => rw [hl] at h1; obtain ⟨vs, e, hh⟩ := h1; cases e; exact hh
  · match hl : kw.lookup "max_flows" with
    | none => rw [hl] at h2; exact h2
    | some (.one _) => rw [hl] at h2; obtain ⟨vs, e, _⟩ := h2; cases e
    | some (.many vs) =>
      rw [hl] at h2
      obtain ⟨us, e, hlen, hall, hget⟩ := h2
      cases e
      refine ⟨by simpa using hlen, ?_, fun i => ?_⟩
      · intro v hv
        rcases List.mem_append.1 hv with hv | hv
        · exact hall v (List.mem_append_left _ hv)
        · rw [(List.mem_replicate.1 hv).2]; rfl
      · refine (hget i).trans ?_
        rcases lt_or_ge i vs.length with hi | hi
        · rw [List.getElem?_append_left hi, List.getElem?_append_left hi]
        · rw [List.getElem?_append_right hi, List.getElem?_append_right hi, List.getElem?_replicate, List.getElem?_replicate]
          split <;> rfl

/-- C82: a piecewise link and a split. -/
example : (construct (piecewise 2) [("costs", .many [.num (-5), .param (.named "price")]), ("max_flows", .many [.num 3, .none])]).map
      (fun o => [o (some 0, "cost"), o (some 1, "cost"), o (some 0, "max_flow"), o (some 1, "max_flow"), o (some 2, "max_flow")]) =
    some [some (.num (-5)), some (.param (.named "price")), some (.num 3), some .inf, none] ∧
    (construct (multiSplit 1 1) [("costs", .many [.num (-5)]), ("max_flows", .many [.num 3])]).map (fun o => [o (some 0, "cost"), o (some 1, "cost"), o (some 0, "max_flow"), o (some 1, "max_flow")]) =
      some [some (.num (-5)), some (.num 0), some (.num 3), some .inf] := by decide +kernel

end Verif.NodeLoading

import Verif.Proof.NodeLoading
import Verif.Spec.NodeConstructors
/-!
# Lemmas on the attributes of nodes
-/

namespace Verif.NodeLoading

/-- What a row assigns. -/
def Row.write (kw : Kw) (r : Row) : Option (Key × Value) := (r.value kw).map fun v => (r.cell, v)

theorem mapM_flatten {α β γ : Type} (f : α → Option (List γ)) (g : β → Option γ) (l : List α) (rs : List (List β)) (h : List.Forall₂ (fun a r => f a = r.mapM g) l rs) :
    (l.mapM f).map List.flatten = rs.flatten.mapM g := by
  induction h with
  | nil => rfl
  | cons h _ ih =>
    rw [List.mapM_cons, List.flatten_cons, List.mapM_append, ← ih, h]
    cases List.mapM g _ with
    | none => rfl
    | some a => cases List.mapM f _ <;> rfl

theorem mapM_isSome {α β : Type} (g : α → Option β) (l : List α) : (l.mapM g).isSome ↔ ∀ a ∈ l, (g a).isSome := by
  induction l with
  | nil => simp
  | cons a l ih =>
    rw [List.mapM_cons, List.forall_mem_cons, ← ih]
    cases g a with
    | none => simp
    | some b => cases l.mapM g <;> simp

theorem lookup_rows {kw : Kw} (rows : List Row) {ws : List (Key × Value)} (h : rows.mapM (Row.write kw) = some ws) (k : Key) :
    ws.reverse.lookup k = (rows.reverse.find? fun r => decide (r.cell = k)).bind fun r => r.value kw := by
  induction rows using List.reverseRecOn generalizing ws with
  | nil => cases h; rfl
  | append_singleton l r ih =>
    rw [List.mapM_append] at h
    obtain ⟨a, ha, h⟩ := Option.bind_eq_some_iff.1 h
    obtain ⟨b, hb, h⟩ := Option.bind_eq_some_iff.1 h
    cases h
    rw [List.mapM_cons] at hb
    obtain ⟨w, hw, hb⟩ := Option.bind_eq_some_iff.1 hb
    cases hb
    obtain ⟨v, hv, rfl⟩ := Option.map_eq_some_iff.1 hw
    simp only [List.reverse_append, List.reverse_cons, List.reverse_nil, List.nil_append, List.singleton_append, List.lookup_cons, List.find?_cons]
    by_cases hk : r.cell = k
    · subst hk; simp [hv]
    · have : (k == r.cell) = false := by simpa using fun e : k = r.cell => hk e.symm
      rw [this, decide_eq_false hk]
      exact ih ha

theorem makes_iff {c : Class} {rows : List (List Row)} (hprep : ∀ kw, c.prepare kw = some kw) (hkw : ∀ k, k ∈ c.keywords ↔ ∃ r ∈ rows.flatten, r.arg = some k)
    (ha : ∀ kw : Kw, (∀ e ∈ kw, e.1 ∈ c.keywords) → List.Forall₂ (fun a r => assign kw a = r.mapM (Row.write kw)) c.attrs rows) (kw : Kw) (o : Obj) :
    construct c kw = some o ↔ Makes rows.flatten kw o := by
  unfold construct Makes
  by_cases h : ∀ e ∈ kw, e.1 ∈ c.keywords
  · rw [if_neg (by simpa using fun a b hab => h (a, b) hab), hprep, Option.bind_some, fold_assign]
    have hm := mapM_flatten _ _ _ _ (ha kw h)
    have he : (c.attrs.mapM (assign kw)).map (fun ws => Obj.set (fun _ => none) ws.flatten) = (rows.flatten.mapM (Row.write kw)).map fun ws => Obj.set (fun _ => none) ws := by
      rw [← hm, Option.map_map]; rfl
    rw [he]
    have h1 : ∀ e ∈ kw, ∃ r ∈ rows.flatten, r.arg = some e.1 := fun e he => (hkw e.1).1 (h e he)
    have hs := mapM_isSome (Row.write kw) rows.flatten
    simp only [Row.write, Option.isSome_map] at hs
    rw [← hs]
    constructor
    · intro he
      obtain ⟨ws, hw, rfl⟩ := Option.map_eq_some_iff.1 he
      refine ⟨h1, Option.isSome_iff_exists.2 ⟨ws, hw⟩, fun k => ?_⟩
      rw [set_get, lookup_rows _ hw, Option.or_none]
    · rintro ⟨_, h2, h3⟩
      obtain ⟨ws, hw⟩ := Option.isSome_iff_exists.1 h2
      refine Option.map_eq_some_iff.2 ⟨ws, hw, ?_⟩
      funext k
      rw [set_get, lookup_rows _ hw, Option.or_none, h3]
  · have h' : (kw.any fun e => !c.keywords.contains e.1) = true := by
      push Not at h
      obtain ⟨e, he, hk⟩ := h
      exact List.any_eq_true.2 ⟨e, he, by simpa using hk⟩
    rw [if_pos h']
    constructor
    · intro h; cases h
    · rintro ⟨h1, _⟩
      exact absurd (fun e he => (hkw e.1).2 (h1 e he)) h

/-- One argument that becomes one attribute. -/
theorem assign_row {kw : Kw} {k : String} {x : Key} {given : Arg → Option Arg} {conv : Value → Option Value} {d d' : Value} {a : Accepts}
    (hd : conv d = some d') (hg : ∀ v, (given (.one v)).bind (scalar x conv) = (a.meaning v).map fun u => [(x, u)]) (hm : ∀ vs, (given (.many vs)).bind (scalar x conv) = none) :
    assign kw ⟨k, some (.one d), given, scalar x conv⟩ = [(⟨x, some k, a, d'⟩ : Row)].mapM (Row.write kw) := by
  unfold assign
  simp only [List.mapM_cons, List.mapM_nil, Row.write, Row.value]
  match kw.lookup k with
  | none => simp [scalar, hd]
  | some (.one v) => simp only [hg]; cases a.meaning v <;> rfl
  | some (.many vs) => simp only [hm]; rfl

/-- An attribute that is not an argument. -/
theorem assign_fixed {kw : Kw} {k : String} (hk : kw.lookup k = none) {x : Key} {given : Arg → Option Arg} {conv : Value → Option Value} {d d' : Value} {a : Accepts}
    (hd : conv d = some d') : assign kw ⟨k, some (.one d), given, scalar x conv⟩ = [(⟨x, none, a, d'⟩ : Row)].mapM (Row.write kw) := by
  unfold assign
  simp [List.mapM_cons, List.mapM_nil, Row.write, Row.value, hk, scalar, hd]

theorem assign_own {kw : Kw} {k : String} {given : Arg → Option Arg} {conv : Value → Option Value} {d d' : Value} {a : Accepts}
    (hd : conv d = some d') (hg : ∀ v, (given (.one v)).bind (scalar (none, k) conv) = (a.meaning v).map fun u => [((none, k), u)])
    (hm : ∀ vs, (given (.many vs)).bind (scalar (none, k) conv) = none) :
    assign kw ⟨k, some (.one d), given, scalar (none, k) conv⟩ = [own k a d'].mapM (Row.write kw) := assign_row hd hg hm

theorem node_rows (kw : Kw) : List.Forall₂ (fun a r => assign kw a = r.mapM (Row.write kw)) nodeAttrs (nodeRows.map fun r => [r]) := by
  refine .cons ?_ (.cons ?_ (.cons ?_ (.cons ?_ .nil))) <;> exact assign_own rfl (fun v => by cases v <;> rfl) fun _ => rfl

theorem volume_rows (kw : Kw) : List.Forall₂ (fun a r => assign kw a = r.mapM (Row.write kw)) (storageAttrs.take 5) (volumeRows.map fun r => [r]) := by
  refine .cons ?_ (.cons ?_ (.cons ?_ (.cons ?_ (.cons ?_ .nil)))) <;> exact assign_own rfl (fun v => by cases v <;> rfl) fun _ => rfl

theorem singles {α : Type} (l : List α) : (l.map fun r => [r]).flatten = l := by
  induction l with
  | nil => rfl
  | cons a l ih => rw [List.map_cons, List.flatten_cons, ih]; rfl

theorem assign_flow (kw : Kw) : assign kw ⟨"flow", some (.one (.num 0)), asGiven, flowWrite⟩ =
    [(⟨(none, "min_flow"), some "flow", .orNull (.num 0), .num 0⟩ : Row), ⟨(none, "max_flow"), some "flow", .orNull .inf, .num 0⟩].mapM (Row.write kw) := by
  unfold assign
  simp only [List.mapM_cons, List.mapM_nil, Row.write, Row.value]
  match kw.lookup "flow" with
  | none => rfl
  | some (.one v) => cases v <;> rfl
  | some (.many vs) => rfl

end Verif.NodeLoading

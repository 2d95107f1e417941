import Verif.Spec.NodeLoading
import Mathlib.Data.List.Nodup
import Mathlib.Data.List.Induction
import Mathlib.Data.List.Basic
/-!
# Lemmas on nodes in a document
-/

namespace Verif.NodeLoading

theorem set_append (o : Obj) (a b : List (Key × Value)) : Obj.set o (a ++ b) = Obj.set (Obj.set o a) b := by
  simp [Obj.set, List.foldl_append]

theorem set_get (o : Obj) (ws : List (Key × Value)) (k : Key) : Obj.set o ws k = (ws.reverse.lookup k).or (o k) := by
  induction ws using List.reverseRecOn with
  | nil => simp [Obj.set]
  | append_singleton l w ih =>
    obtain ⟨wk, wv⟩ := w
    rw [set_append]
    simp only [Obj.set, List.foldl_cons, List.foldl_nil, List.reverse_append, List.reverse_cons, List.reverse_nil, List.nil_append,
      List.singleton_append, List.lookup_cons]
    by_cases h : k = wk
    · simp [h]
    · have : (k == wk) = false := by simpa using h
      rw [if_neg h, this]; exact ih

theorem set_out {o : Obj} {ws : List (Key × Value)} {k : Key} (h : ∀ w ∈ ws, w.1 ≠ k) : Obj.set o ws k = o k := by
  rw [set_get, List.lookup_eq_none_iff.2, Option.none_or]
  intro p hp
  have := h p (List.mem_reverse.1 hp)
  simpa using fun e : k = p.1 => this e.symm

theorem set_in {o o' : Obj} {ws : List (Key × Value)} {k : Key} (h : ∃ w ∈ ws, w.1 = k) : Obj.set o ws k = Obj.set o' ws k := by
  rw [set_get, set_get]
  cases hl : ws.reverse.lookup k with
  | some v => simp
  | none =>
    obtain ⟨w, hw, e⟩ := h
    have := List.lookup_eq_none_iff.1 hl w (List.mem_reverse.2 hw)
    simp [e] at this

theorem fold_assign (f : Attr → Option (List (Key × Value))) (l : List Attr) (o : Obj) :
    l.foldlM (fun o a => (f a).map (Obj.set o)) o = (l.mapM f).map fun ws => Obj.set o ws.flatten := by
  induction l generalizing o with
  | nil => simp [Obj.set]
  | cons a l ih =>
    rw [List.foldlM_cons, List.mapM_cons]
    cases h : f a with
    | none => rfl
    | some w =>
      show l.foldlM _ (Obj.set o w) = _
      rw [ih]
      cases h' : l.mapM f with
      | none => rfl
      | some ws => simp [set_append]

/-- What the theorem needs of a class: every parameter attribute has one setter, used by the constructor, whose default is accepted, which assigns the same cells whatever the value is, and which
the constructor does not overwrite afterwards. -/
structure Regular (c : Class) (cells : String → List Key) : Prop where
  prepare : ∀ kw, c.prepare kw = some kw
  keywords : ∀ k ∈ c.held, k ∈ c.keywords
  split : ∀ k ∈ c.held, ∃ pre a post, c.attrs = pre ++ a :: post ∧ a.name = k ∧ (∀ b ∈ pre ++ post, b.name ≠ k) ∧
    (∀ d, a.default = some d → (a.write d).isSome) ∧
    (∀ v ws, a.write v = some ws → ∀ x, (∃ w ∈ ws, w.1 = x) ↔ x ∈ cells k) ∧
    (∀ b ∈ post, ∀ v ws, b.write v = some ws → ∀ w ∈ ws, w.1 ∉ cells k)

/-- The constructor does with `v` what the setter does. -/
def Plain (c : Class) (k : String) (v : Arg) : Prop := ∀ a ∈ c.attrs, a.name = k → (a.given v).bind a.write = a.write v

theorem lookup_snoc_ne {kw : Kw} {k n : String} {v : Arg} (h : n ≠ k) : (kw ++ [(k, v)]).lookup n = kw.lookup n := by
  have : (n == k) = false := by simpa using h
  induction kw with
  | nil => simp [List.lookup_cons, this]
  | cons e l ih => obtain ⟨m, w⟩ := e; simp only [List.cons_append, List.lookup_cons, ih]

theorem lookup_snoc_eq {kw : Kw} {k : String} {v : Arg} (h : k ∉ kw.map Prod.fst) : (kw ++ [(k, v)]).lookup k = some v := by
  induction kw with
  | nil => simp
  | cons e l ih =>
    obtain ⟨m, w⟩ := e
    simp only [List.map_cons, List.mem_cons, not_or] at h
    have : (k == m) = false := by simpa using h.1
    simp only [List.cons_append, List.lookup_cons, this, ih h.2]

theorem lookup_none {kw : Kw} {k : String} (h : k ∉ kw.map Prod.fst) : kw.lookup k = none := by
  rw [List.lookup_eq_none_iff]
  intro p hp
  have : k ≠ p.1 := fun e => h (e ▸ List.mem_map_of_mem hp)
  simpa using this

theorem assign_cells {kw : Kw} {a : Attr} {ws : List (Key × Value)} (h : assign kw a = some ws) : (∃ v, a.write v = some ws) ∨ ws = [] := by
  unfold assign at h
  split at h
  · obtain ⟨g, _, hw⟩ := Option.bind_eq_some_iff.1 h
    exact .inl ⟨g, hw⟩
  · split at h
    · exact .inl ⟨_, h⟩
    · exact .inr (Option.some.inj h).symm

theorem mapM_mem {α β : Type} {f : α → Option β} {l : List α} {out : List β} (h : l.mapM f = some out) {y : β} (hy : y ∈ out) : ∃ x ∈ l, f x = some y := by
  induction l generalizing out with
  | nil => simp only [List.mapM_nil] at h; cases h; cases hy
  | cons a l ih =>
    rw [List.mapM_cons] at h
    obtain ⟨b, hb, h⟩ := Option.bind_eq_some_iff.1 h
    obtain ⟨bs, hbs, h⟩ := Option.bind_eq_some_iff.1 h
    cases h
    rcases List.mem_cons.1 hy with rfl | hy
    · exact ⟨a, List.mem_cons_self, hb⟩
    · obtain ⟨x, hx, e⟩ := ih hbs hy
      exact ⟨x, List.mem_cons_of_mem _ hx, e⟩

/-- One attribute more. -/
theorem construct_step {c : Class} {cells : String → List Key} (hc : Regular c cells) {kw : Kw} {k : String} {v : Arg} (hk : k ∈ c.held)
    (hn : k ∉ kw.map Prod.fst) (hp : Plain c k v) : (construct c kw).bind (setattr c k v) = construct c (kw ++ [(k, v)]) := by
  obtain ⟨pre, a, post, e, ha, huniq, hdef, hex, hav⟩ := hc.split k hk
  have hfind : (c.attrs.find? fun b => b.name == k) = some a := by
    rw [e, List.find?_append, List.find?_eq_none.2]
    · simp [ha]
    · intro b hb
      simpa using huniq b (List.mem_append_left _ hb)
  have hset : ∀ o, setattr c k v o = (a.write v).map (Obj.set o) := by
    intro o; unfold setattr; rw [hfind]
  have hall : ((kw ++ [(k, v)]).any fun e => !c.keywords.contains e.1) = kw.any fun e => !c.keywords.contains e.1 := by
    have : c.keywords.contains k = true := by simpa using hc.keywords k hk
    simp [hc.keywords k hk]
  unfold construct
  rw [hall]
  split
  · rfl
  · simp only [hc.prepare, Option.bind_some, fold_assign]
    have hsame : ∀ b, b.name ≠ k → assign (kw ++ [(k, v)]) b = assign kw b := by
      intro b hb
      unfold assign
      rw [lookup_snoc_ne hb]
    have hpre : ∀ l : List Attr, (∀ b ∈ l, b.name ≠ k) → l.mapM (assign (kw ++ [(k, v)])) = l.mapM (assign kw) := by
      intro l hl
      induction l with
      | nil => rfl
      | cons b l ih =>
        rw [List.mapM_cons, List.mapM_cons, hsame b (hl b List.mem_cons_self), ih fun b hb => hl b (List.mem_cons_of_mem _ hb)]
    have hmid : assign (kw ++ [(k, v)]) a = a.write v := by
      unfold assign
      rw [ha, lookup_snoc_eq hn]
      exact hp a (by rw [e]; simp) ha
    have hd : ∃ d, assign kw a = some d ∧ ((∃ u, a.write u = some d) ∨ d = []) := by
      unfold assign
      rw [ha, lookup_none hn]
      cases hdf : a.default with
      | none => exact ⟨[], rfl, .inr rfl⟩
      | some u =>
        obtain ⟨d, hd⟩ := Option.isSome_iff_exists.1 (hdef u hdf)
        exact ⟨d, hd, .inl ⟨u, hd⟩⟩
    obtain ⟨d, hd, hdw⟩ := hd
    rw [e, List.mapM_append, List.mapM_append, List.mapM_cons, List.mapM_cons, hpre pre fun b hb => huniq b (List.mem_append_left _ hb),
      hpre post fun b hb => huniq b (List.mem_append_right _ hb), hmid, hd]
    cases hP : pre.mapM (assign kw) with
    | none => rfl
    | some P =>
      cases hQ : post.mapM (assign kw) with
      | none => cases a.write v <;> rfl
      | some Q =>
        show (some (Obj.set (fun _ => none) (P ++ (d :: Q)).flatten)).bind (setattr c k v) = _
        rw [Option.bind_some, hset]
        cases hW : a.write v with
        | none => rfl
        | some W =>
          show some _ = some (Obj.set (fun _ => none) (P ++ (W :: Q)).flatten)
          congr 1
          funext x
          simp only [List.flatten_append, List.flatten_cons, set_append]
          by_cases hx : x ∈ cells k
          · have hq : ∀ w ∈ Q.flatten, w.1 ≠ x := by
              intro w hw ew
              obtain ⟨q, hq, hw⟩ := List.mem_flatten.1 hw
              obtain ⟨b, hb, hbq⟩ := mapM_mem hQ hq
              rcases assign_cells hbq with ⟨u, hu⟩ | rfl
              · exact hav b hb u q hu w hw (ew ▸ hx)
              · cases hw
            rw [set_out (ws := Q.flatten) (o := Obj.set (Obj.set _ P.flatten) W) hq]
            exact set_in ((hex v W hW x).2 hx)
          · have hw : ∀ w ∈ W, w.1 ≠ x := fun w hw ew => hx ((hex v W hW x).1 ⟨w, hw, ew⟩)
            have hdd : ∀ w ∈ d, w.1 ≠ x := by
              rcases hdw with ⟨u, hu⟩ | rfl
              · exact fun w hw ew => hx ((hex u d hu x).1 ⟨w, hw, ew⟩)
              · simp
            rw [set_out hw, set_get _ Q.flatten, set_get _ Q.flatten, set_out hdd, set_out hw]

/-- The entries that are kept for later, one after the other. -/
theorem construct_steps {c : Class} {cells : String → List Key} (hc : Regular c cells) (known : String → Option Param) (L : Kw) (hL : ∀ e ∈ L, e.1 ∈ c.held)
    (hp : ∀ e ∈ L, ∀ v, load known e.2 = some v → Plain c e.1 v) (kw : Kw) (hn : ((kw ++ L).map Prod.fst).Nodup) :
    (construct c kw).bind (L.foldlM (fun o e => (load known e.2).bind fun v => setattr c e.1 v o)) =
      (L.mapM fun e => (load known e.2).map fun v => (e.1, v)).bind fun L' => construct c (kw ++ L') := by
  induction L generalizing kw with
  | nil =>
    simp only [List.mapM_nil]
    show (construct c kw).bind (fun o => some o) = construct c (kw ++ [])
    rw [List.append_nil]
    cases construct c kw <;> rfl
  | cons e L ih =>
    rw [List.mapM_cons]
    have hf : (fun o => List.foldlM (fun o (e : String × Arg) => (load known e.2).bind fun v => setattr c e.1 v o) o (e :: L)) =
        fun o => ((load known e.2).bind fun v => setattr c e.1 v o).bind fun o => L.foldlM (fun o e => (load known e.2).bind fun v => setattr c e.1 v o) o := by
      funext o
      rw [List.foldlM_cons]; rfl
    rw [hf]
    cases hv : load known e.2 with
    | none => cases construct c kw <;> rfl
    | some v =>
      have hne : e.1 ∉ kw.map Prod.fst := by
        rw [List.map_append, List.map_cons] at hn
        exact fun h => (List.disjoint_of_nodup_append hn) h List.mem_cons_self
      have key := construct_step hc (hL e List.mem_cons_self) hne (hp e List.mem_cons_self v hv)
      have := ih (fun e he => hL e (List.mem_cons_of_mem _ he)) (fun e he => hp e (List.mem_cons_of_mem _ he)) (kw ++ [(e.1, v)])
        (by simpa using hn)
      rw [← key] at this
      show (construct c kw).bind (fun o => (setattr c e.1 v o).bind _) = _
      rw [← Option.bind_assoc, this]
      show _ = (Option.bind (List.mapM (fun e : String × Arg => (load known e.2).map fun v => (e.1, v)) L) fun L' => some ((e.1, v) :: L')).bind _
      rw [Option.bind_assoc]
      congr 1
      funext L'
      simp

theorem lookup_iff {kw : Kw} (hn : (kw.map Prod.fst).Nodup) (k : String) (v : Arg) : kw.lookup k = some v ↔ (k, v) ∈ kw := by
  induction kw with
  | nil => simp
  | cons e l ih =>
    obtain ⟨m, w⟩ := e
    rw [List.map_cons, List.nodup_cons] at hn
    rw [List.lookup_cons]
    by_cases h : k = m
    · subst h
      simp only [beq_self_eq_true, Option.some.injEq, List.mem_cons, Prod.mk.injEq, true_and]
      constructor
      · rintro rfl; exact .inl rfl
      · rintro (rfl | h)
        · rfl
        · exact absurd (List.mem_map_of_mem (f := Prod.fst) h) hn.1
    · have hb : (k == m) = false := by simpa using h
      rw [hb]
      simp only [ih hn.2, List.mem_cons, Prod.mk.injEq, h, false_and, false_or]

theorem construct_perm {c : Class} (hprep : ∀ kw, c.prepare kw = some kw) {kw kw' : Kw} (h : kw.Perm kw') (hn : (kw.map Prod.fst).Nodup) :
    construct c kw = construct c kw' := by
  have hn' : (kw'.map Prod.fst).Nodup := (h.map Prod.fst).nodup_iff.1 hn
  have hl : ∀ k, kw.lookup k = kw'.lookup k := by
    intro k
    apply Option.ext
    intro v
    rw [lookup_iff hn, lookup_iff hn', h.mem_iff]
  have ha : kw.any (fun e => !c.keywords.contains e.1) = kw'.any fun e => !c.keywords.contains e.1 := by
    rw [Bool.eq_iff_iff, List.any_eq_true, List.any_eq_true]
    simp only [h.mem_iff]
  have hf : assign kw = assign kw' := by
    funext a; unfold assign; rw [hl]
  unfold construct
  rw [ha, hprep, hprep, Option.bind_some, Option.bind_some, hf]

/-- The specification against `load`. -/
theorem resolve_eq (known : String → Option Param) (held : List String) (doc : Kw) :
    resolve known held doc = doc.mapM fun e => if held.contains e.1 then (load known e.2).map fun v => (e.1, v) else some e := by
  have hs : standsFor known = loadValue known := by
    funext v
    cases v with
    | text s => simp only [standsFor, loadValue]; cases known s <;> rfl
    | _ => rfl
  unfold resolve
  congr 1
  funext e
  obtain ⟨k, v⟩ := e
  cases v with
  | one v => simp only [hs, load, Option.map_map]; rfl
  | many vs => simp only [hs, load, Option.map_map]; rfl

/-- The two groups of entries against the resolved document. -/
theorem resolve_split (g : String × Arg → Option (String × Arg)) (p : String × Arg → Bool) (doc : Kw) :
    ((doc.filter p).mapM g = none ∧ (doc.mapM fun e => if p e then g e else some e) = none) ∨
      ∃ L' doc', (doc.filter p).mapM g = some L' ∧ (doc.mapM fun e => if p e then g e else some e) = some doc' ∧
        (doc.filter (fun e => !p e) ++ L').Perm doc' := by
  induction doc with
  | nil => exact .inr ⟨[], [], rfl, rfl, .refl _⟩
  | cons e doc ih =>
    rw [List.mapM_cons]
    by_cases h : p e = true
    · rw [List.filter_cons_of_pos h, List.mapM_cons, if_pos h, List.filter_cons_of_neg (by simp [h])]
      cases hg : g e with
      | none => exact .inl ⟨rfl, rfl⟩
      | some e' =>
        rcases ih with ⟨h1, h2⟩ | ⟨L', doc', h1, h2, h3⟩
        · rw [h1, h2]; exact .inl ⟨rfl, rfl⟩
        · rw [h1, h2]
          exact .inr ⟨e' :: L', e' :: doc', rfl, rfl, List.perm_middle.trans (h3.cons e')⟩
    · rw [List.filter_cons_of_neg h, if_neg h, List.filter_cons_of_pos (by simp [h])]
      rcases ih with ⟨h1, h2⟩ | ⟨L', doc', h1, h2, h3⟩
      · rw [h1, h2]; exact .inl ⟨rfl, rfl⟩
      · rw [h1, h2]
        exact .inr ⟨L', e :: doc', rfl, rfl, h3.cons e⟩

end Verif.NodeLoading

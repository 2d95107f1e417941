import Verif.Spec.Labels
import Verif.Proof.Scenarios
import Mathlib.Data.List.Forall2

/-! # C71: results are labelled with the ensemble members they were computed for -/

namespace Verif.Labels

open Verif.Scenarios

private structure Inv (s : St) : Prop where
  len : s.names.length = s.coll.scenarios.length
  sizes : ∀ (n : Nat) (sc : Scenario) (l : List String), s.coll.scenarios[n]? = some sc → s.names[n]? = some (some l) →
    l.length = sc.size
  nonneg : ∀ rows, s.coll.user = some rows → ∀ r ∈ rows, ∀ i ∈ r, 0 ≤ i

private theorem setUser_ok {c c' : Collection} {t : TableArg} (h : c.setUser t = .ok c') :
    c'.scenarios = c.scenarios ∧ ∀ rows, c'.user = some rows → ∀ r ∈ rows, ∀ i ∈ r, 0 ≤ i := by
  cases t with
  | none => cases h; exact ⟨rfl, fun _ h => by cases h⟩
  | otherDim => cases h
  | twoD cols rows =>
    unfold Collection.setUser at h
    simp only at h
    by_cases h1 : cols ≠ c.scenarios.length
    · rw [if_pos h1] at h; cases h
    rw [if_neg h1] at h
    by_cases h2 : rows = [] ∧ cols ≠ 0
    · rw [if_pos h2] at h; cases h
    rw [if_neg h2] at h
    by_cases h3 : (rows.any fun r => (r.zip c.scenarios).any fun p => decide (p.1 ≥ p.2.size)) = true
    · rw [if_pos h3] at h; cases h
    rw [if_neg h3] at h
    by_cases h4 : (rows.any fun r => r.any fun v => decide (v < 0)) = true
    · rw [if_pos h4] at h; cases h
    rw [if_neg h4] at h
    cases h
    refine ⟨rfl, fun rows' hr r hm i hi => ?_⟩
    cases hr
    by_contra hneg
    apply h4
    rw [List.any_eq_true]
    exact ⟨r, hm, List.any_eq_true.2 ⟨i, hi, by simpa using hneg⟩⟩

private theorem setup_ok {s s' : St} (h : s.setup = .ok s') :
    ∃ l, s.coll.getCombinations = .ok l ∧ s' = { s with combinations := some l, dirty := false } := by
  unfold St.setup at h
  cases hg : s.coll.getCombinations with
  | error e => rw [hg] at h; cases h
  | ok l => rw [hg] at h; cases h; exact ⟨l, rfl, rfl⟩

private theorem inv_same {s s' : St} (h : Inv s) (hc : s'.coll = s.coll) (hn : s'.names = s.names) : Inv s' :=
  ⟨by rw [hc, hn]; exact h.len, by rw [hc, hn]; exact h.sizes, by rw [hc]; exact h.nonneg⟩

private theorem inv_step {s s' : St} (op : Op) (h : Inv s) (hs : s.step op = .ok s') : Inv s' := by
  cases op with
  | add size slice names =>
    simp only [St.step] at hs
    by_cases h1 : size < 1
    · rw [if_pos h1] at hs; cases hs
    rw [if_neg h1] at hs
    by_cases h2 : ∃ l, names = some l ∧ (l.length : Int) ≠ size
    · rw [if_pos h2] at hs; cases hs
    rw [if_neg h2] at hs
    cases hs
    refine ⟨by simp [h.len], ?_, h.nonneg⟩
    intro n sc l hsc hl
    simp only at hsc hl
    rcases Nat.lt_trichotomy n s.names.length with hn | hn | hn
    · rw [List.getElem?_append_left (by rw [← h.len]; exact hn)] at hsc
      rw [List.getElem?_append_left hn] at hl
      exact h.sizes n sc l hsc hl
    · subst hn
      rw [h.len, List.getElem?_concat_length] at hsc
      rw [List.getElem?_concat_length] at hl
      cases hsc
      simp only [Option.some.injEq] at hl
      have : ¬ (l.length : Int) ≠ size := fun hne => h2 ⟨l, hl, hne⟩
      simp only
      omega
    · rw [List.getElem?_eq_none (by simp; omega)] at hl
      cases hl
  | setUser t =>
    simp only [St.step] at hs
    cases hu : s.coll.setUser t with
    | error e => rw [hu] at hs; cases hs
    | ok c =>
      rw [hu] at hs
      cases hs
      obtain ⟨h1, h2⟩ := setUser_ok hu
      exact ⟨by simp only; rw [h1]; exact h.len, by simp only; rw [h1]; exact h.sizes, h2⟩
  | setSlice n slice =>
    cases hs
    refine ⟨by simp [h.len], ?_, h.nonneg⟩
    intro k sc l hsc hl
    simp only [List.getElem?_modify] at hsc
    cases hx : s.coll.scenarios[k]? with
    | none => rw [hx] at hsc; cases hsc
    | some y =>
      rw [hx] at hsc
      simp only [Option.map_eq_map, Option.map_some, Option.some.injEq] at hsc
      have := h.sizes k y l hx hl
      rw [this, ← hsc]
      by_cases hk : n = k
      · simp [hk]
      · simp [hk]
  | setNames n names =>
    simp only [St.step] at hs
    cases hx : s.coll.scenarios[n]? with
    | none => rw [hx] at hs; cases hs; exact h
    | some y =>
      rw [hx] at hs
      simp only at hs
      by_cases h2 : ∃ l, names = some l ∧ l.length ≠ y.size
      · rw [if_pos h2] at hs; cases hs
      rw [if_neg h2] at hs
      cases hs
      refine ⟨by simp [h.len], ?_, h.nonneg⟩
      intro k sc l hsc hl
      simp only at hsc hl
      by_cases hk : n = k
      · subst hk
        rw [hx] at hsc
        cases hsc
        rw [List.getElem?_set_self (by rw [h.len]; exact (List.getElem?_eq_some_iff.1 hx).1)] at hl
        simp only [Option.some.injEq] at hl
        by_contra hne
        exact h2 ⟨l, hl, hne⟩
      · rw [List.getElem?_set_ne hk] at hl
        exact h.sizes k sc l hsc hl
  | touch => cases hs; exact inv_same h rfl rfl
  | setup =>
    obtain ⟨l, -, rfl⟩ := setup_ok hs
    exact inv_same h rfl rfl
  | run =>
    simp only [St.step] at hs
    by_cases hd : s.dirty = true
    · rw [if_pos hd] at hs
      cases hsu : s.setup with
      | error e => rw [hsu] at hs; cases hs
      | ok s1 =>
        rw [hsu] at hs
        cases hs
        obtain ⟨l, -, rfl⟩ := setup_ok hsu
        exact inv_same h rfl rfl
    · rw [if_neg hd] at hs; cases hs; exact inv_same h rfl rfl

private theorem inv_exec (ops : List Op) : ∀ s : St, Inv s → Inv (s.exec ops) := by
  induction ops with
  | nil => exact fun s h => h
  | cons op ops ih =>
    intro s h
    unfold St.exec
    rw [List.foldl_cons]
    cases hs : s.step op with
    | error e => exact ih s h
    | ok s' => exact ih s' (inv_step op h hs)

private theorem inv_new : Inv St.new := ⟨rfl, fun n sc l h => by simp [St.new] at h, fun _ h => by cases h⟩

/-- Since the last setup the selection was not changed. -/
private def Current (s : St) : Prop := ∃ l, s.coll.getCombinations = .ok l ∧ s.combinations = some l

private theorem current_setup {s s' : St} (h : s.setup = .ok s') : Current s' := by
  obtain ⟨l, h1, rfl⟩ := setup_ok h
  exact ⟨l, h1, rfl⟩

private theorem current_step {s s' : St} {op : Op} (hk : op.keeps) (h : Current s) (hs : s.step op = .ok s') :
    Current s' ∧ (op = .run → s'.results = s'.combinations.map fun l => l.map Prod.snd) := by
  cases op with
  | add => cases hk
  | setUser => cases hk
  | setSlice => cases hk
  | setNames n names =>
    simp only [St.step] at hs
    cases hx : s.coll.scenarios[n]? with
    | none => rw [hx] at hs; cases hs; exact ⟨h, fun h => by cases h⟩
    | some y =>
      rw [hx] at hs
      simp only at hs
      by_cases h2 : ∃ l, names = some l ∧ l.length ≠ y.size
      · rw [if_pos h2] at hs; cases hs
      rw [if_neg h2] at hs
      cases hs
      exact ⟨h, fun h => by cases h⟩
  | touch => cases hs; exact ⟨h, fun h => by cases h⟩
  | setup => exact ⟨current_setup hs, fun h => by cases h⟩
  | run =>
    simp only [St.step] at hs
    by_cases hd : s.dirty = true
    · rw [if_pos hd] at hs
      cases hsu : s.setup with
      | error e => rw [hsu] at hs; cases hs
      | ok s1 =>
        rw [hsu] at hs
        cases hs
        have hc : Current s1 := current_setup hsu
        exact ⟨hc, fun _ => rfl⟩
    · rw [if_neg hd] at hs; cases hs; exact ⟨h, fun _ => rfl⟩

private theorem current_exec (ops : List Op) : ∀ s : St, (∀ op ∈ ops, op.keeps) → Current s → Current (s.exec ops) := by
  induction ops with
  | nil => exact fun s _ h => h
  | cons op ops ih =>
    intro s hk h
    unfold St.exec
    rw [List.foldl_cons]
    cases hs : s.step op with
    | error e => exact ih s (fun o ho => hk o (List.mem_cons_of_mem _ ho)) h
    | ok s' =>
      exact ih s' (fun o ho => hk o (List.mem_cons_of_mem _ ho)) (current_step (hk op List.mem_cons_self) h hs).1

private theorem mapM_some {α β : Type} (f : α → Option β) : ∀ (l : List α) (l' : List β), l.mapM f = some l' →
    List.Forall₂ (fun a b => f a = some b) l l' := by
  intro l
  induction l with
  | nil => intro l' h; simp at h; subst h; exact .nil
  | cons a l ih =>
    intro l' h
    rw [List.mapM_cons] at h
    cases hf : f a with
    | none => rw [hf] at h; simp at h
    | some b =>
      cases hm : l.mapM f with
      | none => rw [hf, hm] at h; simp at h
      | some bs =>
        rw [hf, hm] at h
        simp at h
        subst h
        exact .cons hf (ih bs hm)

private theorem labelOf_some : ∀ (scs : List Scenario) (nms : List (Option (List String))) (is : List Int) (lab : List Lab),
    labelOf scs nms is = some lab → lab.length = scs.length ∧ is.length = scs.length ∧
      ∀ (n : Nat) (i : Int), is[n]? = some i → ∃ sc nm x, scs[n]? = some sc ∧ nms[n]? = some nm ∧ lab[n]? = some x ∧
        pyIndex (ensembleNames sc.size nm) i = some x := by
  intro scs
  induction scs with
  | nil =>
    intro nms is lab h
    cases is with
    | nil => cases h; exact ⟨rfl, rfl, fun n i h => by simp at h⟩
    | cons i is => simp [labelOf] at h
  | cons sc scs ih =>
    intro nms is lab h
    cases nms with
    | nil => simp [labelOf] at h
    | cons nm nms =>
      cases is with
      | nil => simp [labelOf] at h
      | cons i is =>
        simp only [labelOf] at h
        obtain ⟨x, hx, h2⟩ := Option.bind_eq_some_iff.1 h
        obtain ⟨ls, hls, rfl⟩ := Option.map_eq_some_iff.1 h2
        obtain ⟨e1, e2, e3⟩ := ih nms is ls hls
        refine ⟨by simp [e1], by simp [e2], ?_⟩
        intro n j hj
        cases n with
        | zero =>
          simp at hj
          subst hj
          exact ⟨sc, nm, x, rfl, rfl, rfl, hx⟩
        | succ n =>
          simp only [List.getElem?_cons_succ] at hj ⊢
          exact e3 n j hj

/-- Members selected are not negative. -/
private theorem members_nonneg {s : St} (hI : Inv s) {l : List Index} (h : s.coll.getCombinations = .ok l) (g : Index)
    (hg : g ∈ l) : ∀ i ∈ g.2, 0 ≤ i := by
  intro i hi
  by_cases hs : s.coll.scenarios = []
  · unfold Collection.getCombinations at h
    simp only [hs, List.length_nil, if_true, List.isEmpty_cons] at h
    cases h
    simp at hg
    subst hg
    simp at hi
    omega
  · cases hu : s.coll.user with
    | some rows =>
      have h1 : l.map Prod.snd = rows := by
        unfold Collection.getCombinations at h
        simp only [List.length_eq_zero_iff, hs, if_false, hu] at h
        by_cases he : (enumerate rows).isEmpty = true
        · rw [if_pos he] at h; cases h
        · rw [if_neg he] at h; cases h; exact enumerate_snd rows
      exact hI.nonneg rows hu g.2 (h1 ▸ List.mem_map_of_mem hg) i hi
    | none =>
      have hc : s.coll = ⟨s.coll.scenarios, none⟩ := by rw [← hu]
      rw [hc] at h
      obtain ⟨ls, hsel, rfl⟩ := getCombinations_product hs h
      have hf := selections_forall2 hsel
      have hm : g.2 ∈ product ls := by rw [← enumerate_snd (product ls)]; exact List.mem_map_of_mem hg
      rw [mem_product] at hm
      obtain ⟨n, hn⟩ := List.mem_iff_getElem?.1 hi
      have hlen := hm.length_eq
      have hlt := (List.getElem?_eq_some_iff.1 hn).1
      have h1 := List.forall₂_iff_get.1 hm
      have h2 := List.forall₂_iff_get.1 hf
      have h3 := h1.2 n hlt (by omega)
      have h4 := h2.2 n (by have := h2.1; omega) (by omega)
      have h5 := (List.getElem?_eq_some_iff.1 hn).2
      simp only [List.get_eq_getElem] at h3 h4
      rw [h5] at h3
      exact (selects_range ((mem_selection h4 i).1 h3)).1

private theorem names_of_label {s : St} (hI : Inv s) (hs : s.coll.scenarios ≠ []) {r : List Int} {lab : List Lab}
    (hr : ∀ i ∈ r, 0 ≤ i) (h : labelOf s.coll.scenarios s.names r = some lab) : Names s r lab := by
  unfold Names
  rw [if_neg hs]
  obtain ⟨h1, h2, h3⟩ := labelOf_some _ _ _ _ h
  refine ⟨h1, h2, fun n i hi => ?_⟩
  obtain ⟨sc, nm, x, e1, e2, e3, e4⟩ := h3 n i hi
  have h0 := hr i (List.mem_of_getElem? hi)
  unfold pyIndex at e4
  rw [if_pos h0] at e4
  have hlt := (List.getElem?_eq_some_iff.1 e4).1
  cases nm with
  | none =>
    simp only [ensembleNames, List.length_map, List.length_range] at hlt
    refine ⟨⟨sc, e1, h0, by omega⟩, Or.inl ⟨e2, ?_⟩⟩
    rw [e3, ← e4]
    simp only [ensembleNames, List.getElem?_map, List.getElem?_range hlt, Option.map_some]
    rw [Int.toNat_of_nonneg h0]
  | some l =>
    simp only [ensembleNames, List.length_map] at hlt
    have hsz := hI.sizes n sc l e1 e2
    refine ⟨⟨sc, e1, h0, by omega⟩, Or.inr ?_⟩
    simp only [ensembleNames, List.getElem?_map, Option.map_eq_some_iff] at e4
    obtain ⟨y, hy, rfl⟩ := e4
    exact ⟨l, y, e2, hy, e3⟩

private theorem labelled_of {s : St} (hI : Inv s) (hc : Current s)
    (hr : s.results = s.combinations.map fun l => l.map Prod.snd) : Labelled s := by
  obtain ⟨l, h1, h2⟩ := hc
  refine ⟨l.map Prod.snd, by rw [hr, h2]; rfl, fun ls hls => ?_⟩
  unfold St.multiindex at hls
  by_cases hs : s.coll.scenarios = []
  · rw [if_pos (by simp [hs])] at hls
    cases hls
    have hl : l = [(0, [0])] := by
      unfold Collection.getCombinations at h1
      simp only [hs, List.length_nil, if_true, List.isEmpty_cons] at h1
      cases h1
      rfl
    subst hl
    refine ⟨rfl, fun g r lab hr hl => ?_⟩
    unfold Names
    rw [if_pos hs]
    cases g with
    | zero => simpa using hl.symm
    | succ g => simp at hl
  · rw [if_neg (by simpa using hs), h1] at hls
    simp only at hls
    have hf := mapM_some _ _ _ hls
    refine ⟨hf.length_eq, fun g r lab hr hl => ?_⟩
    obtain ⟨hg1, hg2⟩ := List.getElem?_eq_some_iff.1 hr
    obtain ⟨hg3, hg4⟩ := List.getElem?_eq_some_iff.1 hl
    have := (List.forall₂_iff_get.1 hf).2 g hg1 hg3
    simp only [List.get_eq_getElem] at this
    rw [hg2, hg4] at this
    refine names_of_label hI hs ?_ this
    have hm : r ∈ l.map Prod.snd := List.mem_of_getElem? hr
    obtain ⟨c, hc, rfl⟩ := List.mem_map.1 hm
    exact members_nonneg hI h1 c hc

/-- **C71.** After any history of a model: once it has been set up, and as long as since then no scenario was added and no
slice or table of combinations changed, the results of a run are labelled with the ensemble members they were computed
for, whatever else was done (running again, renaming members, changing other things of the model). -/
theorem C71_labels_partial (ops : List Op) (s1 : St) (h : (St.new.exec ops).setup = .ok s1) (bs : List Op)
    (hb : ∀ op ∈ bs, op.keeps) (s2 : St) (h2 : (s1.exec bs).step .run = .ok s2) : Labelled s2 := by
  have hI1 : Inv s1 := inv_step .setup (inv_exec ops _ inv_new) h
  have hI2 := inv_step .run (inv_exec bs _ hI1) h2
  have hc := current_step (op := .run) trivial (current_exec bs s1 hb (current_setup h)) h2
  exact labelled_of hI2 hc.1 (hc.2 rfl)

/-- **C71 (dirty models).** The same for a run that starts with a dirty model: a new one, one with a new scenario, or one
with other changes that make it be set up again. -/
theorem C71_dirty (ops : List Op) (hd : (St.new.exec ops).dirty = true) (s2 : St)
    (h2 : (St.new.exec ops).step .run = .ok s2) : Labelled s2 := by
  have hI2 := inv_step .run (inv_exec ops _ inv_new) h2
  simp only [St.step] at h2
  rw [if_pos hd] at h2
  cases hsu : (St.new.exec ops).setup with
  | error e => rw [hsu] at h2; cases h2
  | ok s1 =>
    rw [hsu] at h2
    cases h2
    have hc : Current s1 := current_setup hsu
    exact labelled_of hI2 hc rfl

private theorem dirty_step {s s' : St} {op : Op} (hr : op ≠ .run) (hu : op ≠ .setup) (hd : s.dirty = true)
    (hs : s.step op = .ok s') : s'.dirty = true := by
  cases op with
  | run => exact absurd rfl hr
  | setup => exact absurd rfl hu
  | touch => cases hs; rfl
  | setSlice n slice => cases hs; exact hd
  | add size slice names =>
    simp only [St.step] at hs
    split at hs
    · cases hs
    · split at hs
      · cases hs
      · cases hs; simp
  | setUser t =>
    simp only [St.step] at hs
    split at hs
    · cases hs
    · cases hs; exact hd
  | setNames n names =>
    simp only [St.step] at hs
    split at hs
    · cases hs; exact hd
    · split at hs
      · cases hs
      · cases hs; exact hd

private theorem dirty_exec (ops : List Op) : ∀ s : St, (∀ op ∈ ops, op ≠ .run ∧ op ≠ .setup) → s.dirty = true →
    (s.exec ops).dirty = true := by
  induction ops with
  | nil => exact fun s _ h => h
  | cons op ops ih =>
    intro s hk h
    unfold St.exec
    rw [List.foldl_cons]
    cases hs : s.step op with
    | error e => exact ih s (fun o ho => hk o (List.mem_cons_of_mem _ ho)) h
    | ok s' =>
      exact ih s' (fun o ho => hk o (List.mem_cons_of_mem _ ho))
        (dirty_step (hk op List.mem_cons_self).1 (hk op List.mem_cons_self).2 h hs)

/-- **C71 (first run).** The first run of a model is labelled with the members it was computed for, with whatever scenarios,
slices, names and tables of combinations were made before it. -/
theorem C71_first (ops : List Op) (hb : ∀ op ∈ ops, op ≠ .run ∧ op ≠ .setup) (s : St)
    (h : (St.new.exec ops).step .run = .ok s) : Labelled s :=
  C71_dirty ops (dirty_exec ops _ hb rfl) s h

example : ((St.new.exec [Op.add 2 none none, .setSlice 0 (some ⟨some 1, none, none⟩)]).exec [.run]).results = some [[1]] := by
  decide +kernel

/-- **C71 (new scenarios).** When a scenario is added to a model, with whatever history, also one which has been run, the
next run is labelled with the members it was computed for: with whatever is changed between the two, slices and tables of
combinations included. -/
theorem C71_added (ops : List Op) (size : Int) (slice : Option PySlice) (names : Option (List String)) (s1 : St)
    (h1 : (St.new.exec ops).step (.add size slice names) = .ok s1) (bs : List Op)
    (hb : ∀ op ∈ bs, op ≠ .run ∧ op ≠ .setup) (s2 : St) (h2 : (s1.exec bs).step .run = .ok s2) :
    Labelled s2 ∧ s1.coll.scenarios.length = (St.new.exec ops).coll.scenarios.length + 1 := by
  have e : St.new.exec (ops ++ .add size slice names :: bs) = s1.exec bs := by
    unfold St.exec at h1 ⊢
    rw [List.foldl_append, List.foldl_cons, h1]
  have hadd : s1.dirty = true ∧ s1.coll.scenarios.length = (St.new.exec ops).coll.scenarios.length + 1 := by
    simp only [St.step] at h1
    split at h1
    · cases h1
    · split at h1
      · cases h1
      · cases h1; simp
  refine ⟨?_, hadd.2⟩
  rw [← e] at h2
  refine C71_dirty _ ?_ s2 h2
  rw [e]
  exact dirty_exec bs s1 hb hadd.1

example : ((St.new.exec [Op.add 2 none none, .run]).step (.add 2 none none)).toOption.map
    (fun s => ((s.exec [.setSlice 0 (some ⟨some 1, none, none⟩)]).exec [.run]).results) =
    some (some [[1, 0], [1, 1]]) := by decide +kernel

private theorem labelOf_total (scs : List Scenario) : ∀ (nms : List (Option (List String))) (is : List Int),
    nms.length = scs.length →
    (∀ (n : Nat) (sc : Scenario) (l : List String), scs[n]? = some sc → nms[n]? = some (some l) → l.length = sc.size) →
    List.Forall₂ (fun (i : Int) (sc : Scenario) => 0 ≤ i ∧ i < sc.size) is scs → ∃ lab, labelOf scs nms is = some lab := by
  induction scs with
  | nil => intro nms is _ _ h; cases h; exact ⟨[], rfl⟩
  | cons sc scs ih =>
    intro nms is hl hsz h
    cases h with
    | @cons i _ is _ h1 h2 =>
      cases nms with
      | nil => simp at hl
      | cons nm nms =>
        obtain ⟨lab, hlab⟩ := ih nms is (by simpa using hl)
          (fun n s l hs hn => hsz (n + 1) s l (by simpa using hs) (by simpa using hn)) h2
        have hlen : (ensembleNames sc.size nm).length = sc.size := by
          cases nm with
          | none => simp [ensembleNames]
          | some l => simpa [ensembleNames] using hsz 0 sc l rfl rfl
        refine ⟨(ensembleNames sc.size nm)[i.toNat]'(by omega) :: lab, ?_⟩
        simp only [labelOf, pyIndex]
        rw [if_pos h1.1, List.getElem?_eq_getElem (by omega), hlab]
        rfl

/-- **C71 (labels exist).** If the model can be set up and its user-defined combinations, if any, have an entry for every
scenario (no scenario was added after them), labels can be made. -/
theorem C71_exist (ops : List Op) (hfit : TableFits (St.new.exec ops)) (s1 : St)
    (h : (St.new.exec ops).setup = .ok s1) : ∃ ls, s1.multiindex = some ls := by
  have hI : Inv s1 := inv_step .setup (inv_exec ops _ inv_new) h
  obtain ⟨l, h1, rfl⟩ := setup_ok h
  generalize St.new.exec ops = s at *
  unfold St.multiindex
  by_cases hs : s.coll.scenarios = []
  · rw [if_pos (by simp [hs])]; exact ⟨_, rfl⟩
  rw [if_neg (by simpa using hs)]
  simp only [h1]
  have hall : ∀ r ∈ l.map Prod.snd, List.Forall₂ (fun (i : Int) (sc : Scenario) => 0 ≤ i ∧ i < sc.size) r s.coll.scenarios := by
    intro r hr
    cases hu : s.coll.user with
    | some rows =>
      have h1' : l.map Prod.snd = rows := by
        unfold Collection.getCombinations at h1
        simp only [List.length_eq_zero_iff, hs, if_false, hu] at h1
        by_cases he : (enumerate rows).isEmpty = true
        · rw [if_pos he] at h1; cases h1
        · rw [if_neg he] at h1; cases h1; exact enumerate_snd rows
      exact hfit rows hu r (h1' ▸ hr)
    | none =>
      have hc : s.coll = ⟨s.coll.scenarios, none⟩ := by rw [← hu]
      rw [hc] at h1
      obtain ⟨ls, hsel, rfl⟩ := getCombinations_product hs h1
      have hf := selections_forall2 hsel
      rw [enumerate_snd, mem_product] at hr
      rw [List.forall₂_iff_get] at hr hf ⊢
      refine ⟨by rw [hr.1, hf.1], fun n hn1 hn2 => ?_⟩
      exact selects_range ((mem_selection (hf.2 n hn2 (by have := hf.1; omega)) _).1 (hr.2 n hn1 (by have := hf.1; omega)))
  generalize l.map Prod.snd = rs at hall
  induction rs with
  | nil => exact ⟨[], rfl⟩
  | cons r rs ih =>
    obtain ⟨ls, hls⟩ := ih fun x hx => hall x (List.mem_cons_of_mem _ hx)
    obtain ⟨lab, hlab⟩ := labelOf_total _ s.names r hI.len hI.sizes (hall r List.mem_cons_self)
    refine ⟨lab :: ls, ?_⟩
    rw [List.mapM_cons, hlab, hls]
    rfl

/-- **C71 fails when the selection is changed between runs.** A model with a scenario of two members is run, then the user
asks for the combinations `[[1], [0]]` and runs it again: the model is not set up again, the columns are still computed
for members 0 and 1, but labelled 1 and 0. With the slice `1:2` the results still have two columns and the labels are one. -/
theorem C71_changed_fails :
    (let s := St.new.exec [.add 2 none none, .run, .setUser (.twoD 1 [[1], [0]]), .run]
     s.results = some [[0], [1]] ∧ s.multiindex = some [[.num 1], [.num 0]] ∧ ¬ Labelled s) ∧
    (let s := St.new.exec [.add 2 none none, .run, .setSlice 0 (some ⟨some 1, some 2, none⟩), .run]
     s.results = some [[0], [1]] ∧ s.multiindex = some [[.num 1]]) := by
  refine ⟨⟨by decide +kernel, by decide +kernel, ?_⟩, by decide +kernel, by decide +kernel⟩
  rintro ⟨rs, h1, h2⟩
  have h3 : (St.new.exec [.add 2 none none, .run, .setUser (.twoD 1 [[1], [0]]), .run]).results = some [[0], [1]] := by
    decide +kernel
  rw [h3] at h1
  cases h1
  have h4 := (h2 [[.num 1], [.num 0]] (by decide +kernel)).2 0 [0] [.num 1] rfl rfl
  unfold Names at h4
  rw [if_neg (by decide +kernel)] at h4
  rcases (h4.2.2 0 0 rfl).2 with ⟨-, h⟩ | ⟨l, x, -, -, h⟩ <;> cases h

/-- The hypotheses of `C71_labels_partial` and `C71_exist` with two scenarios, one with names and one with a slice. -/
example : let ops := [Op.add 2 none (some ["dry", "wet"]), .add 3 (some ⟨some 1, none, none⟩) none]
    ((St.new.exec ops).setup.toOption.map St.multiindex = some (some [[.str "dry", .num 1], [.str "dry", .num 2],
      [.str "wet", .num 1], [.str "wet", .num 2]])) ∧
    TableFits (St.new.exec ops) := by
  refine ⟨by decide +kernel, ?_⟩
  intro rows h
  have : (St.new.exec [Op.add 2 none (some ["dry", "wet"]), .add 3 (some ⟨some 1, none, none⟩) none]).coll.user = none := by
    decide +kernel
  rw [this] at h
  cases h

end Verif.Labels

import Verif.Proof.OutputFile
import Verif.Proof.Scenarios
/-!
# C104: what is recorded is in its own place of the output file
-/

namespace Verif.OutputFile

variable {α : Type}

/-! ## Arrays -/

private def allPaths (c : Conf α) : List Path := c.itemPaths ++ (c.fixed.map Prod.fst ++ c.remade.map Prod.fst)

private theorem all_apart {c : Conf α} (h : Clear c) (ht : ClearTables c) : (allPaths c).Pairwise Apart := by
  rw [allPaths, List.pairwise_append]
  refine ⟨h.arrays, ht.all, fun p hp q hq => ?_⟩
  rcases List.mem_append.1 hq with hq | hq <;> obtain ⟨e, he, rfl⟩ := List.mem_map.1 hq
  · exact h.fixed p hp e he
  · exact h.remade p hp e he

private theorem pairwise_mem {l : List Path} (h : l.Pairwise Apart) {p q : Path} (hp : p ∈ l) (hq : q ∈ l) (hne : p ≠ q) : Apart p q := by
  induction l with
  | nil => cases hp
  | cons a l ih =>
    rw [List.pairwise_cons] at h
    rcases List.mem_cons.1 hp with rfl | hp' <;> rcases List.mem_cons.1 hq with rfl | hq'
    · exact absurd rfl hne
    · exact h.1 q hq'
    · exact (h.1 p hp').symm
    · exact ih h.2 hp' hq'

private theorem after_ok {c : Conf α} (h : Clear c) (w : Nat → Path → α → α) (f : File α) : ∃ f', after c w f = some f' := by
  unfold after
  rw [if_neg]
  · exact ⟨_, rfl⟩
  · rw [List.any_eq_true]
    rintro ⟨⟨x, p⟩, hx, ha⟩
    rw [List.any_eq_true] at ha
    obtain ⟨s, hs, hm⟩ := ha
    rw [List.contains_iff_mem] at hm
    obtain ⟨e, he, hee⟩ := List.mem_map.1 hm
    have hi := ((mem_handles c.items).2 x p).1 hx
    have hi := (List.mem_filter.1 (List.mem_of_getLast? hi)).1
    have hp : p ++ s ∈ c.itemPaths := List.mem_flatMap.2 ⟨_, hi, List.mem_map_of_mem hs⟩
    exact (h.remade _ hp e he).ne hee.symm

private theorem mem_itemPaths {c : Conf α} {e : Path × Nat} (he : e ∈ c.items) {s : Path} (hs : s ∈ c.arrays e.2) : e.1 ++ s ∈ c.itemPaths :=
  List.mem_flatMap.2 ⟨_, he, List.mem_map_of_mem hs⟩

private theorem runs_ok {c : Conf α} (h : Clear c) (ht : ClearTables c) (hn : (c.items.map Prod.snd).Nodup) (es : List (Ev α)) (f : File α) (hw : WF f)
    (hsub : ∀ q, (content f q).isSome → q ∈ allPaths c) :
    ∃ f', run c f es = some f' ∧
      (∀ e ∈ c.items, ∀ s ∈ c.arrays e.2, content f' (e.1 ++ s) = (content f (e.1 ++ s)).map (written e.2 s es)) ∧
      (∀ e ∈ c.fixed, content f' e.1 = content f e.1) ∧
      (Ev.reset ∈ es ∨ (∀ e ∈ c.remade, content f e.1 = some e.2) → ∀ e ∈ c.remade, content f' e.1 = some e.2) := by
  have hall := all_apart h ht
  induction es generalizing f with
  | nil =>
    refine ⟨f, rfl, fun e _ s _ => ?_, fun _ _ => rfl, fun h e he => ?_⟩
    · cases content f (e.1 ++ s) <;> rfl
    · rcases h with h | h
      · cases h
      · exact h e he
  | cons ev es ih =>
    cases ev with
    | reset =>
      have hs : (remakeAll f c.remade).isSome := by
        rw [remakeAll_iff hw]
        have hr : (c.remade.map Prod.fst).Pairwise Apart := (List.pairwise_append.1 ht.all).2.1
        refine ⟨hr.imp fun h => .inr h, fun p hp => ⟨fun e => ht.root (List.mem_append_right _ (e ▸ hp)), fun q hq => ?_⟩⟩
        by_cases e : q = p
        · exact .inl e
        · exact .inr (pairwise_mem hall (hsub q hq) (List.mem_append_right _ (List.mem_append_right _ hp)) e)
      obtain ⟨g, hg⟩ := Option.isSome_iff_exists.1 hs
      obtain ⟨k1, k2, k3⟩ := remakeAll_content hg
      have hsub' : ∀ q, (content g q).isSome → q ∈ allPaths c := by
        intro q hq
        rcases (k3 q).1 hq with h | h
        · exact List.mem_append_right _ (List.mem_append_right _ h)
        · exact hsub q h
      obtain ⟨f', hf', i1, i2, i3⟩ := ih g (remakeAll_wf hw hg) hsub'
      refine ⟨f', by simp only [run, step, reset, hg, Option.bind_some, hf'], fun e he s hs => ?_, fun e he => ?_, fun _ => i3 (.inr ?_)⟩
      · rw [i1 e he s hs, k1 _ fun hm => ?_]
        · rfl
        · obtain ⟨d, hd, hde⟩ := List.mem_map.1 hm
          exact (h.remade _ (mem_itemPaths he hs) d hd).ne hde.symm
      · rw [i2 e he, k1 _ fun hm => ?_]
        exact ((List.pairwise_append.1 ht.all).2.2 _ (List.mem_map_of_mem he) _ hm).ne rfl
      · exact k2 (pairwise_apart_nodup (List.pairwise_append.1 ht.all).2.1)
    | after w =>
      obtain ⟨g, hg⟩ := after_ok h w f
      have hge := after_eq hg
      have hp := changes_once hn w
      have hsub' : ∀ q, (content g q).isSome → q ∈ allPaths c := by
        intro q hq
        rw [hge, modifies_isSome] at hq
        exact hsub q hq
      have hother : ∀ q, q ∉ c.itemPaths → content g q = content f q := by
        intro q hq
        rw [hge, modifies_other]
        rw [hp]; exact hq
      have htab : ∀ q ∈ c.fixed.map Prod.fst ++ c.remade.map Prod.fst, q ∉ c.itemPaths := by
        intro q hq hi
        exact ((List.pairwise_append.1 hall).2.2 q hi q hq).ne rfl
      obtain ⟨f', hf', i1, i2, i3⟩ := ih g (by rw [hge]; exact modifies_wf hw _) hsub'
      refine ⟨f', by simp only [run, step, hg, Option.bind_some, hf'], fun e he s hs => ?_, fun e he => ?_, fun hr => i3 ?_⟩
      · rw [i1 e he s hs, hge]
        have hm : (e.1 ++ s, w e.2 s) ∈ changes c w := by
          unfold changes
          rw [handles_once hn]
          exact List.mem_flatMap.2 ⟨(e.2, e.1), List.mem_map.2 ⟨e, he, rfl⟩, List.mem_map.2 ⟨s, hs, rfl⟩⟩
        have := modifies_one f (changes c w) (by rw [hp]; exact pairwise_apart_nodup h.arrays) _ hm
        rw [this]
        cases content f (e.1 ++ s) <;> rfl
      · rw [i2 e he, hother _ (htab _ (List.mem_append_left _ (List.mem_map_of_mem he)))]
      · rcases hr with hr | hr
        · exact .inl (by simpa using hr)
        · exact .inr fun e he => by rw [hother _ (htab _ (List.mem_append_right _ (List.mem_map_of_mem he)))]; exact hr e he

/-- **C104.** When no path of an array or table leads through another one and every item is recorded once, the file can be made, and whatever runs follow, every array holds what was recorded of its
own item, the tables of scenarios stay as they were made, and after a reset so are the others. -/
theorem C104_run_partial (c : Conf α) (h : Clear c) (ht : ClearTables c) (hn : (c.items.map Prod.snd).Nodup) :
    ∃ f, setup c = some f ∧ ∀ es, ∃ f', run c f es = some f' ∧
      (∀ e ∈ c.items, ∀ s ∈ c.arrays e.2, content f' (e.1 ++ s) = some (written e.2 s es c.blank)) ∧
      (∀ e ∈ c.fixed, content f' e.1 = some e.2) ∧ (Ev.reset ∈ es → ∀ e ∈ c.remade, content f' e.1 = some e.2) := by
  have hall := all_apart h ht
  have hp : ((c.itemPaths.map (fun p => (p, c.blank)) ++ c.fixed).map Prod.fst) = c.itemPaths ++ c.fixed.map Prod.fst := by
    simp [Function.comp_def]
  have hpw : (c.itemPaths ++ c.fixed.map Prod.fst).Pairwise Apart := by
    rw [allPaths, ← List.append_assoc] at hall
    exact (List.pairwise_append.1 hall).1
  have hs : (setup c).isSome := by
    unfold setup
    rw [createAll_iff wf_nil, hp]
    refine ⟨hpw, fun p hm => ⟨fun e => ?_, fun q hq => ?_⟩⟩
    · subst e
      rcases List.mem_append.1 hm with hm | hm
      · exact h.root hm
      · exact ht.root (List.mem_append_left _ hm)
    · obtain ⟨a, ha⟩ := content_isSome.1 hq
      unfold File.at at ha
      split at ha <;> cases ha
  obtain ⟨f, hf⟩ := Option.isSome_iff_exists.1 hs
  refine ⟨f, hf, fun es => ?_⟩
  obtain ⟨k1, k2, k3⟩ := createAll_content hf
  rw [hp] at k2 k3
  have k2 := k2 (pairwise_apart_nodup hpw)
  obtain ⟨f', hf', i1, i2, i3⟩ := runs_ok h ht hn es f (createAll_wf wf_nil hf) (by
    intro q hq
    rcases (k3 q).1 hq with h | h
    · rw [allPaths, ← List.append_assoc]; exact List.mem_append_left _ h
    · obtain ⟨a, ha⟩ := content_isSome.1 h
      unfold File.at at ha
      split at ha <;> cases ha)
  refine ⟨f', hf', fun e he s hs => ?_, fun e he => ?_, fun hr => i3 (.inl hr)⟩
  · rw [i1 e he s hs]
    have := k2 (e.1 ++ s, c.blank) (List.mem_append_left _ (List.mem_map_of_mem (mem_itemPaths he hs)))
    rw [this]; rfl
  · rw [i2 e he]
    exact k2 e (List.mem_append_right _ he)

/-- **C104.** Conversely, when the file was made and the first timestep was recorded, every array has a place of its own: an item whose path is taken, leads through another array or table, or is the
way to one, raises. -/
theorem C104_refused (c : Conf α) (hn : (c.items.map Prod.snd).Nodup) (w : Nat → Path → α → α) (f f' : File α) (hf : setup c = some f)
    (hr : run c f [.reset, .after w] = some f') : Clear c := by
  have hp : ((c.itemPaths.map (fun p => (p, c.blank)) ++ c.fixed).map Prod.fst) = c.itemPaths ++ c.fixed.map Prod.fst := by
    simp [Function.comp_def]
  have h1 : (setup c).isSome := by rw [hf]; rfl
  unfold setup at h1
  rw [createAll_iff wf_nil, hp, List.pairwise_append] at h1
  obtain ⟨⟨ha, -, hb⟩, hc⟩ := h1
  obtain ⟨k1, k2, k3⟩ := createAll_content hf
  rw [hp] at k3
  obtain ⟨g, hg, hr⟩ := Option.bind_eq_some_iff.1 (show (reset c f).bind _ = some f' from hr)
  obtain ⟨g', hg', -⟩ := Option.bind_eq_some_iff.1 (show (after c w g).bind _ = some f' from hr)
  have h2 := (remakeAll_iff (createAll_wf wf_nil hf) c.remade).1 (by rw [show remakeAll f c.remade = some g from hg]; rfl)
  refine ⟨ha, fun p hp q hq => hb p hp _ (List.mem_map_of_mem hq), fun p hp q hq => ?_, fun hm => (hc [] (List.mem_append_left _ hm)).1 rfl⟩
  rcases (h2.2 q.1 (List.mem_map_of_mem hq)).2 p ((k3 p).2 (.inl (List.mem_append_left _ hp))) with e | h
  · exfalso
    unfold after at hg'
    rw [if_pos] at hg'
    · cases hg'
    · obtain ⟨e', he', hm⟩ := List.mem_flatMap.1 hp
      obtain ⟨s, hs, hes⟩ := List.mem_map.1 hm
      rw [handles_once hn, List.any_eq_true]
      refine ⟨(e'.2, e'.1), List.mem_map.2 ⟨e', he', rfl⟩, List.any_eq_true.2 ⟨s, hs, ?_⟩⟩
      rw [List.contains_iff_mem]
      show e'.1 ++ s ∈ _
      rw [hes, e]
      exact List.mem_map_of_mem hq
  · exact h

/-- **C104 fails (recorded twice).** A node or parameter listed at two paths is written at the last one only: whatever the history, the array at the first path stays as it was made. -/
theorem C104_twice_fails (c : Conf α) (pre post : List (Path × Nat)) (p q : Path) (x : Nat) (hi : c.items = pre ++ (p, x) :: post) (hq : (q, x) ∈ post) (s : Path)
    (hs : s ∈ c.arrays x) (hr : p ++ s ∉ c.remade.map Prod.fst) (f f' : File α) (hf : setup c = some f) (es : List (Ev α)) (h : run c f es = some f') :
    content f' (p ++ s) = some c.blank := by
  have hp : ((c.itemPaths.map (fun p => (p, c.blank)) ++ c.fixed).map Prod.fst) = c.itemPaths ++ c.fixed.map Prod.fst := by
    simp [Function.comp_def]
  have h1 : (setup c).isSome := by rw [hf]; rfl
  unfold setup at h1
  rw [createAll_iff wf_nil, hp] at h1
  have hnd : c.itemPaths.Nodup := pairwise_apart_nodup (List.pairwise_append.1 h1.1).1
  have hmem : p ++ s ∈ c.itemPaths := mem_itemPaths (e := (p, x)) (by rw [hi]; simp) hs
  have h0 : content f (p ++ s) = some c.blank := by
    have := (createAll_content hf).2.1 (by rw [hp]; exact pairwise_apart_nodup h1.1) (p ++ s, c.blank) (List.mem_append_left _ (List.mem_map_of_mem hmem))
    exact this
  have hno : ∀ w : Nat → Path → α → α, p ++ s ∉ (changes c w).map Prod.fst := by
    intro w hm
    obtain ⟨e, he, hee⟩ := List.mem_map.1 hm
    obtain ⟨⟨y, r⟩, hy, ht⟩ := List.mem_flatMap.1 he
    obtain ⟨t, ht', rfl⟩ := List.mem_map.1 ht
    have ht : t ∈ c.arrays y := ht'
    have hlast := ((mem_handles c.items).2 y r).1 hy
    have hin : (r, y) ∈ pre ++ post := by
      by_cases hxy : y = x
      · subst hxy
        rw [hi, List.filter_append, List.filter_cons_of_pos (by simp)] at hlast
        have hne : (post.filter fun e => e.2 = y) ≠ [] := List.ne_nil_of_mem (List.mem_filter.2 ⟨hq, by simp⟩)
        rw [List.getLast?_append_of_ne_nil _ (by simp), List.getLast?_cons, List.getLast?_eq_getLast_of_ne_nil hne] at hlast
        simp only [Option.getD_some, Option.some.injEq] at hlast
        exact List.mem_append_right _ (List.mem_filter.1 (hlast ▸ List.getLast_mem hne)).1
      · have hm := (List.mem_filter.1 (List.mem_of_getLast? hlast)).1
        rw [hi] at hm
        rcases List.mem_append.1 hm with hm | hm
        · exact List.mem_append_left _ hm
        · rcases List.mem_cons.1 hm with hm | hm
          · cases hm; exact absurd rfl hxy
          · exact List.mem_append_right _ hm
    have hnd' : ((pre.flatMap fun e => (c.arrays e.2).map (e.1 ++ ·)) ++ ((c.arrays x).map (p ++ ·) ++ post.flatMap fun e => (c.arrays e.2).map (e.1 ++ ·))).Nodup := by
      have := hnd
      unfold Conf.itemPaths at this
      rw [hi, List.flatMap_append, List.flatMap_cons] at this
      exact this
    have hmid : p ++ s ∈ (c.arrays x).map (p ++ ·) := List.mem_map_of_mem hs
    have hee : r ++ t = p ++ s := hee
    have hrt : p ++ s ∈ (c.arrays y).map (r ++ ·) := List.mem_map.2 ⟨t, ht, hee⟩
    rw [List.nodup_append, List.nodup_append] at hnd'
    rcases List.mem_append.1 hin with hin | hin
    · exact hnd'.2.2 _ (List.mem_flatMap.2 ⟨_, hin, hrt⟩) _ (List.mem_append_left _ hmid) rfl
    · exact hnd'.2.1.2.2 _ hmid _ (List.mem_flatMap.2 ⟨_, hin, hrt⟩) rfl
  clear hf
  induction es generalizing f with
  | nil => cases h; exact h0
  | cons ev es ih =>
    obtain ⟨g, hg, h⟩ := Option.bind_eq_some_iff.1 (show (step c f ev).bind _ = some f' from h)
    refine ih g h ?_
    cases ev with
    | reset => rw [(remakeAll_content (show remakeAll f c.remade = some g from hg)).1 _ hr, h0]
    | after w => rw [after_eq (show after c w f = some g from hg), modifies_other _ _ _ (hno w), h0]

/-- **C104 fails (tables).** A table made by `reset` (time, routes) at the path of one made by `setup` (scenarios) replaces it without an error. -/
theorem C104_tables_fails (c : Conf α) (f f' : File α) (hf : setup c = some f) (hr : reset c f = some f') (hn : (c.remade.map Prod.fst).Nodup) (e d : Path × α)
    (he : e ∈ c.fixed) (hd : d ∈ c.remade) (hp : d.1 = e.1) : content f e.1 = some e.2 ∧ content f' e.1 = some d.2 := by
  have hp' : ((c.itemPaths.map (fun p => (p, c.blank)) ++ c.fixed).map Prod.fst) = c.itemPaths ++ c.fixed.map Prod.fst := by
    simp [Function.comp_def]
  have h1 : (setup c).isSome := by rw [hf]; rfl
  unfold setup at h1
  rw [createAll_iff wf_nil, hp'] at h1
  have := (remakeAll_content hr).2.1 hn d hd
  rw [hp] at this
  exact ⟨(createAll_content hf).2.1 (by rw [hp']; exact pairwise_apart_nodup h1.1) e (List.mem_append_right _ he), this⟩

example : (setup (⟨[], fun _ => [], [([['s']], 1)], [([['s']], 2)], 0⟩ : Conf Nat)).bind (fun f => reset ⟨[], fun _ => [], [([['s']], 1)], [([['s']], 2)], 0⟩ f) =
    some [([['s']], .leaf 2)] := by decide +kernel

private def sampleConf (items : List (Path × Nat)) : Conf (List Nat) :=
  ⟨items, fun _ => [[]], [([['s']], [7])], [([['t']], [8])], [0, 0]⟩

/-- The arrays `/a`, `/g/b` of items 0 and 1; the first is written 3, the second 5. -/
example : ((setup (sampleConf [([['a']], 0), ([['g'], ['b']], 1)])).bind (fun f => run (sampleConf [([['a']], 0), ([['g'], ['b']], 1)]) f
      [.reset, .after fun x _ r => r.set 0 (if x = 0 then 3 else 5)])).map (fun f => [[['a']], [['g'], ['b']], [['s']], [['t']]].map (content f)) =
    some [some [3, 0], some [5, 0], some [7], some [8]] := by decide +kernel

example : Clear (sampleConf [([['a']], 0), ([['g'], ['b']], 1)]) ∧ ClearTables (sampleConf [([['a']], 0), ([['g'], ['b']], 1)]) := by
  refine ⟨⟨?_, ?_, ?_, ?_⟩, ⟨?_, ?_⟩⟩ <;> simp [Conf.itemPaths, sampleConf, Apart]

/-- Item 0 at `/a` and `/b`: only `/b` is written. -/
example : ((setup (sampleConf [([['a']], 0), ([['b']], 0)])).bind (fun f => run (sampleConf [([['a']], 0), ([['b']], 0)]) f
      [.reset, .after fun _ _ r => r.set 0 3])).map (fun f => [[['a']], [['b']]].map (content f)) = some [some [0, 0], some [3, 0]] := by decide +kernel

/-- An item at the path of the time table: the first timestep raises. -/
example : (setup (sampleConf [([['t']], 0)])).bind (fun f => run (sampleConf [([['t']], 0)]) f [.reset]) ≠ none ∧
    (setup (sampleConf [([['t']], 0)])).bind (fun f => run (sampleConf [([['t']], 0)]) f [.reset, .after fun _ _ r => r]) = none := by decide +kernel

/-! ## Default paths -/

private theorem apart_of_length {p q : Path} (h : p.length = q.length) : Apart p q ↔ p ≠ q := by
  constructor
  · exact Apart.ne
  · intro hne
    exact ⟨fun hp => hne (hp.eq_of_length h), fun hp => hne (hp.eq_of_length h.symm).symm⟩

private theorem clash_none {c : Conf α} {p : Path} {i j : Nat} (hij : i < j) (hi : c.itemPaths[i]? = some p) (hj : c.itemPaths[j]? = some p) : setup c = none := by
  by_contra hne
  obtain ⟨f, hf⟩ := Option.ne_none_iff_exists'.1 hne
  have hp : ((c.itemPaths.map (fun p => (p, c.blank)) ++ c.fixed).map Prod.fst) = c.itemPaths ++ c.fixed.map Prod.fst := by
    simp [Function.comp_def]
  have h1 : (setup c).isSome := by rw [hf]; rfl
  unfold setup at h1
  rw [createAll_iff wf_nil, hp] at h1
  have hnd : c.itemPaths.Nodup := pairwise_apart_nodup (List.pairwise_append.1 h1.1).1
  obtain ⟨hi', rfl⟩ := List.getElem?_eq_some_iff.1 hi
  obtain ⟨hj', he⟩ := List.getElem?_eq_some_iff.1 hj
  exact absurd (hnd.getElem_inj_iff.1 he) (by omega)

/-- **C104 (kinds, version 2).** The name of an array tells what it was recorded of: a storage, another node, an index parameter or another parameter. -/
theorem C104_kinds (k l : Kind) (p : Path) (hk : p ∈ arraysOf 2 k) (hl : p ∈ arraysOf 2 l) : k = l := by
  revert hk hl
  unfold arraysOf
  simp only [Nat.reduceEqDiff, if_false, List.mem_map]
  rintro ⟨a, ha, rfl⟩ ⟨b, hb, h⟩
  have htl : b = a := by
    have := List.head_eq_of_cons_eq h
    rw [← String.ofList_toList (s := b), this, String.ofList_toList]
  subst htl
  revert b
  cases k <;> cases l <;> decide

example : [['v', 'o', 'l', 'u', 'm', 'e']] ∈ arraysOf 2 .storage := by decide +kernel

/-- **C104 (names, version 2).** With default paths and names without slashes, nodes of different names and parameters of different names (also when a node and a parameter have the same one) have
arrays apart from each other. -/
theorem C104_names (c : Conf α) (root : Path) (kind : Nat → Kind) (label : Nat → Part) (hv : c.arrays = fun x => arraysOf 2 (kind x))
    (hp : ∀ e ∈ c.items, e.1 = root ++ [label e.2])
    (hn : (c.items.map fun e => (label e.2, decide (kind e.2 = .node ∨ kind e.2 = .storage))).Nodup) : c.itemPaths.Pairwise Apart := by
  have hlen : ∀ q ∈ c.itemPaths, q.length = root.length + 2 := by
    intro q hq
    obtain ⟨e, he, hm⟩ := List.mem_flatMap.1 hq
    rw [hv] at hm
    obtain ⟨s, hs, rfl⟩ := List.mem_map.1 hm
    obtain ⟨a, ha, rfl⟩ := List.mem_map.1 (show s ∈ (attributes (kind e.2)).map _ from hs)
    rw [hp e he]
    simp
  have hnd : c.itemPaths.Nodup := by
    have hattr : ∀ k : Kind, ((attributes k).map fun a => [a.toList]).Nodup := by intro k; cases k <;> decide
    have hdis : ∀ k l : Kind, decide (k = .node ∨ k = .storage) ≠ decide (l = .node ∨ l = .storage) → ∀ a ∈ attributes k, ∀ b ∈ attributes l, a ≠ b := by
      intro k l; cases k <;> cases l <;> decide
    have htl : ∀ a b : String, a.toList = b.toList → a = b := fun a b h => by rw [← String.ofList_toList (s := a), h, String.ofList_toList]
    unfold Conf.itemPaths
    rw [hv]
    generalize hl : c.items = l at hp hn
    clear hl hlen
    induction l with
    | nil => simp
    | cons e l ih =>
      rw [List.map_cons, List.nodup_cons] at hn
      rw [List.flatMap_cons, List.nodup_append]
      refine ⟨?_, ih (fun d hd => hp d (List.mem_cons_of_mem _ hd)) hn.2, ?_⟩
      · refine List.Nodup.map (fun a b h => List.append_cancel_left h) ?_
        exact hattr (kind e.2)
      · intro a ha b hb hab
        obtain ⟨s, hs, rfl⟩ := List.mem_map.1 ha
        obtain ⟨d, hd, hm⟩ := List.mem_flatMap.1 hb
        obtain ⟨t, ht, rfl⟩ := List.mem_map.1 hm
        rw [hp e List.mem_cons_self, hp d (List.mem_cons_of_mem _ hd), List.append_assoc, List.append_assoc] at hab
        have hab := List.append_cancel_left hab
        simp only [List.singleton_append, List.cons.injEq] at hab
        obtain ⟨hlab, hst⟩ := hab
        obtain ⟨u, hu, rfl⟩ := List.mem_map.1 (show s ∈ (attributes (kind e.2)).map _ from hs)
        obtain ⟨v, hv, rfl⟩ := List.mem_map.1 (show t ∈ (attributes (kind d.2)).map _ from ht)
        have huv : u = v := htl _ _ (List.cons.inj hst).1
        apply hn.1
        refine List.mem_map.2 ⟨d, hd, Prod.ext hlab.symm ?_⟩
        by_contra hk
        exact hdis _ _ (fun h => hk h.symm) u hu v hv huv
  rw [List.pairwise_iff_getElem]
  rw [List.nodup_iff_pairwise_ne, List.pairwise_iff_getElem] at hnd
  intro i j hi hj hij
  rw [apart_of_length (by rw [hlen _ (List.getElem_mem hi), hlen _ (List.getElem_mem hj)])]
  exact hnd i j hi hj hij

example : ∃ c : Conf Nat, c.items.length = 3 ∧ c.arrays = (fun x => arraysOf 2 (if x = 0 then .node else if x = 1 then .parameter else .storage)) ∧
    (∀ e ∈ c.items, e.1 = [] ++ [if e.2 = 2 then ['b'] else ['a']]) ∧
    (c.items.map fun e => ((if e.2 = 2 then ['b'] else ['a'] : Part), decide ((if e.2 = 0 then Kind.node else if e.2 = 1 then .parameter else .storage) = .node ∨
      (if e.2 = 0 then Kind.node else if e.2 = 1 then .parameter else .storage) = .storage))).Nodup :=
  ⟨⟨[([['a']], 0), ([['a']], 1), ([['b']], 2)], _, [], [], 0⟩, rfl, rfl, by decide, by decide⟩

/-- **C104 fails (names, version 1).** A node and a parameter with the same name, recorded with default paths, cannot be recorded together by version 1. -/
theorem C104_names_fails (c : Conf α) (root : Path) (n : Part) (kind : Nat → Kind) (hv : c.arrays = fun x => arraysOf 1 (kind x)) (i j x y : Nat) (hij : i ≠ j)
    (hi : c.items[i]? = some (nodePath root [n], x)) (hj : c.items[j]? = some (parameterPath root [n], y)) : setup c = none := by
  have hip : c.itemPaths = c.items.map Prod.fst := by
    unfold Conf.itemPaths
    rw [hv]
    have : (fun e : Path × Nat => (arraysOf 1 (kind e.2)).map (e.1 ++ ·)) = fun e => [e.1] := by funext e; simp [arraysOf]
    rw [this]
    induction c.items with
    | nil => rfl
    | cons d l ih => rw [List.flatMap_cons, ih]; rfl
  have h1 : c.itemPaths[i]? = some (root ++ [n]) := by rw [hip, List.getElem?_map, hi]; rfl
  have h2 : c.itemPaths[j]? = some (root ++ [n]) := by
    rw [hip, List.getElem?_map, hj]
    simp [parameterPath, underscores, List.intercalate]
  rcases Nat.lt_or_gt_of_ne hij with h | h
  · exact clash_none h h1 h2
  · exact clash_none h h2 h1

/-- **C104 fails (slashes).** The names `a/b` and `a_b` of parameters give the same default path, and such parameters cannot be recorded together by either version. -/
theorem C104_slash_fails (c : Conf α) (version : Nat) (hver : version = 1 ∨ version = 2) (root : Path) (a b : Part) (hv : c.arrays = fun _ => arraysOf version .parameter) (i j x y : Nat)
    (hij : i ≠ j) (hi : c.items[i]? = some (parameterPath root [a, b], x)) (hj : c.items[j]? = some (parameterPath root [a ++ '_' :: b], y)) : setup c = none := by
  have hu : underscores [a, b] = underscores [a ++ '_' :: b] := by simp [underscores, List.intercalate]
  have hone : ∃ t, arraysOf version .parameter = [t] := by rcases hver with rfl | rfl <;> exact ⟨_, rfl⟩
  obtain ⟨t, ht⟩ := hone
  have hip : c.itemPaths = c.items.map fun e => e.1 ++ t := by
    unfold Conf.itemPaths
    rw [hv, ht]
    simp only [List.map_cons, List.map_nil]
    induction c.items with
    | nil => rfl
    | cons d l ih => rw [List.flatMap_cons, ih]; rfl
  have h1 : c.itemPaths[i]? = some (root ++ [underscores [a, b]] ++ t) := by rw [hip, List.getElem?_map, hi]; rfl
  have h2 : c.itemPaths[j]? = some (root ++ [underscores [a, b]] ++ t) := by rw [hip, List.getElem?_map, hj, hu]; rfl
  rcases Nat.lt_or_gt_of_ne hij with h | h
  · exact clash_none h h1 h2
  · exact clash_none h h2 h1

/-! ## Parameters added and removed -/

private theorem lastIndex_append (x : Nat) (l : List (Path × Nat)) (e : Path × Nat) :
    lastIndex x (l ++ [e]) = if e.2 = x then some l.length else lastIndex x l := by
  unfold lastIndex
  rw [List.zipIdx_append, List.foldl_append]
  simp

private theorem lastIndex_spec (x : Nat) (l : List (Path × Nat)) :
    (∀ i, lastIndex x l = some i → ∃ p, l[i]? = some (p, x) ∧ ∀ j > i, ∀ q, l[j]? ≠ some (q, x)) ∧ (lastIndex x l = none ↔ ∀ p, (p, x) ∉ l) := by
  induction l using List.reverseRecOn with
  | nil => exact ⟨fun i h => by simp [lastIndex] at h, by simp [lastIndex]⟩
  | append_singleton l e ih =>
    rw [lastIndex_append]
    by_cases he : e.2 = x
    · rw [if_pos he]
      refine ⟨fun i h => ?_, ⟨fun h => (by cases h), fun h => absurd (List.mem_append_right l (List.mem_singleton.2 (show (e.1, x) = e from Prod.ext rfl he.symm))) (h e.1)⟩⟩
      cases h
      refine ⟨e.1, by rw [List.getElem?_concat_length]; exact congrArg some (Prod.ext rfl he), fun j hj q hq => ?_⟩
      rw [List.getElem?_eq_none (by simp; omega)] at hq
      cases hq
    · rw [if_neg he]
      refine ⟨fun i h => ?_, ?_⟩
      · obtain ⟨p, hp, hl⟩ := ih.1 i h
        have hlt := (List.getElem?_eq_some_iff.1 hp).1
        refine ⟨p, by rw [List.getElem?_append_left hlt]; exact hp, fun j hj q hq => ?_⟩
        by_cases hjl : j < l.length
        · rw [List.getElem?_append_left hjl] at hq
          exact hl j hj q hq
        · rw [List.getElem?_append_right (by omega)] at hq
          cases hd : j - l.length with
          | zero => rw [hd] at hq; simp at hq; exact he (by rw [hq])
          | succ k => rw [hd] at hq; simp at hq
      · rw [ih.2]
        constructor
        · intro h p hm
          rcases List.mem_append.1 hm with hm | hm
          · exact h p hm
          · exact he (by rw [← List.mem_singleton.1 hm])
        · exact fun h p hm => h p (List.mem_append_left _ hm)

/-- **C104 (removal).** Adding records a parameter and makes it a child.  Removing a parameter recorded once takes away just its entry and its being a child. -/
theorem C104_remove_partial (s : Params) (x : Nat) :
    (∀ p, (s.add p x).recorded = s.recorded ++ [(p, x)] ∧ ∀ y, y ∈ (s.add p x).children ↔ y = x ∨ y ∈ s.children) ∧
      (∀ p, (s.recorded.filter fun e => e.2 = x) = [(p, x)] → x ∈ s.children →
        ∃ t, s.remove x = some t ∧ t.recorded = (s.recorded.filter fun e => e.2 ≠ x) ∧ ∀ y, y ∈ t.children ↔ y ≠ x ∧ y ∈ s.children) ∧
      ((∀ p, (p, x) ∉ s.recorded) → s.remove x = none) := by
  refine ⟨fun p => ⟨rfl, fun y => ?_⟩, fun p hf hc => ?_, fun h => ?_⟩
  · unfold Params.add
    by_cases hx : s.children.contains x = true
    · have := List.contains_iff_mem.1 hx
      simp only [hx, if_true]
      constructor
      · exact fun h => .inr h
      · rintro (rfl | h)
        · exact this
        · exact h
    · simp only [hx]
      simp [or_comm]
  · unfold Params.remove
    cases hl : lastIndex x s.recorded with
    | none =>
      have hm : (p, x) ∈ s.recorded.filter fun e => e.2 = x := by rw [hf]; exact List.mem_singleton_self _
      exact absurd (List.mem_filter.1 hm).1 (((lastIndex_spec x s.recorded).2.1 hl) p)
    | some i =>
      simp only [List.contains_iff_mem.2 hc, if_true]
      obtain ⟨q, hq, -⟩ := (lastIndex_spec x s.recorded).1 i hl
      refine ⟨_, rfl, ?_, fun y => by simp [and_comm]⟩
      show s.recorded.eraseIdx i = _
      obtain ⟨hlt, he⟩ := List.getElem?_eq_some_iff.1 hq
      have hsplit : s.recorded = s.recorded.take i ++ (q, x) :: s.recorded.drop (i + 1) := by
        conv => lhs; rw [← List.take_append_drop i s.recorded]
        rw [List.drop_eq_getElem_cons hlt, he]
      rw [List.eraseIdx_eq_take_drop_succ]
      have hcount := congrArg List.length hf
      rw [hsplit, List.filter_append, List.filter_cons_of_pos (by simp)] at hcount
      simp only [List.length_append, List.length_cons, List.length_nil] at hcount
      have h1 : (s.recorded.take i).filter (fun e => e.2 = x) = [] := List.length_eq_zero_iff.1 (by omega)
      have h2 : (s.recorded.drop (i + 1)).filter (fun e => e.2 = x) = [] := List.length_eq_zero_iff.1 (by omega)
      rw [List.filter_eq_nil_iff] at h1 h2
      conv => rhs; rw [hsplit]
      rw [List.filter_append, List.filter_cons_of_neg (by simp), List.filter_eq_self.2, List.filter_eq_self.2]
      · intro e he; simpa using h2 e he
      · intro e he; simpa using h1 e he
  · unfold Params.remove
    rw [(lastIndex_spec x s.recorded).2.2 h]

/-- **C104 fails (removal).** A parameter recorded at two paths is still recorded after a removal but no longer a child of the recorder, and cannot be removed again. -/
theorem C104_remove_fails : ∃ (s t : Params) (x : Nat) (p : Path), s.remove x = some t ∧ (p, x) ∈ t.recorded ∧ x ∉ t.children ∧ t.remove x = none :=
  ⟨((⟨[], []⟩ : Params).add [['a']] 0).add [['b']] 0, ⟨[([['a']], 0)], []⟩, 0, [['a']], by decide, by decide, by decide, by decide⟩

/-! ## Tables of scenarios -/

open Scenarios

private theorem mapM_isSome {β γ : Type} (g : β → Option γ) (l : List β) : (l.mapM g).isSome ↔ ∀ a ∈ l, (g a).isSome := by
  induction l with
  | nil => simp
  | cons a l ih =>
    rw [List.mapM_cons, List.forall_mem_cons, ← ih]
    cases g a with
    | none => simp
    | some v => cases hl : l.mapM g <;> simp

private theorem mapM_mem {β γ : Type} (g : β → Option γ) (l : List β) (m : List γ) (h : l.mapM g = some m) (v : γ) : v ∈ m ↔ ∃ a ∈ l, g a = some v := by
  induction l generalizing m with
  | nil => cases h; simp
  | cons a l ih =>
    rw [List.mapM_cons] at h
    cases ha : g a with
    | none => rw [ha] at h; simp at h
    | some u =>
      rw [ha] at h
      cases hl : l.mapM g with
      | none => rw [hl] at h; simp at h
      | some m' =>
        rw [hl] at h
        cases h
        rw [List.mem_cons, ih m' hl]
        constructor
        · rintro (rfl | ⟨b, hb, h⟩)
          · exact ⟨a, List.mem_cons_self, ha⟩
          · exact ⟨b, List.mem_cons_of_mem _ hb, h⟩
        · rintro ⟨b, hb, h⟩
          rcases List.mem_cons.1 hb with rfl | hb
          · rw [ha] at h; exact .inl (Option.some.inj h).symm
          · exact .inr ⟨b, hb, h⟩

private theorem mem_slices (ss : List Scenario) (i : Nat) (s : PySlice) :
    (i, s) ∈ (ss.zipIdx.filterMap fun e => e.1.slice.map fun s => (e.2, s)) ↔ ∃ sc, ss[i]? = some sc ∧ sc.slice = some s := by
  rw [List.mem_filterMap]
  constructor
  · rintro ⟨⟨sc, j⟩, he, h⟩
    obtain ⟨s', hs', he'⟩ := Option.map_eq_some_iff.1 h
    cases he'
    exact ⟨sc, List.mem_zipIdx_iff_getElem?.1 he, hs'⟩
  · rintro ⟨sc, h, hs⟩
    exact ⟨(sc, i), List.mem_zipIdx_iff_getElem?.2 h, by simp [hs]⟩

/-- **C104 (slices).** When the table of slices can be made, it has a row for the scenarios with a slice, and the row selects the members the slice selects. -/
theorem C104_slices_partial (ss : List Scenario) (rows : List (Nat × Int × Int × Int)) (h : sliceRows ss = some rows) :
    (∀ i, (∃ r, (i, r) ∈ rows) ↔ ∃ sc, ss[i]? = some sc ∧ sc.slice.isSome) ∧
      ∀ i a b k, (i, a, b, k) ∈ rows → ∃ sc s, ss[i]? = some sc ∧ sc.slice = some s ∧ (s.step ≠ some 0 → ∀ n, sliceRange n ⟨some a, some b, some k⟩ = sliceRange n s) := by
  have hm := mapM_mem _ _ _ h
  constructor
  · intro i
    constructor
    · rintro ⟨r, hr⟩
      obtain ⟨⟨j, s⟩, hj, he⟩ := (hm _).1 hr
      obtain ⟨t, ht, het⟩ := Option.map_eq_some_iff.1 he
      cases het
      obtain ⟨sc, h1, h2⟩ := (mem_slices ss _ _).1 hj
      exact ⟨sc, h1, by rw [h2]; rfl⟩
    · rintro ⟨sc, h1, h2⟩
      obtain ⟨s, hs⟩ := Option.isSome_iff_exists.1 h2
      have hmem := (mem_slices ss i s).2 ⟨sc, h1, hs⟩
      have hsome := (mapM_isSome _ _).1 (show Option.isSome (sliceRows ss) from by rw [h]; rfl) _ hmem
      simp only [Option.isSome_map] at hsome
      obtain ⟨r, hr⟩ := Option.isSome_iff_exists.1 hsome
      exact ⟨r, (hm _).2 ⟨_, hmem, by simp [hr]⟩⟩
  · intro i a b k hr
    obtain ⟨⟨j, s⟩, hj, he⟩ := (hm _).1 hr
    obtain ⟨t, ht, het⟩ := Option.map_eq_some_iff.1 he
    cases het
    obtain ⟨sc, h1, h2⟩ := (mem_slices ss _ _).1 hj
    refine ⟨sc, s, h1, h2, fun hz n => ?_⟩
    obtain ⟨st, sp, stp⟩ := s
    cases st with
    | none => simp [sliceRow] at ht
    | some a' =>
      cases sp with
      | none => simp [sliceRow] at ht
      | some b' =>
        simp only [sliceRow, Option.some.injEq, Prod.mk.injEq] at ht
        obtain ⟨rfl, rfl, rfl⟩ := ht
        have : ∀ x y : Option Int, x.getD 1 = y.getD 1 → sliceRange n ⟨some a', some b', x⟩ = sliceRange n ⟨some a', some b', y⟩ := by
          intro x y hxy
          unfold sliceRange
          simp only [hxy]
        apply this
        cases stp with
        | none => rfl
        | some q =>
          have hq : q ≠ 0 := fun e => hz (by simp [e])
          simp [hq]

/-- **C104 fails (slices).** A slice without a start or without a stop (`slice(3)`, `"slice": [3]`) selects members as usual, but a run that writes an output file raises. -/
theorem C104_slices_fails (ss : List Scenario) : sliceRows ss = none ↔ ∃ sc ∈ ss, ∃ s, sc.slice = some s ∧ (s.start = none ∨ s.stop = none) := by
  rw [← Option.not_isSome_iff_eq_none]
  unfold sliceRows
  rw [mapM_isSome]
  push Not
  constructor
  · rintro ⟨⟨i, s⟩, hm, hn⟩
    obtain ⟨sc, h1, h2⟩ := (mem_slices ss i s).1 hm
    refine ⟨sc, List.mem_of_getElem? h1, s, h2, ?_⟩
    obtain ⟨st, sp, stp⟩ := s
    cases st with
    | none => exact .inl rfl
    | some a => cases sp with
      | none => exact .inr rfl
      | some b => simp [sliceRow] at hn
  · rintro ⟨sc, hm, s, hs, hn⟩
    obtain ⟨i, hi⟩ := List.mem_iff_getElem?.1 hm
    refine ⟨(i, s), (mem_slices ss i s).2 ⟨sc, hi, hs⟩, ?_⟩
    rcases hn with hn | hn
    · simp [sliceRow, hn]
    · obtain ⟨st, sp, stp⟩ := s
      cases hn
      cases st <;> simp [sliceRow]

example : sliceRows [⟨10, some ⟨some 2, some 8, none⟩⟩, ⟨3, none⟩, ⟨5, some ⟨some 4, some 0, some (-2)⟩⟩] = some [(0, 2, 8, 1), (2, 4, 0, -2)] := by decide +kernel

example : sliceRows [⟨10, some ⟨none, some 3, none⟩⟩] = none ∧ Scenario.selection ⟨10, some ⟨none, some 3, none⟩⟩ = .ok [0, 1, 2] := by decide +kernel

private theorem names_row (ss : List Scenario) (names : List (List String)) (idx : List Int) (hn : names.map List.length = ss.map Scenario.size) (hv : ValidRow ss idx) :
    ∃ row : List String, (idx.zipIdx.mapM fun e => (names[e.2]?).bind fun l => pick l e.1) = some row ∧ row.length = ss.length ∧
      ∀ n : Nat, row[n]? = (names[n]?).bind fun l => (idx[n]?).bind fun i : Int => l[i.toNat]? := by
  have hlen : idx.length = ss.length := hv.length_eq
  have hnl : names.length = ss.length := by simpa using congrArg List.length hn
  have key : ∀ n (h : n < idx.length), ∃ l v, names[n]? = some l ∧ pick l idx[n] = some v ∧ l[idx[n].toNat]? = some v := by
    intro n h
    have h1 : n < ss.length := by omega
    have h2 : n < names.length := by omega
    have hb := (List.forall₂_iff_get.1 hv).2 n h h1
    have hs : names[n].length = ss[n].size := by
      have := congrArg (fun l => l[n]?) hn
      simp only [List.getElem?_map, List.getElem?_eq_getElem h1, List.getElem?_eq_getElem h2, Option.map_some, Option.some.injEq] at this
      exact this
    simp only [List.get_eq_getElem] at hb
    have hlt : idx[n].toNat < names[n].length := by rw [hs]; omega
    refine ⟨names[n], names[n][idx[n].toNat], List.getElem?_eq_getElem h2, ?_, List.getElem?_eq_getElem hlt⟩
    unfold pick
    rw [if_pos hb.1, List.getElem?_eq_getElem hlt]
  have hsome : (idx.zipIdx.mapM fun e => (names[e.2]?).bind fun l => pick l e.1).isSome := by
    rw [mapM_isSome]
    rintro ⟨i, n⟩ he
    have he : idx[n]? = some i := List.mem_zipIdx_iff_getElem?.1 he
    obtain ⟨hlt, rfl⟩ := List.getElem?_eq_some_iff.1 he
    obtain ⟨l, v, h1, h2, -⟩ := key n hlt
    simp only at h1 h2 ⊢
    simp [h1, h2]
  obtain ⟨row, hrow⟩ := Option.isSome_iff_exists.1 hsome
  have hget : ∀ (l : List (Int × Nat)) (m : List String), (l.mapM fun e => (names[e.2]?).bind fun l => pick l e.1) = some m →
      m.length = l.length ∧ ∀ n : Nat, m[n]? = (l[n]?).bind fun e => (names[e.2]?).bind fun l => pick l e.1 := by
    intro l
    induction l with
    | nil => intro m h; cases h; simp
    | cons a l ih =>
      intro m h
      rw [List.mapM_cons] at h
      cases ha : ((names[a.2]?).bind fun l => pick l a.1) with
      | none => rw [ha] at h; simp at h
      | some u =>
        rw [ha] at h
        cases hl : l.mapM fun e => (names[e.2]?).bind fun l => pick l e.1 with
        | none => rw [hl] at h; simp at h
        | some m' =>
          rw [hl] at h
          cases h
          obtain ⟨k1, k2⟩ := ih m' hl
          refine ⟨by simp [k1], fun n => ?_⟩
          cases n with
          | zero => simp [ha]
          | succ n => simpa using k2 n
  obtain ⟨k1, k2⟩ := hget _ _ hrow
  refine ⟨row, hrow, by rw [k1]; simp [hlen], fun n => ?_⟩
  rw [k2 n, List.getElem?_zipIdx]
  by_cases hlt : n < idx.length
  · obtain ⟨l, v, h1, h2, h3⟩ := key n hlt
    rw [List.getElem?_eq_getElem hlt]
    simp [h1, h2, h3]
  · rw [List.getElem?_eq_none (by omega), List.getElem?_eq_none (l := names) (by omega)]
    rfl

/-- **C104 (names of ensemble members).** For scenarios whose members have names, with slices or a table of valid combinations, row `g` of `/scenario_ensemble_names` lists the names of the members of
combination `g`. -/
theorem C104_ensemble (c : Collection) (hc : c.scenarios ≠ []) (hu : ∀ rows, c.user = some rows → ∀ r ∈ rows, ValidRow c.scenarios r) (names : List (List String))
    (hn : names.map List.length = c.scenarios.map Scenario.size) (combos : List Index) (h : c.getCombinations = .ok combos) :
    ∃ rows, ensembleRows names combos = some rows ∧ rows.length = combos.length ∧
      ∀ (g : Nat) (idx : List Int), combos[g]? = some (g, idx) → ∃ row : List String, rows[g]? = some row ∧ row.length = c.scenarios.length ∧
        ∀ n : Nat, row[n]? = (names[n]?).bind fun l => (idx[n]?).bind fun i : Int => l[i.toNat]? := by
  have hvalid : ∀ e ∈ combos, ValidRow c.scenarios e.2 := by
    obtain ⟨ss, user⟩ := c
    cases user with
    | none =>
      obtain ⟨ls, hsel, rfl⟩ := getCombinations_product hc h
      have hf := selections_forall2 hsel
      rintro ⟨g, idx⟩ he
      have hmem : idx ∈ product ls := List.mem_of_getElem? (mem_enumerate.1 he)
      exact ((mem_product_iff_choice hf idx).1 hmem).imp fun a b h => selects_range h
    | some rows =>
      unfold Collection.getCombinations at h
      have hl : ¬ ss.length = 0 := by simpa using hc
      simp only [hl, if_false] at h
      split at h
      · cases h
      · cases h
        rintro ⟨g, idx⟩ he
        exact hu rows rfl idx (List.mem_of_getElem? (mem_enumerate.1 he))
  have hgo : ∀ l : List Index, (∀ e ∈ l, ValidRow c.scenarios e.2) → ∃ rows, ensembleRows names l = some rows ∧ rows.length = l.length ∧
      ∀ (g : Nat) (e : Index), l[g]? = some e → ∃ row : List String, rows[g]? = some row ∧ row.length = c.scenarios.length ∧
        ∀ n : Nat, row[n]? = (names[n]?).bind fun l => (e.2[n]?).bind fun i : Int => l[i.toNat]? := by
    intro l
    induction l with
    | nil => intro _; exact ⟨[], rfl, rfl, fun g e he => by simp at he⟩
    | cons a l ih =>
      intro hv
      obtain ⟨rows, h1, h2, h3⟩ := ih fun e he => hv e (List.mem_cons_of_mem _ he)
      obtain ⟨row, r1, r2, r3⟩ := names_row c.scenarios names a.2 hn (hv a List.mem_cons_self)
      refine ⟨row :: rows, ?_, by simp [h2], fun g e he => ?_⟩
      · unfold ensembleRows at h1 ⊢
        rw [List.mapM_cons, r1, h1]; rfl
      · cases g with
        | zero => simp at he; subst he; exact ⟨row, rfl, r2, r3⟩
        | succ g => exact h3 g e (by simpa using he)
  obtain ⟨rows, h1, h2, h3⟩ := hgo combos hvalid
  exact ⟨rows, h1, h2, fun g idx hg => h3 g (g, idx) hg⟩

example : ensembleRows [["wet", "dry"], ["lo", "mid", "hi"]] [(0, [0, 2]), (1, [1, 0])] = some [["wet", "hi"], ["dry", "lo"]] := by decide +kernel

/-! ## Data frames -/

private theorem dot_inj {n m a b : List Char} (ha : '.' ∉ a) (hb : '.' ∉ b) (h : n ++ '.' :: a = m ++ '.' :: b) : n = m ∧ a = b := by
  have hlen : ∀ {a b n m : List Char}, '.' ∉ a → n ++ '.' :: a = m ++ '.' :: b → b.length ≤ a.length → a.length ≤ b.length := by
    intro a b n m ha h hle
    by_contra hlt
    push Not at hlt
    have h1 : (n ++ '.' :: a)[m.length]? = some '.' := by rw [h]; simp
    have hl : n.length + a.length = m.length + b.length := by
      have := congrArg List.length h; simp at this; omega
    rw [List.getElem?_append_right (by omega)] at h1
    cases hk : m.length - n.length with
    | zero => omega
    | succ k =>
      rw [hk, List.getElem?_cons_succ] at h1
      exact ha (List.mem_of_getElem? h1)
  have : a.length = b.length := by
    rcases Nat.le_total b.length a.length with hle | hle
    · exact Nat.le_antisymm (hlen ha h hle) hle
    · exact Nat.le_antisymm hle (hlen hb h.symm hle)
  have h' := List.append_inj' h (by simp [this])
  exact ⟨h'.1, (List.cons.inj h'.2).2⟩

/-- **C104 (names of data frames).** Arrays of the same group have different names in version 1; in version 2 the arrays in the groups of one group have. -/
theorem C104_frames_partial (root : Path) (n m a b : Part) :
    (frameName 1 (root ++ [n]) = frameName 1 (root ++ [m]) → n = m) ∧
      ('.' ∉ a → '.' ∉ b → frameName 2 (root ++ [n, a]) = frameName 2 (root ++ [m, b]) → n = m ∧ a = b) := by
  constructor
  · intro h
    simpa [frameName] using h
  · intro ha hb h
    have e : ∀ x y : Part, root ++ [x, y] = (root ++ [x]) ++ [y] := by simp
    simp only [frameName, e, List.dropLast_concat, List.getLastD_concat] at h
    exact dot_inj ha hb h

example : frameName 2 ([] ++ ["res1".toList, "volume".toList]) = "res1.volume".toList ∧ ∀ k a, a ∈ attributes k → '.' ∉ a.toList := by
  refine ⟨by decide, fun k a => ?_⟩
  cases k <;> revert a <;> decide

/-- **C104 fails (names of data frames).** Arrays of the same last names in different groups give data frames of the same name: which is which is not told. -/
theorem C104_frames_fails (p q : Path) (n a : Part) :
    frameName 1 (p ++ [n]) = frameName 1 (q ++ [n]) ∧ frameName 2 (p ++ [n, a]) = frameName 2 (q ++ [n, a]) := by
  have e : ∀ (r : Path) (x y : Part), r ++ [x, y] = (r ++ [x]) ++ [y] := by simp
  constructor
  · simp [frameName]
  · simp only [frameName, e, List.dropLast_concat, List.getLastD_concat]

/-- **C104 fails (flows of routes).** A file with the flows of routes cannot be made into data frames, unless there is just one route: the columns do not match the combinations. -/
theorem C104_routes_fails (sizes : List Nat) (hs : ∀ n ∈ sizes, 0 < n) (routes : Nat) (hr : routes ≠ 1) :
    Tables.dataframeColumns sizes (routeColumns routes sizes) = none ∧ (Tables.dataframeColumns sizes sizes.prod).isSome := by
  have hl : (Tables.labels sizes).length = sizes.prod := by
    unfold Tables.labels
    rw [length_product, List.map_map]
    congr 1
    simp [Function.comp_def]
  have hpos : 0 < sizes.prod := by
    clear hl
    induction sizes with
    | nil => simp
    | cons n l ih =>
      rw [List.prod_cons]
      exact Nat.mul_pos (hs n List.mem_cons_self) (ih fun m hm => hs m (List.mem_cons_of_mem _ hm))
  unfold Tables.dataframeColumns routeColumns
  rw [hl, List.prod_cons, if_neg, if_pos rfl]
  · exact ⟨rfl, rfl⟩
  · intro h
    have h' : 1 * sizes.prod = routes * sizes.prod := by omega
    exact hr (Nat.eq_of_mul_eq_mul_right hpos h').symm

example : Tables.dataframeColumns [2, 3] (routeColumns 4 [2, 3]) = none := by decide +kernel

end Verif.OutputFile

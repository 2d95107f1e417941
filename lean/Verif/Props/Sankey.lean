import Verif.Spec.Sankey
import Mathlib.Algebra.BigOperators.Group.List.Basic
import Mathlib.Algebra.Order.BigOperators.Group.List
import Mathlib.Data.List.Nodup
import Mathlib.Data.List.Induction
import Mathlib.Tactic.Ring
import Mathlib.Tactic.FieldSimp
import Mathlib.Tactic.Linarith
/-!
C99: the links of a diagram of the routes carry the flow of the routes between two places.
-/

namespace Verif.Sankey

/-! ## The dicts -/

private theorem addTarget_lookup (d : List (String × Rat)) (t b : String) (v : Rat) :
    (addTarget d t v).lookup b = if b = t then some ((d.lookup t).getD 0 + v) else d.lookup b := by
  induction d with
  | nil =>
    by_cases h : b = t
    · subst h; simp [addTarget]
    · have : (b == t) = false := by simpa using h
      simp [addTarget, List.lookup_cons, this, h]
  | cons e rest ih =>
    obtain ⟨k, w⟩ := e
    unfold addTarget
    by_cases hk : k = t
    · subst hk
      rw [if_pos rfl]
      by_cases h : b = k
      · subst h; simp
      · have : (b == k) = false := by simpa using h
        simp [List.lookup_cons, this, h]
    · rw [if_neg hk]
      by_cases h : b = k
      · subst h
        simp [hk]
      · have : (b == k) = false := by simpa using h
        have h2 : (t == k) = false := by simpa using Ne.symm hk
        simp only [List.lookup_cons, this, ih, h2]

private theorem addTarget_keys (d : List (String × Rat)) (t : String) (v : Rat) :
    (addTarget d t v).map Prod.fst = if t ∈ d.map Prod.fst then d.map Prod.fst else d.map Prod.fst ++ [t] := by
  induction d with
  | nil => simp [addTarget]
  | cons e rest ih =>
    unfold addTarget
    by_cases hk : e.1 = t
    · rw [if_pos hk]; simp [hk]
    · rw [if_neg hk, List.map_cons, ih, List.map_cons]
      have : t ∈ e.1 :: rest.map Prod.fst ↔ t ∈ rest.map Prod.fst := by simp [Ne.symm hk]
      simp only [this]
      split <;> simp

private theorem nodup_snoc {α : Type} [DecidableEq α] {l : List α} {x : α} (h : l.Nodup) : (if x ∈ l then l else l ++ [x]).Nodup := by
  split
  · exact h
  · rename_i hx
    rw [List.nodup_append]
    exact ⟨h, by simp, fun a ha b hb => by rw [List.mem_singleton.1 hb]; rintro rfl; exact hx ha⟩

/-- The value of a link. -/
private def val (d : List (String × List (String × Rat))) (a b : String) : Option Rat := (d.lookup a).bind fun ts => ts.lookup b

private theorem val_cons (k : String) (ts : List (String × Rat)) (rest : List (String × List (String × Rat))) (a b : String) :
    val ((k, ts) :: rest) a b = if a = k then ts.lookup b else val rest a b := by
  by_cases h : a = k
  · subst h; simp [val]
  · have : (a == k) = false := by simpa using h
    simp [val, List.lookup_cons, this, h]

private theorem add_val (d : List (String × List (String × Rat))) (s t a b : String) (v : Rat) :
    val (add d s t v) a b = if a = s ∧ b = t then some ((val d s t).getD 0 + v) else val d a b := by
  induction d with
  | nil =>
    unfold add
    rw [val_cons]
    by_cases h : a = s
    · rw [if_pos h, addTarget_lookup]
      simp [h, val]
    · rw [if_neg h]; simp [h, val]
  | cons e rest ih =>
    obtain ⟨k, ts⟩ := e
    unfold add
    by_cases hk : k = s
    · subst hk
      rw [if_pos rfl, val_cons, val_cons, val_cons]
      by_cases h : a = k
      · rw [if_pos h, if_pos h, if_pos rfl, addTarget_lookup]; simp [h]
      · rw [if_neg h, if_neg h]; simp [h]
    · rw [if_neg hk, val_cons, val_cons, val_cons, ih, if_neg (Ne.symm hk)]
      by_cases h : a = k
      · rw [if_pos h, if_pos h, if_neg (fun e => hk (h ▸ e.1))]
      · rw [if_neg h, if_neg h]

private structure WF (d : List (String × List (String × Rat))) : Prop where
  outer : (d.map Prod.fst).Nodup
  inner : ∀ e ∈ d, (e.2.map Prod.fst).Nodup

private theorem add_keys (d : List (String × List (String × Rat))) (s t : String) (v : Rat) :
    (add d s t v).map Prod.fst = if s ∈ d.map Prod.fst then d.map Prod.fst else d.map Prod.fst ++ [s] := by
  induction d with
  | nil => simp [add]
  | cons e rest ih =>
    unfold add
    by_cases hk : e.1 = s
    · rw [if_pos hk]; simp [hk]
    · rw [if_neg hk, List.map_cons, ih, List.map_cons]
      have : s ∈ e.1 :: rest.map Prod.fst ↔ s ∈ rest.map Prod.fst := by simp [Ne.symm hk]
      simp only [this]
      split <;> simp

private theorem add_wf {d : List (String × List (String × Rat))} (h : WF d) (s t : String) (v : Rat) : WF (add d s t v) := by
  refine ⟨by rw [add_keys]; exact nodup_snoc h.outer, ?_⟩
  have hi := h.inner
  clear h
  induction d with
  | nil =>
    intro e he
    rw [add, List.mem_singleton] at he
    subst he
    simp [addTarget]
  | cons x rest ih =>
    intro e he
    unfold add at he
    by_cases hk : x.1 = s
    · rw [if_pos hk] at he
      rcases List.mem_cons.1 he with rfl | he
      · simp only [addTarget_keys]
        exact nodup_snoc (hi x (by simp))
      · exact hi e (List.mem_cons_of_mem _ he)
    · rw [if_neg hk] at he
      rcases List.mem_cons.1 he with rfl | he
      · exact hi e (by simp)
      · exact ih (fun e he => hi e (List.mem_cons_of_mem _ he)) e he

private theorem mem_lookup {β : Type} {l : List (String × β)} (h : (l.map Prod.fst).Nodup) (k : String) (v : β) : (k, v) ∈ l ↔ l.lookup k = some v := by
  induction l with
  | nil => simp
  | cons e l ih =>
    obtain ⟨m, w⟩ := e
    rw [List.map_cons, List.nodup_cons] at h
    rw [List.mem_cons, List.lookup_cons]
    by_cases hk : k = m
    · subst hk
      simp only [beq_self_eq_true]
      constructor
      · rintro (h' | h')
        · cases h'; rfl
        · exact absurd (List.mem_map_of_mem (f := Prod.fst) h') h.1
      · rintro h'; cases h'; exact .inl rfl
    · have : (k == m) = false := by simpa using hk
      rw [this]
      simp only [← ih h.2, Prod.mk.injEq, hk, false_and, false_or]

private theorem mem_collect {d : List (String × List (String × Rat))} (h : WF d) (th : Rat) (a b : String) (v : Rat) :
    (a, b, v) ∈ collect th d ↔ val d a b = some v ∧ th ≤ v := by
  unfold collect val
  rw [List.mem_flatMap]
  constructor
  · rintro ⟨⟨k, ts⟩, he, hm⟩
    obtain ⟨⟨b', v'⟩, ht, e⟩ := List.mem_map.1 hm
    cases e
    rw [List.mem_filter] at ht
    rw [(mem_lookup h.outer _ _).1 he, Option.bind_some]
    exact ⟨(mem_lookup (h.inner _ he) _ _).1 ht.1, by simpa using ht.2⟩
  · rintro ⟨hv, ht⟩
    obtain ⟨ts, h1, h2⟩ := Option.bind_eq_some_iff.1 hv
    have he := (mem_lookup h.outer _ _).2 h1
    refine ⟨_, he, List.mem_map.2 ⟨(b, v), List.mem_filter.2 ⟨(mem_lookup (h.inner _ he) _ _).2 h2, by simpa using ht⟩, rfl⟩⟩

private theorem collect_nodup {d : List (String × List (String × Rat))} (h : WF d) (th : Rat) : ((collect th d).map fun l => (l.1, l.2.1)).Nodup := by
  unfold collect
  obtain ⟨ho, hi⟩ := h
  induction d with
  | nil => simp
  | cons e rest ih =>
    rw [List.map_cons, List.nodup_cons] at ho
    rw [List.flatMap_cons, List.map_append, List.nodup_append]
    refine ⟨?_, ih ho.2 (fun e he => hi e (List.mem_cons_of_mem _ he)), ?_⟩
    · rw [List.map_map]
      have h1 := hi e (by simp)
      have h2 : ((e.2.filter fun t => ¬ t.2 < th).map Prod.fst).Nodup := h1.sublist (List.Sublist.map _ List.filter_sublist)
      have h3 := h2.map (f := fun b => (e.1, b)) (fun a b hab => by simpa using hab)
      rw [List.map_map] at h3
      exact h3
    · intro x hx y hy hxy
      subst hxy
      obtain ⟨l, hl, rfl⟩ := List.mem_map.1 hx
      obtain ⟨t, _, rfl⟩ := List.mem_map.1 hl
      obtain ⟨l', hl', e'⟩ := List.mem_map.1 hy
      obtain ⟨f, hf, hm⟩ := List.mem_flatMap.1 hl'
      obtain ⟨t', _, rfl⟩ := List.mem_map.1 hm
      simp only [Prod.mk.injEq] at e'
      exact ho.1 (e'.1 ▸ List.mem_map_of_mem hf)

/-! ## The loop -/

private theorem turn_eq (o : Options) (d : List (String × List (String × Rat))) (x : (String × String) × Rat) :
    turn o d x = match o.drawn x.1.1 x.1.2 x.2 with
      | some p => add d p.1 p.2 x.2
      | none => d := by
  unfold turn Options.drawn
  cases hk : o.keep with
  | none =>
    simp only [if_true]
    cases hr : o.rename with
    | none => by_cases hc : o.ignoreCircular = true <;> by_cases he : x.1.1 = x.1.2 <;> simp [hc, he]
    | some f => by_cases hc : o.ignoreCircular = true <;> by_cases he : f x.1.1 true = f x.1.2 false <;> simp [hc, he]
  | some k =>
    cases hv : k x.1.1 x.1.2 x.2 with
    | false => simp [hv]
    | true =>
      cases hr : o.rename with
      | none =>
        by_cases he : x.1.1 = x.1.2
        · rw [he] at hv
          by_cases hc : o.ignoreCircular = true <;> simp [hc, he, hv]
        · by_cases hc : o.ignoreCircular = true <;> simp [hc, he, hv]
      | some f => by_cases hc : o.ignoreCircular = true <;> by_cases he : f x.1.1 true = f x.1.2 false <;> simp [hc, he, hv]

/-- The flows of the routes drawn between two boxes. -/
private def drawnFlows (o : Options) (xs : List ((String × String) × Rat)) (a b : String) : List Rat :=
  (xs.filter fun x => o.drawn x.1.1 x.1.2 x.2 = some (a, b)).map Prod.snd

private theorem loop (o : Options) (xs : List ((String × String) × Rat)) :
    WF (xs.foldl (turn o) []) ∧ ∀ a b, val (xs.foldl (turn o) []) a b = if drawnFlows o xs a b = [] then none else some (drawnFlows o xs a b).sum := by
  induction xs using List.reverseRecOn with
  | nil => exact ⟨⟨by simp, by simp⟩, fun a b => by simp [val, drawnFlows]⟩
  | append_singleton l x ih =>
    obtain ⟨hw, hv⟩ := ih
    rw [List.foldl_append, List.foldl_cons, List.foldl_nil, turn_eq]
    have hd : ∀ a b, drawnFlows o (l ++ [x]) a b = drawnFlows o l a b ++ if o.drawn x.1.1 x.1.2 x.2 = some (a, b) then [x.2] else [] := by
      intro a b
      unfold drawnFlows
      rw [List.filter_append, List.map_append]
      congr 1
      by_cases h : o.drawn x.1.1 x.1.2 x.2 = some (a, b) <;> simp [h]
    cases hp : o.drawn x.1.1 x.1.2 x.2 with
    | none =>
      refine ⟨hw, fun a b => ?_⟩
      rw [hd, hp, hv]; simp
    | some p =>
      obtain ⟨s, t⟩ := p
      refine ⟨add_wf hw _ _ _, fun a b => ?_⟩
      rw [hd, hp]
      simp only [add_val]
      by_cases h : a = s ∧ b = t
      · obtain ⟨rfl, rfl⟩ := h
        rw [if_pos ⟨rfl, rfl⟩, if_pos rfl, if_neg (by simp), hv]
        congr 1
        by_cases hn : drawnFlows o l a b = [] <;> simp [hn]
      · have hne : ¬ some (s, t) = some (a, b) := fun e => h (by cases e; exact ⟨rfl, rfl⟩)
        rw [if_neg h, hv]
        simp only [if_neg hne, List.append_nil]

/-! ## The numbers -/

private theorem mapM_some {α β : Type} (f : α → β) (l : List α) : l.mapM (fun x => some (f x)) = some (l.map f) := by
  induction l with
  | nil => rfl
  | cons a l ih => rw [List.mapM_cons, ih]; rfl

private theorem sum_swap (T S : Nat) (f : Nat → Nat → Rat) :
    ((List.range S).map fun s => ((List.range T).map fun t => f t s).sum).sum = ((List.range T).map fun t => ((List.range S).map fun s => f t s).sum).sum := by
  induction T with
  | zero => simp
  | succ T ih =>
    have : (fun s => ((List.range (T + 1)).map fun t => f t s).sum) = fun s => ((List.range T).map fun t => f t s).sum + f T s := by
      funext s; simp [List.range_succ]
    rw [this, List.sum_map_add, ih]
    simp [List.range_succ]

private theorem sum_flatMap (l : List Nat) (f : Nat → List Rat) : (l.flatMap f).sum = (l.map fun x => (f x).sum).sum := by
  induction l with
  | nil => rfl
  | cons a l ih => rw [List.flatMap_cons, List.sum_append, ih, List.map_cons, List.sum_cons]

private theorem sum_div (l : List Nat) (f : Nat → Rat) (c : Rat) : (l.map fun x => f x / c).sum = (l.map f).sum / c := by
  induction l with
  | nil => simp
  | cons a l ih => simp only [List.map_cons, List.sum_cons, ih]; ring

private theorem values_mean {o : Options} (h : o.Averages) (T R S : Nat) (flows : Nat → Nat → Nat → Rat) :
    values o T R S (stored flows) = some ((List.range R).map fun r => meanFlow T S flows r) := by
  unfold values
  have : ∀ r, ((overTime o T S fun t s => stored flows t r s).bind (overColumns o)) = some (meanFlow T S flows r) := by
    intro r
    simp only [overTime, h.times, h.timeAgg, overColumns, h.columns, Option.bind_some, mean, List.length_map, List.length_range, stored, meanFlow]
    congr 1
    rw [sum_div, sum_swap, div_div]
  rw [show (fun r => ((overTime o T S fun t s => stored flows t r s).bind (overColumns o))) = fun r => some (meanFlow T S flows r) from funext this, mapM_some]

private theorem zip_range {α β : Type} (l : List α) (f : Nat → β) (d : α) :
    l.zip ((List.range l.length).map f) = (List.range l.length).map fun r => (l.getD r d, f r) := by
  apply List.ext_getElem
  · simp
  · intro i h1 h2
    have : i < l.length := by simpa using h2
    simp [List.getElem?_eq_getElem this]

/-! ## The theorems -/

private theorem shown_box (n : Node) : n.shown = box n := by
  unfold Node.shown box
  cases n.parent <;> rfl

private theorem drawn_shown (o : Options) (routes : List (Node × Node)) (T S : Nat) (flows : Nat → Nat → Nat → Rat) (a b : String) :
    drawnFlows o ((routes.map fun p => row p.1 p.2).zip ((List.range (routes.map fun p => row p.1 p.2).length).map fun r => meanFlow T S flows r)) a b =
      (shown o routes T S flows a b).map (meanFlow T S flows) := by
  rw [zip_range _ _ ("", "")]
  unfold drawnFlows shown
  rw [List.filter_map, List.map_map, List.length_map]
  rw [List.filter_congr (q := fun r => match routes[r]? with
    | some p => decide (o.drawn (box p.1) (box p.2) (meanFlow T S flows r) = some (a, b))
    | none => false)]
  · rfl
  · intro r hr
    have hr : r < routes.length := List.mem_range.1 hr
    simp [List.getElem?_eq_getElem hr, row, shown_box]

/-- **C99.** A diagram of the routes has one link for every two boxes between which at least one route is drawn, provided that the sum of their mean flows over all timesteps and scenarios reaches
the threshold; its value is that sum. -/
theorem C99_links (o : Options) (h : o.Averages) (routes : List (Node × Node)) (T S : Nat) (_hT : 0 < T) (_hS : 0 < S) (flows : Nat → Nat → Nat → Rat) :
    ∃ ls, links o (routes.map fun p => row p.1 p.2) T S (stored flows) = some ls ∧ (ls.map fun l => (l.1, l.2.1)).Nodup ∧
      ∀ a b v, (a, b, v) ∈ ls ↔
        shown o routes T S flows a b ≠ [] ∧ v = ((shown o routes T S flows a b).map (meanFlow T S flows)).sum ∧ o.threshold ≤ v := by
  unfold links
  rw [values_mean h, Option.map_some]
  refine ⟨_, rfl, ?_, fun a b v => ?_⟩
  · exact collect_nodup (loop o _).1 _
  · rw [mem_collect (loop o _).1, (loop o _).2, drawn_shown]
    simp only [List.map_eq_nil_iff]
    by_cases hn : shown o routes T S flows a b = []
    · simp [hn]
    · rw [if_neg hn]
      simp only [Option.some.injEq, ne_eq, hn, not_false_eq_true, true_and]
      constructor
      · rintro ⟨rfl, h⟩; exact ⟨rfl, h⟩
      · rintro ⟨rfl, h⟩; exact ⟨rfl, h⟩

/-! ## The total -/

private def sums (d : List (String × List (String × Rat))) : Rat := (d.map fun e => (e.2.map Prod.snd).sum).sum

private theorem addTarget_sum (d : List (String × Rat)) (t : String) (v : Rat) : ((addTarget d t v).map Prod.snd).sum = (d.map Prod.snd).sum + v := by
  induction d with
  | nil => simp [addTarget]
  | cons e rest ih =>
    unfold addTarget
    split
    · simp only [List.map_cons, List.sum_cons]; ring
    · simp only [List.map_cons, List.sum_cons, ih]; ring

private theorem add_sums (d : List (String × List (String × Rat))) (s t : String) (v : Rat) : sums (add d s t v) = sums d + v := by
  induction d with
  | nil => simp [add, sums, addTarget]
  | cons e rest ih =>
    unfold add
    split
    · simp only [sums, List.map_cons, List.sum_cons, addTarget_sum]; ring
    · simp only [sums, List.map_cons, List.sum_cons] at ih ⊢
      rw [ih]; ring

private theorem fold_sums (o : Options) (hk : o.keep = none) (hc : o.ignoreCircular = false) (xs : List ((String × String) × Rat)) :
    sums (xs.foldl (turn o) []) = (xs.map Prod.snd).sum := by
  induction xs using List.reverseRecOn with
  | nil => rfl
  | append_singleton l x ih =>
    rw [List.foldl_append, List.foldl_cons, List.foldl_nil, turn_eq]
    have : ∃ p, o.drawn x.1.1 x.1.2 x.2 = some p := by
      unfold Options.drawn
      rw [if_pos ⟨fun k e => (by rw [hk] at e; cases e), fun e => (by rw [hc] at e; cases e)⟩]
      exact ⟨_, rfl⟩
    obtain ⟨p, hp⟩ := this
    rw [hp]
    simp only [add_sums, ih, List.map_append, List.sum_append, List.map_cons, List.map_nil, List.sum_cons, List.sum_nil, add_zero]

private theorem collect_sum {th : Rat} {d : List (String × List (String × Rat))} (h : ∀ e ∈ d, ∀ t ∈ e.2, th ≤ t.2) : ((collect th d).map fun l => l.2.2).sum = sums d := by
  unfold collect sums
  induction d with
  | nil => rfl
  | cons e rest ih =>
    rw [List.flatMap_cons, List.map_append, List.sum_append, ih (fun e he => h e (List.mem_cons_of_mem _ he)), List.map_cons, List.sum_cons, List.map_map]
    congr 2
    rw [List.filter_eq_self.2 (fun t ht => by simpa using h e (by simp) t ht)]
    rfl

private theorem addTarget_nonneg {d : List (String × Rat)} {t : String} {v : Rat} (hv : 0 ≤ v) (h : ∀ e ∈ d, 0 ≤ e.2) : ∀ e ∈ addTarget d t v, 0 ≤ e.2 := by
  induction d with
  | nil => intro e he; rw [addTarget, List.mem_singleton] at he; subst he; simpa using hv
  | cons x rest ih =>
    intro e he
    unfold addTarget at he
    split at he
    · rcases List.mem_cons.1 he with rfl | he
      · exact add_nonneg (h x (by simp)) hv
      · exact h e (List.mem_cons_of_mem _ he)
    · rcases List.mem_cons.1 he with rfl | he
      · exact h e (by simp)
      · exact ih (fun e he => h e (List.mem_cons_of_mem _ he)) e he

private theorem add_nonneg' {d : List (String × List (String × Rat))} {s t : String} {v : Rat} (hv : 0 ≤ v) (h : ∀ e ∈ d, ∀ x ∈ e.2, 0 ≤ x.2) :
    ∀ e ∈ add d s t v, ∀ x ∈ e.2, 0 ≤ x.2 := by
  induction d with
  | nil =>
    intro e he
    rw [add, List.mem_singleton] at he
    subst he
    exact addTarget_nonneg hv (by simp)
  | cons y rest ih =>
    intro e he
    unfold add at he
    split at he
    · rcases List.mem_cons.1 he with rfl | he
      · exact addTarget_nonneg hv (h y (by simp))
      · exact h e (List.mem_cons_of_mem _ he)
    · rcases List.mem_cons.1 he with rfl | he
      · exact h e (by simp)
      · exact ih (fun e he => h e (List.mem_cons_of_mem _ he)) e he

private theorem fold_nonneg (o : Options) (xs : List ((String × String) × Rat)) (hx : ∀ x ∈ xs, 0 ≤ x.2) : ∀ e ∈ xs.foldl (turn o) [], ∀ t ∈ e.2, 0 ≤ t.2 := by
  induction xs using List.reverseRecOn with
  | nil => simp
  | append_singleton l x ih =>
    rw [List.foldl_append, List.foldl_cons, List.foldl_nil, turn_eq]
    have ih := ih fun x hm => hx x (by simp [hm])
    cases o.drawn x.1.1 x.1.2 x.2 with
    | none => exact ih
    | some p => exact add_nonneg' (hx x (by simp)) ih

private theorem sum_range_nonneg {n : Nat} {f : Nat → Rat} (h : ∀ i, 0 ≤ f i) : 0 ≤ ((List.range n).map f).sum :=
  List.sum_nonneg fun x hx => by obtain ⟨i, _, rfl⟩ := List.mem_map.1 hx; exact h i

/-- **C99.** No flow is lost or shown twice: with every route drawn and no threshold, the values of the links add up to the mean over all timesteps and scenarios of the total flow of all routes. -/
theorem C99_total (o : Options) (h : o.Averages) (hk : o.keep = none) (hc : o.ignoreCircular = false) (hth : o.threshold ≤ 0)
    (routes : List (Node × Node)) (T S : Nat) (_hT : 0 < T) (_hS : 0 < S) (flows : Nat → Nat → Nat → Rat) (hf : ∀ t s r, 0 ≤ flows t s r) :
    ∃ ls, links o (routes.map fun p => row p.1 p.2) T S (stored flows) = some ls ∧
      (ls.map fun l => l.2.2).sum = mean ((List.range T).flatMap fun t => (List.range S).map fun s => total routes.length flows t s) := by
  unfold links
  rw [values_mean h, Option.map_some]
  refine ⟨_, rfl, ?_⟩
  have hm : ∀ r, 0 ≤ meanFlow T S flows r := fun r =>
    div_nonneg (sum_range_nonneg fun t => sum_range_nonneg fun s => hf t s r) (mul_nonneg (Nat.cast_nonneg _) (Nat.cast_nonneg _))
  rw [collect_sum, fold_sums o hk hc]
  · rw [zip_range _ _ ("", ""), List.map_map, List.length_map]
    have h1 : (List.range routes.length).map (Prod.snd ∘ fun r => ((routes.map fun p => row p.1 p.2).getD r ("", ""), meanFlow T S flows r)) =
        (List.range routes.length).map fun r => ((List.range T).map fun t => ((List.range S).map fun s => flows t s r).sum).sum / ((T : Rat) * S) := rfl
    rw [h1, sum_div]
    unfold mean
    congr 1
    · rw [sum_flatMap, sum_swap T routes.length fun t r => ((List.range S).map fun s => flows t s r).sum]
      congr 1
      refine List.map_congr_left fun t _ => ?_
      exact sum_swap S routes.length fun s r => flows t s r
    · simp [List.length_flatMap]
  · intro e he t ht
    exact hth.trans (fold_nonneg o _ (fun x hx => by
      have := (List.of_mem_zip hx).2
      obtain ⟨r, _, e⟩ := List.mem_map.1 this
      rw [← e]; exact hm r) e he t ht)

/-- **C99.** With nothing but the name of the file given, every route is drawn, between the boxes of its two ends, and no flow is lost. -/
theorem C99_defaults (routes : List (Node × Node)) (T S : Nat) (hT : 0 < T) (hS : 0 < S) (flows : Nat → Nat → Nat → Rat) (hf : ∀ t s r, 0 ≤ flows t s r) :
    (∀ (r : Nat) (a b : Node), routes[r]? = some (a, b) → r ∈ shown defaults routes T S flows (box a) (box b)) ∧
    ∃ ls, links defaults (routes.map fun p => row p.1 p.2) T S (stored flows) = some ls ∧
      (ls.map fun l => l.2.2).sum = mean ((List.range T).flatMap fun t => (List.range S).map fun s => total routes.length flows t s) := by
  refine ⟨fun r a b h => ?_, C99_total defaults ⟨rfl, rfl, rfl⟩ rfl rfl (le_refl (0 : Rat)) routes T S hT hS flows hf⟩
  have hr : r < routes.length := (List.getElem?_eq_some_iff.1 h).1
  simp only [shown, List.mem_filter, List.mem_range, h, hr, true_and]
  simp [Options.drawn, defaults]

/-- **C99.** With one timestep and one scenario selected, the diagram shows the flows of that timestep in that scenario. -/
theorem C99_selected (o : Options) (t s : Nat) (ht : o.times = .one t) (hs : o.columns = .one s) (routes : List (Node × Node)) (T S : Nat) (hS : s < S) (flows : Nat → Nat → Nat → Rat) :
    links o (routes.map fun p => row p.1 p.2) T S (stored flows) =
      links { o with times := .all, timeAgg := some mean, columns := .all } (routes.map fun p => row p.1 p.2) 1 1 (stored fun _ _ r => flows t s r) := by
  unfold links
  have hv : values o T (routes.map fun p => row p.1 p.2).length S (stored flows) =
      some ((List.range (routes.map fun p => row p.1 p.2).length).map fun r => meanFlow 1 1 (fun _ _ r => flows t s r) r) := by
    unfold values
    have : ∀ r, ((overTime o T S fun t s => stored flows t r s).bind (overColumns o)) = some (meanFlow 1 1 (fun _ _ r => flows t s r) r) := by
      intro r
      simp only [overTime, ht, overColumns, hs, Option.bind_some, stored, meanFlow, List.getElem?_map]
      rw [List.getElem?_range hS]
      simp
    rw [show (fun r => ((overTime o T S fun t s => stored flows t r s).bind (overColumns o))) = fun r => some (meanFlow 1 1 (fun _ _ r => flows t s r) r) from funext this, mapM_some]
  rw [hv, values_mean ⟨rfl, rfl, rfl⟩]
  rfl

/-! ## Cases -/

private def routes3 : List (Node × Node) :=
  [(⟨"Catchment", none⟩, ⟨"Demand", none⟩), (⟨"Catchment", none⟩, ⟨"Sea", none⟩), (⟨"Reservoir.0", some "Reservoir"⟩, ⟨"Demand", none⟩), (⟨"Catchment", none⟩, ⟨"Demand", none⟩)]

private def flows3 (t s r : Nat) : Rat := if r = 1 then 0 else t + 2 * s + r

/-- C99: two timesteps, two scenarios, four routes; two of them have the same ends and are added up; the part of the reservoir is shown under its name. -/
example : defaults.Averages ∧ defaults.keep = none ∧ defaults.ignoreCircular = false ∧ defaults.threshold ≤ 0 :=
  ⟨⟨rfl, rfl, rfl⟩, rfl, rfl, by decide +kernel⟩
example : links defaults (routes3.map fun p => row p.1 p.2) 2 2 (stored flows3) = some [("Catchment", "Demand", 6), ("Catchment", "Sea", 0), ("Reservoir", "Demand", 7 / 2)] := by decide +kernel
example : mean ((List.range 2).flatMap fun t => (List.range 2).map fun s => total 4 flows3 t s) = 6 + 0 + 7 / 2 := by decide +kernel
example : links { defaults with threshold := 1, times := .one 1, columns := .one 0 } (routes3.map fun p => row p.1 p.2) 2 2 (stored flows3) =
    some [("Catchment", "Demand", 5), ("Reservoir", "Demand", 3)] := by decide +kernel

/-! ## What does not hold -/

/-- The aggregation over the scenarios cannot be chosen: whatever is given as `scenario_agg_func` the mean is taken.  Of flows of 0 and 10 in two scenarios the diagram shows 5 when the largest is asked for. -/
theorem C99_aggregation_fails :
    (∀ (o : Options) (f : Option (List Rat → Rat)) routes T S file, links { o with columnAgg := f } routes T S file = links o routes T S file) ∧
    links { defaults with columnAgg := some fun xs => xs.foldl max 0 } [("A", "B")] 1 2 (fun _ _ s => 10 * s) = some [("A", "B", 5)] ∧
    (fun xs : List Rat => xs.foldl max 0) [0, 10] = 10 := by
  refine ⟨fun o f routes T S file => rfl, by decide +kernel, by decide +kernel⟩

end Verif.Sankey

import Verif.Model.Aggregate
import Mathlib.Algebra.BigOperators.Group.List.Basic
import Mathlib.Algebra.Ring.Rat
import Mathlib.Algebra.Ring.Int.Defs
import Mathlib.Data.List.Perm.Basic
import Mathlib.Data.List.Sort
import Mathlib.Tactic.Linarith
/-! # C33: aggregated parameters -/

namespace Verif.Aggregate

private theorem accumulate_eq {α β : Type} (f : β → α → β) (params : List (Vals α)) (i : Nat) (init : β) :
    accumulate init f params i = (params.map fun p => p i).foldl f init := by
  have key : ∀ (params : List (Vals α)) (acc : Vals β),
      params.foldl (fun acc v i => f (acc i) (v i)) acc i = (params.map fun p => p i).foldl f (acc i) := by
    intro params
    induction params with
    | nil => intro acc; rfl
    | cons p ps ih => intro acc; rw [List.foldl_cons, ih, List.map_cons, List.foldl_cons]
  exact key params fun _ => init

theorem foldl_add {α : Type} [AddCommMonoid α] (l : List α) (a : α) : l.foldl (· + ·) a = a + l.sum := by
  induction l generalizing a with
  | nil => simp
  | cons x l ih => rw [List.foldl_cons, ih, List.sum_cons, add_assoc]

theorem foldl_mul {α : Type} [CommMonoid α] (l : List α) (a : α) : l.foldl (· * ·) a = a * l.prod := by
  induction l generalizing a with
  | nil => simp
  | cons x l ih => rw [List.foldl_cons, ih, List.prod_cons, mul_assoc]

theorem foldl_max {α : Type} [LinearOrder α] (l : List α) (a : Option α) :
    ∀ m, l.foldl maxStep a = some m ↔ ((m ∈ l ∨ a = some m) ∧ (∀ x ∈ l, x ≤ m) ∧ ∀ x, a = some x → x ≤ m) := by
  induction l generalizing a with
  | nil => intro m; simp; rintro rfl; simp
  | cons y l ih =>
    intro m
    rw [List.foldl_cons, ih]
    cases a with
    | none =>
      simp only [maxStep, Option.some.injEq, List.mem_cons, reduceCtorEq, or_false, false_implies, implies_true, and_true]
      constructor
      · rintro ⟨h1, h2, h3⟩
        refine ⟨h1.symm.imp Eq.symm id, ?_⟩
        rintro x (rfl | hx)
        · exact h3 _ rfl
        · exact h2 x hx
      · rintro ⟨h1, h2⟩
        exact ⟨h1.symm.imp id Eq.symm, fun x hx => h2 x (.inr hx), fun x hx => h2 x (.inl hx.symm)⟩
    | some b =>
      simp only [maxStep, gt_iff_lt]
      split <;> rename_i h
      · simp only [Option.some.injEq, List.mem_cons, forall_eq']
        constructor
        · rintro ⟨h1, h2, h3⟩
          refine ⟨.inl (h1.symm.imp Eq.symm id), ?_, le_trans h.le h3⟩
          rintro x (rfl | hx)
          · exact h3
          · exact h2 x hx
        · rintro ⟨h1, h2, h3⟩
          refine ⟨?_, fun x hx => h2 x (.inr hx), h2 y (.inl rfl)⟩
          rcases h1 with (h1 | h1) | h1
          · exact .inr h1.symm
          · exact .inl h1
          · subst h1; exact absurd (h2 y (.inl rfl)) (not_le.2 h)
      · simp only [Option.some.injEq, List.mem_cons, forall_eq']
        push Not at h
        constructor
        · rintro ⟨h1, h2, h3⟩
          refine ⟨h1.imp .inr id, ?_, h3⟩
          rintro x (rfl | hx)
          · exact le_trans h h3
          · exact h2 x hx
        · rintro ⟨h1, h2, h3⟩
          refine ⟨?_, fun x hx => h2 x (.inr hx), h3⟩
          rcases h1 with (h1 | h1) | h1
          · right; exact le_antisymm h3 (h1 ▸ h)
          · exact .inl h1
          · exact .inr h1

theorem foldl_min {α : Type} [LinearOrder α] (l : List α) (a : Option α) :
    ∀ m, l.foldl minStep a = some m ↔ ((m ∈ l ∨ a = some m) ∧ (∀ x ∈ l, m ≤ x) ∧ ∀ x, a = some x → m ≤ x) :=
  foldl_max (α := αᵒᵈ) l a

theorem foldl_max_some {α : Type} [LinearOrder α] (l : List α) (a : Option α) (h : l ≠ [] ∨ a ≠ none) :
    ∃ m, l.foldl maxStep a = some m := by
  induction l generalizing a with
  | nil =>
    rcases h with h | h
    · exact absurd rfl h
    · exact Option.ne_none_iff_exists'.1 h
  | cons y l ih =>
    rw [List.foldl_cons]
    apply ih
    right
    cases a with
    | none => simp [maxStep]
    | some b => unfold maxStep; simp only; split <;> simp

theorem foldl_min_some {α : Type} [LinearOrder α] (l : List α) (h : l ≠ []) : ∃ m : α, l.foldl minStep none = some m :=
  foldl_max_some (α := αᵒᵈ) l none (.inl h)

/-- **C33 (sum, product, mean).** In every scenario the value is the sum, product or arithmetic mean of the values the children have in that scenario. -/
theorem C33_sum_product_mean (params : List (Vals Rat)) (i : Nat) :
    evaluate .sum params i = some (some (params.map fun p => p i).sum) ∧
    evaluate .product params i = some (some (params.map fun p => p i).prod) ∧
    evaluate .mean params i = some (some ((params.map fun p => p i).sum / params.length)) := by
  unfold evaluate
  simp only [accumulate_eq, foldl_add, foldl_mul, zero_add, one_mul, and_self]

/-- **C33 (maximum, minimum).** With at least one child, in every scenario the value is the greatest (least) of the children's values in that scenario. -/
theorem C33_max_min (params : List (Vals Rat)) (h : params ≠ []) (i : Nat) :
    (∃ m, evaluate .max params i = some (some m) ∧ (∃ p ∈ params, p i = m) ∧ ∀ p ∈ params, p i ≤ m) ∧
    (∃ m, evaluate .min params i = some (some m) ∧ (∃ p ∈ params, p i = m) ∧ ∀ p ∈ params, m ≤ p i) := by
  have hne : (params.map fun p => p i) ≠ [] := by simpa using h
  constructor
  · obtain ⟨m, hm⟩ := foldl_max_some (params.map fun p => p i) none (.inl hne)
    refine ⟨m, by simp only [evaluate, accumulate_eq, hm], ?_⟩
    obtain ⟨h1, h2, -⟩ := (foldl_max _ _ m).1 hm
    simp only [List.mem_map, reduceCtorEq, or_false] at h1
    exact ⟨h1, fun p hp => h2 _ (List.mem_map.2 ⟨p, hp, rfl⟩)⟩
  · obtain ⟨m, hm⟩ := foldl_min_some (params.map fun p => p i) hne
    refine ⟨m, by simp only [evaluate, accumulate_eq, hm], ?_⟩
    obtain ⟨h1, h2, -⟩ := (foldl_min _ _ m).1 hm
    simp only [List.mem_map, reduceCtorEq, or_false] at h1
    exact ⟨h1, fun p hp => h2 _ (List.mem_map.2 ⟨p, hp, rfl⟩)⟩

/-! ### Median -/

theorem median_perm {l l' : List Rat} (h : l.Perm l') : median l = median l' := by
  have hs : l.mergeSort (fun a b => decide (a ≤ b)) = l'.mergeSort (fun a b => decide (a ≤ b)) := by
    have t : ∀ a b c : Rat, decide (a ≤ b) = true → decide (b ≤ c) = true → decide (a ≤ c) = true := by
      intro a b c; simp only [decide_eq_true_eq]; exact le_trans
    have tot : ∀ a b : Rat, (decide (a ≤ b) || decide (b ≤ a)) = true := by
      intro a b; simp only [Bool.or_eq_true, decide_eq_true_eq]; exact le_total a b
    have p1 := List.pairwise_mergeSort t tot l
    have p2 := List.pairwise_mergeSort t tot l'
    have hp : (l.mergeSort fun a b => decide (a ≤ b)).Perm (l'.mergeSort fun a b => decide (a ≤ b)) :=
      ((List.mergeSort_perm l _).trans h).trans (List.mergeSort_perm l' _).symm
    refine hp.eq_of_pairwise (le := fun a b => decide (a ≤ b) = true) ?_ p1 p2
    intro a b _ _ h1 h2
    simp only [decide_eq_true_eq] at h1 h2
    exact le_antisymm h1 h2
  unfold median
  rw [hs]

/-- Entries of a sorted list at or after (up to) position `k` are at least (at most) the entry there. -/
theorem sorted_counts (s : List Rat) (hs : s.Pairwise (· ≤ ·)) (k : Nat) (hk : k < s.length) (m : Rat) :
    (s[k] ≤ m → k + 1 ≤ (s.filter fun x => decide (x ≤ m)).length) ∧
    (m ≤ s[k] → s.length - k ≤ (s.filter fun x => decide (m ≤ x)).length) := by
  have hg := List.pairwise_iff_getElem.1 hs
  constructor
  · intro h
    have e : (s.take (k + 1)).filter (fun x => decide (x ≤ m)) = s.take (k + 1) := by
      rw [List.filter_eq_self]
      intro x hx
      obtain ⟨j, hj, rfl⟩ := List.mem_iff_getElem.1 hx
      simp only [List.length_take] at hj
      simp only [List.getElem_take, decide_eq_true_eq]
      by_cases hjk : j = k
      · subst hjk; exact h
      · exact le_trans (hg j k (by omega) hk (by omega)) h
    have : (s.filter fun x => decide (x ≤ m)).length = ((s.take (k + 1)).filter fun x => decide (x ≤ m)).length +
        ((s.drop (k + 1)).filter fun x => decide (x ≤ m)).length := by
      rw [← List.length_append, ← List.filter_append, List.take_append_drop]
    rw [this, e, List.length_take]; omega
  · intro h
    have e : (s.drop k).filter (fun x => decide (m ≤ x)) = s.drop k := by
      rw [List.filter_eq_self]
      intro x hx
      obtain ⟨j, hj, rfl⟩ := List.mem_iff_getElem.1 hx
      simp only [List.length_drop] at hj
      simp only [List.getElem_drop, decide_eq_true_eq]
      by_cases hjk : j = 0
      · subst hjk; simpa using h
      · exact le_trans h (hg k (k + j) hk (by omega) (by omega))
    have : (s.filter fun x => decide (m ≤ x)).length = ((s.take k).filter fun x => decide (m ≤ x)).length +
        ((s.drop k).filter fun x => decide (m ≤ x)).length := by
      rw [← List.length_append, ← List.filter_append, List.take_append_drop]
    rw [this, e, List.length_drop]; omega

/-- **C33 (median of an even number).** For an even number of children, the median is half the sum of the two middle ones of the values in ascending order. -/
theorem C33_median_even (params : List (Vals Rat)) (k : Nat) (h : params.length = 2 * (k + 1)) (i : Nat) :
    ∃ s : List Rat, s.Perm (params.map fun p => p i) ∧ s.Pairwise (· ≤ ·) ∧ evaluate .median params i = some (some ((s.getD k 0 + s.getD (k + 1) 0) / 2)) := by
  have t : ∀ a b c : Rat, decide (a ≤ b) = true → decide (b ≤ c) = true → decide (a ≤ c) = true := by
    intro a b c; simp only [decide_eq_true_eq]; exact le_trans
  have tot : ∀ a b : Rat, (decide (a ≤ b) || decide (b ≤ a)) = true := by
    intro a b; simp only [Bool.or_eq_true, decide_eq_true_eq]; exact le_total a b
  refine ⟨(params.map fun p => p i).mergeSort fun a b => decide (a ≤ b), List.mergeSort_perm _ _, by simpa using List.pairwise_mergeSort t tot (params.map fun p => p i), ?_⟩
  have hl : ((params.map fun p => p i).mergeSort fun a b => decide (a ≤ b)).length = 2 * (k + 1) := by
    rw [(List.mergeSort_perm _ _).length_eq, List.length_map, h]
  unfold evaluate median
  dsimp only
  rw [hl, if_neg (by omega), show 2 * (k + 1) / 2 - 1 = k by omega, show 2 * (k + 1) / 2 = k + 1 by omega]

example : ([fun _ => 1, fun _ => 4] : List (Vals Rat)).length = 2 * (0 + 1) := rfl

/-- **C33 (median).** With at least one child, at least half of the children's values are at most the median and at least half are at least the median;
for an odd number of children it is one of the values. -/
theorem C33_median (params : List (Vals Rat)) (h : params ≠ []) (i : Nat) :
    ∃ m, evaluate .median params i = some (some m) ∧
      params.length ≤ 2 * ((params.map fun p => p i).filter fun x => decide (x ≤ m)).length ∧
      params.length ≤ 2 * ((params.map fun p => p i).filter fun x => decide (m ≤ x)).length ∧
      (params.length % 2 = 1 → ∃ p ∈ params, p i = m) := by
  refine ⟨_, rfl, ?_⟩
  set l := params.map fun p => p i with hl
  have hlen : l.length = params.length := by simp [hl]
  have hpos : 0 < l.length := by rw [hlen]; exact List.length_pos_iff.2 h
  have t : ∀ a b c : Rat, decide (a ≤ b) = true → decide (b ≤ c) = true → decide (a ≤ c) = true := by
    intro a b c; simp only [decide_eq_true_eq]; exact le_trans
  have tot : ∀ a b : Rat, (decide (a ≤ b) || decide (b ≤ a)) = true := by
    intro a b; simp only [Bool.or_eq_true, decide_eq_true_eq]; exact le_total a b
  have p1 : (l.mergeSort fun a b => decide (a ≤ b)).Pairwise (· ≤ ·) := by
    have := List.pairwise_mergeSort t tot l
    simpa using this
  have hperm := List.mergeSort_perm l (fun a b => decide (a ≤ b))
  have cnt : ∀ q : Rat → Bool, (l.filter q).length = ((l.mergeSort fun a b => decide (a ≤ b)).filter q).length :=
    fun q => ((hperm.filter q).length_eq).symm
  have hsl : (l.mergeSort fun a b => decide (a ≤ b)).length = l.length := hperm.length_eq
  have hmem : ∀ x ∈ l.mergeSort (fun a b => decide (a ≤ b)), ∃ p ∈ params, p i = x := by
    intro x hx
    have := hperm.mem_iff.1 hx
    rw [hl, List.mem_map] at this
    exact this
  rw [cnt, cnt]
  unfold median
  simp only
  generalize l.mergeSort (fun a b => decide (a ≤ b)) = s at p1 hsl hmem ⊢
  rw [← hlen, ← hsl]
  rw [← hsl] at hpos
  have get : ∀ k (hk : k < s.length), s.getD k 0 = s[k] := by intro k hk; simp [List.getD, hk]
  split
  · rename_i ho
    have hk : s.length / 2 < s.length := by omega
    rw [get _ hk]
    obtain ⟨c1, c2⟩ := sorted_counts s p1 _ hk s[s.length / 2]
    have := c1 (le_refl _)
    have := c2 (le_refl _)
    exact ⟨by omega, by omega, fun _ => hmem _ (List.getElem_mem hk)⟩
  · rename_i ho
    have hk : s.length / 2 < s.length := by omega
    have hk' : s.length / 2 - 1 < s.length := by omega
    rw [get _ hk, get _ hk']
    have hle : s[s.length / 2 - 1] ≤ s[s.length / 2] := List.pairwise_iff_getElem.1 p1 _ _ hk' hk (by omega)
    obtain ⟨c1, -⟩ := sorted_counts s p1 _ hk' ((s[s.length / 2 - 1] + s[s.length / 2]) / 2)
    obtain ⟨-, c2⟩ := sorted_counts s p1 _ hk ((s[s.length / 2 - 1] + s[s.length / 2]) / 2)
    have := c1 (by linarith)
    have := c2 (by linarith)
    exact ⟨by omega, by omega, fun h => absurd h ho⟩

/-! ### Order of the children -/

theorem foldl_max_perm {α : Type} [LinearOrder α] {l l' : List α} (h : l.Perm l') : l.foldl maxStep none = l'.foldl maxStep none := by
  cases hl : l.foldl maxStep none with
  | none =>
    by_cases he : l = []
    · subst he; rw [← h.nil_eq]; rfl
    · obtain ⟨m, hm⟩ := foldl_max_some l none (.inl he)
      rw [hl] at hm; cases hm
  | some m =>
    symm
    rw [foldl_max] at hl ⊢
    simp only [reduceCtorEq, or_false, false_implies, implies_true, and_true] at hl ⊢
    exact ⟨h.mem_iff.1 hl.1, fun x hx => hl.2 x (h.mem_iff.2 hx)⟩

/-- **C33 (order).** The value does not depend on the order of the children. -/
theorem C33_order (f : Func) (params params' : List (Vals Rat)) (h : params.Perm params') (i : Nat) :
    evaluate f params i = evaluate f params' i := by
  have hm := h.map fun p => p i
  unfold evaluate
  cases f <;> simp only [accumulate_eq, foldl_add, foldl_mul]
  · rw [hm.sum_eq]
  · have := foldl_max_perm (α := Ratᵒᵈ) hm
    exact congrArg some this
  · rw [foldl_max_perm hm]
  · rw [hm.sum_eq, h.length_eq]
  · rw [hm.prod_eq]
  · rw [median_perm hm]

/-! ### Index parameters -/

/-- **C33 (indices).** For index parameters: sum, product, greatest, least; `any` is 1 if some child's index is non-zero, else 0; `all` is 1 if no
child's index is zero, else 0. -/
theorem C33_index (params : List (Vals Int)) (h : params ≠ []) (i : Nat) :
    evaluateIndex .sum params i = some (some (params.map fun p => p i).sum) ∧
    evaluateIndex .product params i = some (some (params.map fun p => p i).prod) ∧
    (∃ m, evaluateIndex .max params i = some (some m) ∧ (∃ p ∈ params, p i = m) ∧ ∀ p ∈ params, p i ≤ m) ∧
    (∃ m, evaluateIndex .min params i = some (some m) ∧ (∃ p ∈ params, p i = m) ∧ ∀ p ∈ params, m ≤ p i) ∧
    evaluateIndex .any params i = some (some (if ∃ p ∈ params, p i ≠ 0 then 1 else 0)) ∧
    evaluateIndex .all params i = some (some (if ∀ p ∈ params, p i ≠ 0 then 1 else 0)) := by
  have hne : (params.map fun p => p i) ≠ [] := by simpa using h
  refine ⟨?_, ?_, ?_, ?_, ?_, ?_⟩
  · simp only [evaluateIndex, accumulate_eq, foldl_add, zero_add]
  · simp only [evaluateIndex, accumulate_eq, foldl_mul, one_mul]
  · obtain ⟨m, hm⟩ := foldl_max_some (params.map fun p => p i) none (.inl hne)
    refine ⟨m, by simp only [evaluateIndex, accumulate_eq, hm], ?_⟩
    obtain ⟨h1, h2, -⟩ := (foldl_max _ _ m).1 hm
    simp only [List.mem_map, reduceCtorEq, or_false] at h1
    exact ⟨h1, fun p hp => h2 _ (List.mem_map.2 ⟨p, hp, rfl⟩)⟩
  · obtain ⟨m, hm⟩ := foldl_min_some (params.map fun p => p i) hne
    refine ⟨m, by simp only [evaluateIndex, accumulate_eq, hm], ?_⟩
    obtain ⟨h1, h2, -⟩ := (foldl_min _ _ m).1 hm
    simp only [List.mem_map, reduceCtorEq, or_false] at h1
    exact ⟨h1, fun p hp => h2 _ (List.mem_map.2 ⟨p, hp, rfl⟩)⟩
  · have key : ∀ (l : List Int) (a : Int), l.foldl (fun a v => if v ≠ 0 then 1 else a) a = if ∃ x ∈ l, x ≠ 0 then 1 else a := by
      intro l
      induction l with
      | nil => intro a; simp
      | cons x l ih =>
        intro a
        rw [List.foldl_cons, ih]
        by_cases hx : x ≠ 0
        · simp [hx]
        · simp only [ne_eq, not_not] at hx; simp [hx]
    simp only [evaluateIndex, accumulate_eq, key, List.mem_map, exists_exists_and_eq_and]
  · have key : ∀ (l : List Int) (a : Int), l.foldl (fun a v => if ¬ v ≠ 0 then 0 else a) a = if ∀ x ∈ l, x ≠ 0 then a else 0 := by
      intro l
      induction l with
      | nil => intro a; simp
      | cons x l ih =>
        intro a
        rw [List.foldl_cons, ih]
        by_cases hx : x ≠ 0
        · simp [hx]
        · simp only [ne_eq, not_not] at hx; simp [hx]
    simp only [evaluateIndex, accumulate_eq, key, List.mem_map, forall_exists_index, and_imp, forall_apply_eq_imp_iff₂]

/-- Two children in two scenarios. -/
example : evaluate .max [fun i => (i : Rat), fun _ => 1 / 2] 0 = some (some (1 / 2)) ∧ evaluate .max [fun i => (i : Rat), fun _ => 1 / 2] 1 = some (some 1) ∧
    evaluateIndex .all [fun _ => 2, fun _ => -1] 0 = some (some 1) := by decide +kernel

/-! ### Adding and removing children -/

/-- What can be made of an aggregated parameter by giving it distinct parameters, then adding parameters it does not have and removing parameters. -/
inductive Built : Members → Prop
  | init (ps : List Nat) (h : ps.Nodup) : Built (Members.init ps)
  | add (m : Members) (p : Nat) (h : Built m) (hp : p ∉ m.parameters) : Built (m.add p)
  | remove (m m' : Members) (p : Nat) (h : Built m) (hr : m.remove p = some m') : Built m'

/-- **C33 (dependencies, partial).** As long as no parameter is added that is already there, after every sequence of additions
and removals exactly the listed parameters are children, so they are evaluated before the aggregate, and a parameter which is listed can be removed and is then gone; removing another one raises.
Missing: repeated parameters, `C33_dependencies_fails`. -/
theorem C33_dependencies_partial (m : Members) (hb : Built m) :
    (∀ p, p ∈ m.children ↔ p ∈ m.parameters) ∧
    (∀ p ∈ m.parameters, ∃ m', m.remove p = some m' ∧ p ∉ m'.parameters ∧ p ∉ m'.children) ∧ ∀ p, p ∉ m.parameters → m.remove p = none := by
  have key : m.parameters.Nodup ∧ m.children.Nodup ∧ ∀ p, p ∈ m.children ↔ p ∈ m.parameters := by
    induction hb with
    | init ps h =>
      unfold Members.init
      have key : ∀ l : List Nat, (l.foldr List.insert []).Nodup ∧ ∀ p, p ∈ l.foldr List.insert [] ↔ p ∈ l := by
        intro l
        induction l with
        | nil => simp
        | cons a l ih => exact ⟨ih.1.insert, fun p => by rw [List.foldr_cons, List.mem_insert_iff, ih.2, List.mem_cons]⟩
      exact ⟨h, key ps⟩
    | add m p _ hp ih =>
      obtain ⟨hn, hc, hm⟩ := ih
      have hp' : p ∉ m.children := fun h => hp ((hm p).1 h)
      unfold Members.add
      simp only [hp', if_false]
      refine ⟨?_, by simp [hp', hc], ?_⟩
      · rw [List.nodup_append]
        refine ⟨hn, by simp, ?_⟩
        intro a ha b hb
        simp only [List.mem_singleton] at hb
        subst hb
        rintro rfl
        exact hp ha
      · intro q
        simp only [List.mem_cons, List.mem_append, List.not_mem_nil, or_false, hm]
        exact or_comm
    | remove m m' p _ hr ih =>
      obtain ⟨hn, hc, hm⟩ := ih
      unfold Members.remove at hr
      split at hr
      · injection hr with hr
        subst hr
        exact ⟨hn.erase _, hc.erase _, fun q => by rw [hn.mem_erase_iff, hc.mem_erase_iff, hm]⟩
      · cases hr
  obtain ⟨hn, hc, hm⟩ := key
  refine ⟨hm, fun p hp => ?_, fun p hp => by unfold Members.remove; rw [if_neg]; rintro ⟨h, -⟩; exact hp h⟩
  have hp' := (hm p).2 hp
  refine ⟨⟨m.parameters.erase p, m.children.erase p⟩, ?_, ?_, ?_⟩
  · unfold Members.remove
    simp [hp, hp']
  · simp [hn.mem_erase_iff]
  · simp [hc.mem_erase_iff]

/-- Adding 3 to an aggregate of 1 and 2 and removing 1. -/
example : Built ⟨[2, 3], [3, 2]⟩ :=
  .remove ⟨[1, 2, 3], [3, 1, 2]⟩ _ 1 (.add ⟨[1, 2], [1, 2]⟩ 3 (.init [1, 2] (by decide)) (by decide)) rfl

/-- **C33 fails**: when a parameter was given twice, removing it once leaves it in the list of parameters but removes the dependency, so the aggregate may be
evaluated before it; and it can not be removed a second time. -/
theorem C33_dependencies_fails : ∃ m : Members, (∀ p, p ∈ m.children ↔ p ∈ m.parameters) ∧
    ∃ m', (m.remove 1) = some m' ∧ 1 ∈ m'.parameters ∧ 1 ∉ m'.children ∧ m'.remove 1 = none :=
  ⟨Members.init [1, 2, 1], by intro p; simp [Members.init]; omega, ⟨[2, 1], [2]⟩, rfl, by decide, by decide, rfl⟩

end Verif.Aggregate

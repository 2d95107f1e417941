import Verif.Spec.Aggregators
import Verif.Props.DurationCurves
import Mathlib.Algebra.BigOperators.Group.List.Basic
import Mathlib.Data.List.ReduceOption
import Mathlib.Tactic.Ring
import Mathlib.Tactic.FieldSimp
import Mathlib.Tactic.Linarith
import Mathlib.Tactic.Positivity
/-! # C93: aggregation functions, percentiles and scores -/

namespace Verif.Aggregators

open Verif.Constraints Verif.DurationCurves

/-! ## Giving the function -/

private theorem lookup_mem {n : Name} {c : Code} : ∀ (t : List (Name × Code)), t.lookup n = some c → (n, c) ∈ t := by
  intro t
  induction t with
  | nil => intro h; cases h
  | cons e t ih =>
    intro h
    rw [List.lookup_cons] at h
    split at h
    · rename_i he
      obtain rfl := Option.some.inj h
      rw [beq_iff_eq] at he
      rw [he]
      exact List.mem_cons_self
    · exact List.mem_cons_of_mem _ (ih h)

private theorem lookup_called (n : Name) (c : Code) : lookup n = some c ↔ n = (called c).toList := by
  constructor
  · intro h
    have := lookup_mem _ h
    simp only [table, List.mem_cons, List.not_mem_nil, or_false, Prod.mk.injEq] at this
    rcases this with ⟨h1, h2⟩ | ⟨h1, h2⟩ | ⟨h1, h2⟩ | ⟨h1, h2⟩ | ⟨h1, h2⟩ | ⟨h1, h2⟩ | ⟨h1, h2⟩ | ⟨h1, h2⟩ | ⟨h1, h2⟩ | ⟨h1, h2⟩ <;> (subst h1 h2; rfl)
  · rintro rfl
    cases c with
    | simple f => cases f <;> decide
    | custom => decide
    | percentile => decide
    | percentileofscore => decide

private theorem nameOf_called (c : Code) : nameOf c = some (called c).toList := by
  cases c with
  | simple f => cases f <;> decide
  | custom => decide
  | percentile => decide
  | percentileofscore => decide

private theorem called_lower (c : Code) : (called c).toList.map Char.toLower = (called c).toList := by
  cases c with
  | simple f => cases f <;> decide
  | custom => decide
  | percentile => decide
  | percentileofscore => decide

private theorem set_name (a : Aggregator) (n : Name) (c : Code) (h : lookup (n.map Char.toLower) = some c) : a.set (.name n) = (true, ⟨c, none, [], []⟩) := by
  simp only [Aggregator.set, h]

private theorem set_dict (a : Aggregator) (n : Name) (c : Code) (args : List Arg) (kwargs : List (Name × Arg)) (h : lookup n = some c) :
    a.set (.dict n args kwargs) = (true, ⟨c, none, args, kwargs⟩) := by
  simp only [Aggregator.set, h]

private theorem set_name_ok (a : Aggregator) (n : Name) (h : (a.set (.name n)).1 = true) : ∃ c, lookup (n.map Char.toLower) = some c := by
  cases hl : lookup (n.map Char.toLower) with
  | none => simp [Aggregator.set, hl] at h
  | some c => exact ⟨c, rfl⟩

private theorem set_dict_ok (a : Aggregator) (n : Name) (args : List Arg) (kwargs : List (Name × Arg)) (h : (a.set (.dict n args kwargs)).1 = true) : ∃ c, lookup n = some c := by
  cases hl : lookup n with
  | none => simp [Aggregator.set, hl] at h
  | some c => exact ⟨c, rfl⟩

private theorem get_of (c : Code) (hc : c ≠ .custom) (user : Option Nat) (args : List Arg) (kwargs : List (Name × Arg)) :
    Aggregator.get ⟨c, user, args, kwargs⟩ = some (.name (called c).toList) := by
  unfold Aggregator.get
  rw [if_neg (by exact hc)]
  show (nameOf c).map Given.name = _
  rw [nameOf_called]; rfl

/-- Which names are accepted, and what they mean: as a string the documented names, with small and capital letters; in a dictionary exactly the documented names, with the arguments given there. -/
theorem C93_names (a : Aggregator) (n : Name) (args : List Arg) (kwargs : List (Name × Arg)) :
    ((a.set (.name n)).1 = true ↔ ∃ c, n.map Char.toLower = (called c).toList) ∧
    (∀ c, n.map Char.toLower = (called c).toList → (a.set (.name n)).2 = ⟨c, none, [], []⟩) ∧
    ((a.set (.dict n args kwargs)).1 = true ↔ ∃ c, n = (called c).toList) ∧
    ∀ c, n = (called c).toList → (a.set (.dict n args kwargs)).2 = ⟨c, none, args, kwargs⟩ := by
  refine ⟨⟨fun h => ?_, fun ⟨c, h⟩ => ?_⟩, fun c h => ?_, ⟨fun h => ?_, fun ⟨c, h⟩ => ?_⟩, fun c h => ?_⟩
  · obtain ⟨c, hc⟩ := set_name_ok a n h
    exact ⟨c, (lookup_called _ _).1 hc⟩
  · rw [set_name a n c ((lookup_called _ _).2 h)]
  · rw [set_name a n c ((lookup_called _ _).2 h)]
  · obtain ⟨c, hc⟩ := set_dict_ok a n args kwargs h
    exact ⟨c, (lookup_called _ _).1 hc⟩
  · rw [set_dict a n c args kwargs ((lookup_called _ _).2 h)]
  · rw [set_dict a n c args kwargs ((lookup_called _ _).2 h)]

/-- The same name in capital letters is accepted as a string and refused in a dictionary. -/
theorem C93_dict_case_fails : ∃ (a : Aggregator) (n : Name), (a.set (.name n)).1 = true ∧ (a.set (.dict n [] [])).1 = false :=
  ⟨⟨.simple .sum, none, [], []⟩, "MEAN".toList, by decide, by decide⟩

/-- Reading `func` and assigning what was read, to any aggregator, gives the first one back - for functions without arguments (and not the bare name "custom"). -/
theorem C93_round_trip_partial (a b : Aggregator) (g : Given) (h : (a.set g).1 = true) (hargs : (a.set g).2.args = [] ∧ (a.set g).2.kwargs = [])
    (hc : (a.set g).2.code = .custom → ∃ f, g = .callable f) : ∃ g', (a.set g).2.get = some g' ∧ b.set g' = (true, (a.set g).2) := by
  cases g with
  | name n =>
    obtain ⟨c, hl⟩ := set_name_ok a n h
    rw [set_name a n c hl] at hc ⊢
    have hne : c ≠ .custom := fun e => by obtain ⟨f, hf⟩ := hc e; cases hf
    refine ⟨_, get_of c hne _ _ _, ?_⟩
    rw [set_name b _ c (by rw [called_lower]; exact (lookup_called _ _).2 rfl)]
  | dict n args kwargs =>
    obtain ⟨c, hl⟩ := set_dict_ok a n args kwargs h
    rw [set_dict a n c args kwargs hl] at hc hargs ⊢
    obtain ⟨h1, h2⟩ := hargs
    replace h1 : args = [] := h1
    replace h2 : kwargs = [] := h2
    subst h1 h2
    have hne : c ≠ .custom := fun e => by obtain ⟨f, hf⟩ := hc e; cases hf
    refine ⟨_, get_of c hne _ _ _, ?_⟩
    rw [set_name b _ c (by rw [called_lower]; exact (lookup_called _ _).2 rfl)]
  | callable f => exact ⟨.callable f, rfl, rfl⟩
  | other => cases h

example : ∃ g', ((⟨.custom, some 3, [], []⟩ : Aggregator).set (.name "Median".toList)).2.get = some g' ∧
    (⟨.percentile, none, [.number 5], []⟩ : Aggregator).set g' = (true, ⟨.simple .median, none, [], []⟩) :=
  C93_round_trip_partial _ _ _ (by decide) (by decide) (fun h => absurd h (by decide))

/-- Without those conditions: a percentile read back has lost its argument, and the aggregation that gave a number is an error. -/
theorem C93_round_trip_fails : ∃ (a : Aggregator) (g g' : Given) (l : List (Option Rat)), (a.set g).1 = true ∧ (a.set g).2.get = some g' ∧
    (∃ x, (a.set g).2.one l false = .num x) ∧ (a.set g').1 = true ∧ (a.set g').2.one l false = .err := by
  refine ⟨⟨.simple .sum, none, [], []⟩, .dict "percentileofscore".toList [.number 2] [], .name "percentileofscore".toList, [some 1, some 3], by decide, by decide, ⟨50, by decide +kernel⟩, by decide, by decide +kernel⟩

/-- The bare name "custom" is accepted, but there is no function to call. -/
theorem C93_custom_fails (a : Aggregator) : (a.set (.name "custom".toList)).1 = true ∧ (a.set (.name "custom".toList)).2.get = none ∧
    ∀ l, l.filter Option.isSome ≠ [] → ∀ i, (a.set (.name "custom".toList)).2.one l i = .err := by
  rw [set_name a _ .custom (by decide)]
  refine ⟨rfl, rfl, fun l hl i => ?_⟩
  unfold Aggregator.one
  cases i
  · rfl
  · simp only [if_true]
    rw [if_neg (by simpa using hl)]
    rfl

/-- An assignment that is refused changes nothing, if the aggregator has no user function. -/
theorem C93_refused_partial (a : Aggregator) (g : Given) (hu : a.user = none) (h : (a.set g).1 = false) : (a.set g).2 = a := by
  have e : { a with user := none } = a := by cases a; simp only at hu; rw [hu]
  cases g with
  | name n =>
    cases hl : lookup (n.map Char.toLower) with
    | none => simp only [Aggregator.set, hl]; exact e
    | some c => rw [set_name a n c hl] at h; cases h
  | dict n args kwargs =>
    cases hl : lookup n with
    | none => simp only [Aggregator.set, hl]; exact e
    | some c => rw [set_dict a n c args kwargs hl] at h; cases h
  | callable f => cases h
  | other => exact e

example : ((⟨.percentile, none, [.number 5], []⟩ : Aggregator).set (.name "std".toList)).2 = ⟨.percentile, none, [.number 5], []⟩ :=
  C93_refused_partial _ _ rfl (by decide)

/-- A refused assignment loses the user function: the aggregator has none afterwards. -/
theorem C93_refused_fails : ∃ (a : Aggregator) (g : Given), a.get = some (.callable 7) ∧ (a.set g).1 = false ∧ (a.set g).2.get = none :=
  ⟨⟨.custom, some 7, [], []⟩, .name "std".toList, by decide, by decide, by decide⟩

private theorem kindOf_name (t : Name) (k : Kind) : kindOf (.text t) = some k ↔ t = kindName k := by
  constructor
  · intro h
    simp only [kindOf, List.lookup_cons, List.lookup_nil] at h
    split at h
    · rename_i e; cases h; exact eq_of_beq e
    · split at h
      · rename_i e; cases h; exact eq_of_beq e
      · split at h
        · rename_i e; cases h; exact eq_of_beq e
        · split at h
          · rename_i e; cases h; exact eq_of_beq e
          · cases h
  · rintro rfl
    cases k <;> decide

/-- The argument of a percentile, and the score and kind of a score, may be given by position or by name, with the same result; without it, when it is given both ways, and for an unknown kind, the call raises. -/
theorem C93_arguments (l : List (Option Rat)) (args : List Arg) (kwargs : List (Name × Arg)) :
    (args[0]?.isSome = (kwargs.lookup "q".toList).isSome → call .percentile args kwargs l = .err) ∧
    (args[0]?.isSome = (kwargs.lookup "score".toList).isSome → call .percentileofscore args kwargs l = .err) ∧
    (args[1]?.isSome → (kwargs.lookup "kind".toList).isSome → call .percentileofscore args kwargs l = .err) ∧
    (∀ x t, args = [x, .text t] → (∀ k, t ≠ kindName k) → call .percentileofscore args kwargs l = .err) ∧
    (∀ x, call .percentile [] [("q".toList, x)] l = call .percentile [x] [] l) ∧
    (∀ x, call .percentileofscore [] [("score".toList, x)] l = call .percentileofscore [x] [] l) ∧
    ∀ x k, call .percentileofscore [] [("score".toList, x), ("kind".toList, k)] l = call .percentileofscore [x, k] [] l ∧
      call .percentileofscore [x] [("kind".toList, k)] l = call .percentileofscore [x, k] [] l := by
  have twice : ∀ (i : Nat) (n : Name), args[i]?.isSome = (kwargs.lookup n).isSome → argument args kwargs i n = none := by
    intro i n h
    unfold argument
    cases h1 : args[i]? with
    | none =>
      cases h2 : kwargs.lookup n with
      | none => rfl
      | some y => rw [h1, h2] at h; cases h
    | some x =>
      cases h2 : kwargs.lookup n with
      | none => rw [h1, h2] at h; cases h
      | some y => rfl
  refine ⟨fun h => ?_, fun h => ?_, fun h h' => ?_, fun x t ha ht => ?_, fun x => rfl, fun x => rfl, fun x k => ⟨rfl, rfl⟩⟩
  · simp only [call, twice _ _ h]
  · simp only [call, twice _ _ h]
  · obtain ⟨a, ha⟩ := Option.isSome_iff_exists.1 h
    obtain ⟨b, hb⟩ := Option.isSome_iff_exists.1 h'
    simp only [call, ha, hb]
    split
    · rename_i e; cases e
    · rfl
  · subst ha
    have hk : kindOf (.text t) = none := by
      cases hk : kindOf (.text t) with
      | none => rfl
      | some k => exact absurd ((kindOf_name t k).1 hk) (ht k)
    simp only [call]
    split
    · rename_i e
      cases hl : kwargs.lookup "kind".toList with
      | none => rw [hl] at e; simp [hk] at e
      | some y => rw [hl] at e; simp at e
    · rfl

/-- Given once: a number. -/
example : call .percentileofscore [] [("score".toList, .number 2), ("kind".toList, .text "weak".toList)] [some 1, some 3] = .num 50 := by
  decide +kernel

/-! ## Scores -/

private theorem count_le (l : List Rat) (s : Rat) : (l.countP fun x => decide (x ≤ s)) = less l s + equal l s := by
  unfold less equal
  induction l with
  | nil => rfl
  | cons x l ih =>
    rw [List.countP_cons, ih]
    rcases lt_trichotomy x s with h | h | h
    · simp only [List.filter_cons, decide_eq_true h, decide_eq_true h.le, decide_eq_false h.ne, if_true, List.length_cons, Bool.false_eq_true, if_false]; omega
    · subst h
      simp; omega
    · simp only [List.filter_cons, decide_eq_false h.not_ge, decide_eq_false h.not_gt, decide_eq_false h.ne', Bool.false_eq_true, if_false]; omega

private theorem count_lt (l : List Rat) (s : Rat) : (l.countP fun x => decide (x < s)) = less l s := List.countP_eq_length_filter

private theorem range_sum (m : Nat) (a : Rat) : ((List.range m).map fun j : Nat => (100 * (a + (j : Rat) + 1) : Rat)).sum = 50 * m * (2 * a + m + 1) := by
  induction m with
  | zero => simp
  | succ m ih => rw [List.range_succ, List.map_append, List.sum_append, ih]; simp; ring

/-- The score is what the documentation says, for each kind. -/
theorem C93_score (l : List Rat) (hl : l ≠ []) (s : Rat) (k : Kind) : IsScore l s (scoreOf l s k) k := by
  have hn : (l.length : Rat) ≠ 0 := by
    have := List.length_pos_iff.2 hl
    positivity
  cases k with
  | strict =>
    show _ = _
    simp only [scoreOf, count_lt]; field_simp
  | weak =>
    show _ = _
    simp only [scoreOf, count_le]; push_cast; field_simp
  | mean =>
    show _ = _
    simp only [scoreOf, count_le, count_lt]; push_cast; field_simp; ring
  | rank =>
    simp only [IsScore, scoreOf, count_le, count_lt]
    split
    · rename_i h
      rw [if_neg (by omega), h]; push_cast; field_simp; ring
    · rename_i h
      rw [if_pos (by omega), range_sum]; push_cast; field_simp; ring

example : IsScore [1, 2, 2, 5] 2 (scoreOf [1, 2, 2, 5] 2 .rank) .rank ∧ scoreOf [1, 2, 2, 5] 2 .rank = 125 / 2 := ⟨C93_score _ (by simp) _ _, by decide +kernel⟩

/-- Scores are percentages, do not fall when the score does not, do not depend on the order of the values, and the kinds are ordered. -/
theorem C93_score_bounds (l : List Rat) (hl : l ≠ []) (s : Rat) (k : Kind) :
    0 ≤ scoreOf l s k ∧ scoreOf l s k ≤ 100 ∧ (∀ s', s ≤ s' → scoreOf l s k ≤ scoreOf l s' k) ∧ (∀ l', l.Perm l' → scoreOf l' s k = scoreOf l s k) ∧
    scoreOf l s .strict ≤ scoreOf l s k ∧ scoreOf l s k ≤ scoreOf l s .weak := by
  have hn : (0 : Rat) < (l.length : Rat) := by
    have := List.length_pos_iff.2 hl
    positivity
  have h100 : (100 : Rat) / l.length = 2 * (50 / l.length) := by ring
  have h50 : 0 < (50 : Rat) / l.length := by positivity
  have hlen : 50 / (l.length : Rat) * l.length = 50 := by field_simp
  have lt_le : ∀ s, (l.countP fun x => decide (x < s)) ≤ l.countP fun x => decide (x ≤ s) := fun s =>
    List.countP_mono_left fun x _ h => by rw [decide_eq_true_eq] at h ⊢; exact h.le
  have le_len : (l.countP fun x => decide (x ≤ s)) ≤ l.length := List.countP_le_length
  have mono_lt : ∀ s', s ≤ s' → (l.countP fun x => decide (x < s)) ≤ l.countP fun x => decide (x < s') := fun s' hs =>
    List.countP_mono_left fun x _ h => by rw [decide_eq_true_eq] at h ⊢; exact lt_of_lt_of_le h hs
  have mono_le : ∀ s', s ≤ s' → (l.countP fun x => decide (x ≤ s)) ≤ l.countP fun x => decide (x ≤ s') := fun s' hs =>
    List.countP_mono_left fun x _ h => by rw [decide_eq_true_eq] at h ⊢; exact le_trans h hs
  have cross : ∀ s', s < s' → (l.countP fun x => decide (x ≤ s)) ≤ l.countP fun x => decide (x < s') := fun s' hs =>
    List.countP_mono_left fun x _ h => by rw [decide_eq_true_eq] at h ⊢; exact lt_of_le_of_lt h hs
  -- every score is a multiple of `50 / n`
  have form : ∀ s k, ∃ m : Nat, scoreOf l s k = m * (50 / (l.length : Rat)) ∧ 2 * (l.countP fun x => decide (x < s)) ≤ m ∧ m ≤ 2 * (l.countP fun x => decide (x ≤ s)) ∧
      (k = .strict → m = 2 * (l.countP fun x => decide (x < s))) ∧ (k = .weak → m = 2 * (l.countP fun x => decide (x ≤ s))) ∧
      (k = .mean → m = (l.countP fun x => decide (x < s)) + (l.countP fun x => decide (x ≤ s))) := by
    intro s k
    have := lt_le s
    cases k with
    | strict => exact ⟨2 * (l.countP fun x => decide (x < s)), by simp only [scoreOf, h100]; push_cast; ring, by omega, by omega, by simp, by simp, by simp⟩
    | weak => exact ⟨2 * (l.countP fun x => decide (x ≤ s)), by simp only [scoreOf, h100]; push_cast; ring, by omega, by omega, by simp, by simp, by simp⟩
    | mean => exact ⟨(l.countP fun x => decide (x < s)) + (l.countP fun x => decide (x ≤ s)), by simp only [scoreOf]; push_cast; ring, by omega, by omega, by simp, by simp, by simp⟩
    | rank =>
      refine ⟨(l.countP fun x => decide (x < s)) + (l.countP fun x => decide (x ≤ s)) + if (l.countP fun x => decide (x < s)) < (l.countP fun x => decide (x ≤ s)) then 1 else 0,
        by simp only [scoreOf]; push_cast; ring, by omega, ?_, by simp, by simp, by simp⟩
      split <;> omega
  have perm : ∀ l', l.Perm l' → scoreOf l' s k = scoreOf l s k := by
    intro l' hp
    have e1 := hp.countP_eq fun x => decide (x < s)
    have e2 := hp.countP_eq fun x => decide (x ≤ s)
    have e3 := hp.length_eq
    cases k <;> simp only [scoreOf, e1, e2, e3]
  obtain ⟨m, e, h1, h2, -⟩ := form s k
  refine ⟨?_, ?_, fun s' hs => ?_, perm, ?_, ?_⟩
  · rw [e]; positivity
  · rw [e]
    have : (m : Rat) ≤ 2 * l.length := by exact_mod_cast le_trans h2 (by omega)
    nlinarith
  · rcases eq_or_lt_of_le hs with rfl | hs'
    · exact le_rfl
    · obtain ⟨m', e', h1', h2', -⟩ := form s' k
      rw [e, e']
      have : (m : Rat) ≤ m' := by exact_mod_cast le_trans h2 (le_trans (by have := cross s' hs'; omega) h1')
      exact mul_le_mul_of_nonneg_right this h50.le
  · obtain ⟨m', e', h1', h2', h3', -⟩ := form s .strict
    rw [e, e', h3' rfl]
    exact mul_le_mul_of_nonneg_right (by exact_mod_cast h1) h50.le
  · obtain ⟨m', e', h1', h2', -, h3', -⟩ := form s .weak
    rw [e, e', h3' rfl]
    exact mul_le_mul_of_nonneg_right (by exact_mod_cast h2) h50.le

example : scoreOf [1, 2, 2, 5] 1 .mean ≤ scoreOf [1, 2, 2, 5] 2 .mean := (C93_score_bounds [1, 2, 2, 5] (by simp) 1 .mean).2.2.1 2 (by decide +kernel)

/-! ## Aggregation across scenarios -/

private theorem reduce_some (vs : List Rat) : (vs.map some).reduceOption = vs := by
  induction vs with
  | nil => rfl
  | cons x l ih => simpa using ih

private theorem none_not_mem (vs : List Rat) : (none : Option Rat) ∉ vs.map some := by simp

private theorem filter_some (l : List (Option Rat)) : l.filter (·.isSome) = l.reduceOption.map some := by
  induction l with
  | nil => rfl
  | cons x l ih => cases x <;> simp [ih]

private theorem call_q {a : Aggregator} {q : Rat} (h : WithQ a q) (h0 : 0 ≤ q) (h1 : q ≤ 100) (vs : List Rat) (hv : vs ≠ []) :
    ∃ v, call a.code a.args a.kwargs (vs.map some) = .num v ∧ IsPercentile vs q v := by
  obtain ⟨hc, ha⟩ := h
  obtain ⟨v, e, hp, -⟩ := C75_unique vs vs hv (List.Perm.refl _) q h0 h1
  refine ⟨v, ?_, hp⟩
  have harg : argument a.args a.kwargs 0 "q".toList = some (.number q) := by
    rcases ha with ⟨h1, h2⟩ | ⟨h1, h2⟩ <;> rw [h1, h2] <;> rfl
  rw [hc]
  simp only [call, harg]
  rw [if_neg (by rw [not_or, not_lt, not_lt]; exact ⟨h0, h1⟩), if_neg (none_not_mem vs), reduce_some, e]

private theorem call_score {a : Aggregator} {s : Rat} {k : Kind} (h : WithScore a s k) (vs : List Rat) (hv : vs ≠ []) :
    call a.code a.args a.kwargs (vs.map some) = .num (scoreOf vs s k) := by
  obtain ⟨hc, t, ht, ha⟩ := h
  replace ht := (kindOf_name t k).2 ht
  have hv' : vs.map some ≠ [] := by simpa using hv
  rw [hc]
  rcases ha with ⟨h1, h2⟩ | ⟨h1, h2⟩ | ⟨h1, h2⟩ | ⟨h1, h2⟩ | ⟨rfl, h1, h2⟩ | ⟨rfl, h1, h2⟩ <;> rw [h1, h2] <;>
    simp [call, argument, List.lookup, ht, hv, reduce_some]

/-- A percentile across scenarios is the percentile of the values that are numbers if NaN is ignored, and of all values if there is no NaN; a NaN that is not ignored gives NaN.
Without numbers the result is NaN (when NaN is ignored) or an error. -/
theorem C93_percentile (a : Aggregator) (q : Rat) (h : WithQ a q) (h0 : 0 ≤ q) (h1 : q ≤ 100) (l : List (Option Rat)) :
    (l.reduceOption ≠ [] → ∃ v, a.one l true = .num v ∧ IsPercentile l.reduceOption q v) ∧ (l.reduceOption = [] → a.one l true = .nan) ∧
    (none ∈ l → a.one l false = .nan) ∧ (none ∉ l → l ≠ [] → ∃ v, a.one l false = .num v ∧ IsPercentile l.reduceOption q v) ∧ (l = [] → a.one l false = .err) := by
  have harg : argument a.args a.kwargs 0 "q".toList = some (.number q) := by
    rcases h.2 with ⟨h1, h2⟩ | ⟨h1, h2⟩ <;> rw [h1, h2] <;> rfl
  have hq : ¬ (q < 0 ∨ 100 < q) := by rw [not_or, not_lt, not_lt]; exact ⟨h0, h1⟩
  refine ⟨fun hl => ?_, fun hl => ?_, fun hl => ?_, fun hl hne => ?_, fun hl => ?_⟩
  · obtain ⟨v, e, hp⟩ := call_q h h0 h1 _ hl
    refine ⟨v, ?_, hp⟩
    simp only [Aggregator.one, if_true, filter_some]
    rw [if_neg (by simpa using hl), e]
  · simp [Aggregator.one, filter_some, hl]
  · simp only [Aggregator.one, Bool.false_eq_true, if_false, h.1, call, harg]
    rw [if_neg hq, if_pos hl]
  · have e : l = l.reduceOption.map some := by
      rw [← filter_some, List.filter_eq_self.2]
      intro x hx
      cases x with
      | none => exact absurd hx hl
      | some y => rfl
    obtain ⟨v, e', hp⟩ := call_q h h0 h1 l.reduceOption (by intro hh; rw [hh] at e; exact hne e)
    rw [← e] at e'
    exact ⟨v, by simpa [Aggregator.one] using e', hp⟩
  · subst hl
    simp only [Aggregator.one, Bool.false_eq_true, if_false, h.1, call, harg]
    rw [if_neg hq, if_neg (by simp)]
    simp [DurationCurves.percentile]

example : ∃ v, (⟨.percentile, none, [.number 50], []⟩ : Aggregator).one [some 4, none, some 1] true = .num v ∧ IsPercentile [4, 1] 50 v :=
  (C93_percentile _ 50 ⟨rfl, Or.inl ⟨rfl, rfl⟩⟩ (by decide +kernel) (by decide +kernel) _).1 (by decide)

/-- The score across scenarios, likewise, for each way to give score and kind. -/
theorem C93_percentileofscore (a : Aggregator) (s : Rat) (k : Kind) (h : WithScore a s k) (l : List (Option Rat)) :
    (l.reduceOption ≠ [] → ∃ v, a.one l true = .num v ∧ IsScore l.reduceOption s v k) ∧ (l.reduceOption = [] → a.one l true = .nan) ∧
    (none ∈ l → a.one l false = .nan) ∧ (none ∉ l → l ≠ [] → ∃ v, a.one l false = .num v ∧ IsScore l.reduceOption s v k) := by
  refine ⟨fun hl => ⟨_, ?_, C93_score _ hl s k⟩, fun hl => ?_, fun hl => ?_, fun hl hne => ?_⟩
  · simp only [Aggregator.one, if_true, filter_some]
    rw [if_neg (by simpa using hl), call_score h _ hl]
  · simp [Aggregator.one, filter_some, hl]
  · obtain ⟨hc, t, ht, ha⟩ := h
    replace ht := (kindOf_name t k).2 ht
    simp only [Aggregator.one, Bool.false_eq_true, if_false]
    rw [hc]
    rcases ha with ⟨h1, h2⟩ | ⟨h1, h2⟩ | ⟨h1, h2⟩ | ⟨h1, h2⟩ | ⟨rfl, h1, h2⟩ | ⟨rfl, h1, h2⟩ <;> rw [h1, h2] <;>
      simp [call, argument, List.lookup, ht, hl]
  · have e : l = l.reduceOption.map some := by
      rw [← filter_some, List.filter_eq_self.2]
      intro x hx
      cases x with
      | none => exact absurd hx hl
      | some y => rfl
    have hne' : l.reduceOption ≠ [] := by intro hh; rw [hh] at e; exact hne e
    refine ⟨_, ?_, C93_score _ hne' s k⟩
    have e' := call_score h _ hne'
    rw [← e] at e'
    simpa [Aggregator.one] using e'

example : ∃ v, (⟨.percentileofscore, none, [], [("kind".toList, .text "weak".toList), ("score".toList, .number 2)]⟩ : Aggregator).one [some 4, none, some 1] true = .num v ∧ IsScore [4, 1] 2 v .weak :=
  (C93_percentileofscore _ 2 .weak ⟨rfl, "weak".toList, by decide, Or.inr (Or.inr (Or.inr (Or.inl ⟨rfl, rfl⟩)))⟩ _).1 (by decide)

/-- Along time: every column separately, that is the same as aggregating the column. -/
theorem C93_columns (a : Aggregator) (rows : List (List (Option Rat))) (n i : Nat) (hi : i < n) : (a.two rows n).length = n ∧
    (a.two rows n)[i]? = some (a.one (rows.map fun r => r.getD i none) false) := by
  unfold Aggregator.two
  refine ⟨by simp, ?_⟩
  rw [List.getElem?_map, List.getElem?_range hi]
  simp [Aggregator.one]

example : ((⟨.percentileofscore, none, [.number 2], []⟩ : Aggregator).two [[some 1, some 2], [some 3, none]] 2)[0]? = some (.num 50) := by decide +kernel

end Verif.Aggregators

import Verif.Model.Constraints
import Verif.Props.Aggregate
import Mathlib.Tactic.NormNum
import Mathlib.Data.List.ReduceOption
import Mathlib.Data.List.GetD

/-!
# Constraint bounds and feasibility (C43), aggregation across scenarios (C57)
-/

namespace Verif.Constraints

open Verif.Bounds

/-! ## Bounds -/

/-- `x` lies within an optional lower and an optional upper bound; NaN lies within no bounds. -/
def Within (lower upper : Option F) (x : F) : Prop :=
  (∀ l, lower = some l → le l x = true) ∧ (∀ u, upper = some u → le x u = true)

/-- A setter call: `recorder.constraint_lower_bounds = v` or `recorder.constraint_upper_bounds = v`. -/
inductive Call
  | lower (v : Option F)
  | upper (v : Option F)

/-- The bounds after a call (an error leaves them as they are) and whether it succeeded. -/
def Call.run (b : Bounds) : Call → Bounds × Bool
  | .lower v => match b.setLower v with
    | some b' => (b', true)
    | none => (b, false)
  | .upper v => match b.setUpper v with
    | some b' => (b', true)
    | none => (b, false)

/-- The bounds after a sequence of calls. -/
def runCalls (calls : List Call) (b : Bounds) : Bounds := calls.foldl (fun b c => (c.run b).1) b

/-- Values that can be compared, and no upper bound `-inf`. -/
def Call.Proper : Call → Prop
  | .lower v => v ≠ some .nan
  | .upper v => v ≠ some .nan ∧ v ≠ some .negInf

/-- What a bound reads as after it was set to `v`: the absent bound reads as `None` whichever way it was given. -/
def lowerReads (v : Option F) : Option F := if v = some .negInf then none else v
def upperReads (v : Option F) : Option F := if v = some .posInf then none else v

private def Good (b : Bounds) : Prop := b.lower ≠ .nan ∧ b.upper ≠ .nan ∧ b.upper ≠ .negInf ∧ le b.lower b.upper = true

private theorem lt_iff {x y : F} (hx : x ≠ .nan) (hy : y ≠ .nan) : lt x y = !le y x := by
  cases x <;> cases y <;> simp_all [lt, le]

private theorem le_posInf {x : F} (hx : x ≠ .nan) : le x .posInf = true := by
  cases x <;> simp_all [le]

private theorem negInf_le {x : F} (hx : x ≠ .nan) : le .negInf x = true := by
  cases x <;> simp_all [le]

private theorem run_good (b : Bounds) (h : Good b) (c : Call) (hc : c.Proper) : Good (c.run b).1 := by
  obtain ⟨h1, h2, h3, h4⟩ := h
  cases c with
  | lower v =>
    cases v with
    | none => exact ⟨by simp [Call.run, Bounds.setLower], h2, h3, negInf_le h2⟩
    | some v =>
      have hv : v ≠ .nan := fun e => hc (by rw [e])
      simp only [Call.run, Bounds.setLower, Bounds.getUpper, h3, or_false]
      by_cases hu : b.upper = .posInf
      · simp only [hu, if_true]
        exact ⟨hv, by simp, by simp, le_posInf hv⟩
      · simp only [if_neg hu]
        rw [lt_iff h2 hv]
        cases hl : le v b.upper with
        | true => exact ⟨hv, h2, h3, hl⟩
        | false => exact ⟨h1, h2, h3, h4⟩
  | upper v =>
    cases v with
    | none => exact ⟨h1, by simp [Call.run, Bounds.setUpper], by simp [Call.run, Bounds.setUpper], le_posInf h1⟩
    | some v =>
      have hv : v ≠ .nan := fun e => hc.1 (by rw [e])
      have hv' : v ≠ .negInf := fun e => hc.2 (by rw [e])
      simp only [Call.run, Bounds.setUpper, Bounds.getLower]
      by_cases hl : b.lower = .negInf
      · simp only [hl, if_true]
        exact ⟨by simp, hv, hv', negInf_le hv⟩
      · simp only [if_neg hl]
        rw [lt_iff hv h1]
        cases hle : le b.lower v with
        | true => exact ⟨h1, hv, hv', hle⟩
        | false => exact ⟨h1, h2, h3, h4⟩

private theorem runCalls_good (calls : List Call) (b : Bounds) (h : Good b) (hc : ∀ c ∈ calls, c.Proper) :
    Good (runCalls calls b) := by
  unfold runCalls
  induction calls generalizing b with
  | nil => exact h
  | cons c calls ih =>
    rw [List.foldl_cons]
    exact ih _ (run_good b h c (hc c (by simp))) (fun x hx => hc x (by simp [hx]))

private theorem init_good : Good init := ⟨by simp [init], by simp [init], by simp [init], rfl⟩

/-- **C43 (consistency), partial.** After every sequence of assignments — those that raised an error included — starting from a new
recorder, the lower bound is not above the upper bound.
Missing: assignments of NaN, and of `-inf` as upper bound (`C43_neg_inf_fails`). -/
theorem C43_consistent_partial (calls : List Call) (hc : ∀ c ∈ calls, c.Proper) (l u : F)
    (hl : (runCalls calls init).getLower = some l) (hu : (runCalls calls init).getUpper = some u) : le l u = true := by
  obtain ⟨-, -, -, h⟩ := runCalls_good calls init init_good hc
  simp only [Bounds.getLower] at hl
  simp only [Bounds.getUpper] at hu
  split_ifs at hl hu
  · cases hl; cases hu; exact h

/-- **C43 (setters), partial.** Whatever the bounds are, an assignment is rejected, without effect, exactly when it
would put the lower bound above the upper bound; otherwise that bound reads back as set and the other is unchanged.
Missing: `-inf` as upper bound (`C43_neg_inf_fails`). -/
theorem C43_set_partial (b : Bounds) (v : Option F) :
    ((b.setLower v = none ↔ ∃ x u, v = some x ∧ b.getUpper = some u ∧ lt u x = true) ∧
      ∀ b', b.setLower v = some b' → b'.getLower = lowerReads v ∧ b'.getUpper = b.getUpper) ∧
    (v ≠ some .negInf →
      (b.setUpper v = none ↔ ∃ x l, v = some x ∧ b.getLower = some l ∧ lt x l = true) ∧
      ∀ b', b.setUpper v = some b' → b'.getUpper = upperReads v ∧ b'.getLower = b.getLower) := by
  refine ⟨⟨?_, ?_⟩, fun hv' => ⟨?_, ?_⟩⟩
  · cases v with
    | none => simp [Bounds.setLower]
    | some v =>
      simp only [Bounds.setLower]
      cases hu : b.getUpper with
      | none => simp
      | some u => cases hlt : lt u v <;> simp [hlt]
  · intro b' h
    have hb' : b' = { b with lower := v.getD .negInf } := by
      cases v with
      | none => simp only [Bounds.setLower, Option.some.injEq] at h; rw [← h]; rfl
      | some v =>
        simp only [Bounds.setLower] at h
        cases hu : b.getUpper with
        | none => rw [hu] at h; simp only [Option.some.injEq] at h; rw [← h]; rfl
        | some u =>
          rw [hu] at h
          simp only at h
          split_ifs at h
          · simp only [Option.some.injEq] at h; rw [← h]; rfl
    subst hb'
    refine ⟨?_, rfl⟩
    cases v with
    | none => rfl
    | some v => simp [Bounds.getLower, lowerReads]
  · cases v with
    | none => simp [Bounds.setUpper]
    | some v =>
      simp only [Bounds.setUpper]
      cases hu : b.getLower with
      | none => simp
      | some u => cases hlt : lt v u <;> simp [hlt]
  · intro b' h
    have hb' : b' = { b with upper := v.getD .posInf } := by
      cases v with
      | none => simp only [Bounds.setUpper, Option.some.injEq] at h; rw [← h]; rfl
      | some v =>
        simp only [Bounds.setUpper] at h
        cases hu : b.getLower with
        | none => rw [hu] at h; simp only [Option.some.injEq] at h; rw [← h]; rfl
        | some u =>
          rw [hu] at h
          simp only at h
          split_ifs at h
          · simp only [Option.some.injEq] at h; rw [← h]; rfl
    subst hb'
    refine ⟨?_, rfl⟩
    cases v with
    | none => rfl
    | some v =>
      have : v ≠ .negInf := fun e => hv' (by rw [e])
      simp [Bounds.getUpper, upperReads, this]

/-- The constructor accepts exactly consistent pairs of bounds. -/
theorem C43_create (l u : Rat) : (create (some (.fin l)) (some (.fin u)) = none ↔ u < l) ∧
    (l ≤ u → ∃ b, create (some (.fin l)) (some (.fin u)) = some b ∧ b.getLower = some (.fin l) ∧
      b.getUpper = some (.fin u)) := by
  have hred : create (some (.fin l)) (some (.fin u)) =
      if lt (.fin u) (.fin l) then none else some ⟨.fin l, .fin u⟩ := rfl
  rw [hred]
  have hlt : lt (.fin u) (.fin l) = true ↔ u < l := by simp [lt, le]
  refine ⟨by rw [← hlt]; split_ifs with h <;> simp [h], fun h => ?_⟩
  rw [if_neg (by rw [hlt]; exact not_lt.2 h)]
  exact ⟨_, rfl, by simp [Bounds.getLower], by simp [Bounds.getUpper]⟩

/-- **C43 fails for the upper bound `-inf`.** It is accepted, but reads back as absent; the recorder is then no constraint; and
a larger lower bound is accepted. -/
theorem C43_neg_inf_fails : ∃ b, create none (some .negInf) = some b ∧ b.getUpper = none ∧ b.isConstraint = false ∧
    ∃ b', b.setLower (some (.fin 1)) = some b' ∧ lt b'.upper b'.lower = true :=
  ⟨_, rfl, by decide, by decide, _, rfl, by decide⟩

/-- **C43 (violation).** Whatever the bounds are, a recorder with at least one bound is violated exactly when its value does not
lie within its bounds (in particular when it is NaN); without bounds there is an error. -/
theorem C43_violated (b : Bounds) (x : F) :
    (b.isConstraint = false ↔ b.violated x = none) ∧
    (b.isConstraint = true → (b.violated x = some true ↔ ¬ Within b.getLower b.getUpper x) ∧
      (b.violated x = some false ↔ Within b.getLower b.getUpper x)) := by
  unfold Bounds.violated Bounds.isEquality Bounds.isDouble Bounds.isConstraint Within
  cases hl : b.getLower with
  | none =>
    cases hu : b.getUpper with
    | none => simp
    | some u => cases h : le x u <;> simp [h]
  | some l =>
    cases hu : b.getUpper with
    | none => cases h : le l x <;> simp [h]
    | some u =>
      cases he : eq l u with
      | true =>
        have : eq x l = (le l x && le x u) := by
          simp only [eq, Bool.and_eq_true] at he ⊢
          cases l <;> cases u <;> cases x <;> simp_all [le]
          rename_i p q r
          have : p = q := le_antisymm he.1 he.2
          subst this
          rw [Bool.and_comm]
        simp only [this, he]
        cases h1 : le l x <;> cases h2 : le x u <;> simp [h1, h2]
      | false => simp only [he]; cases h1 : le l x <;> cases h2 : le x u <;> simp [h1, h2]

/-- **C43 (feasibility).** The model is feasible exactly when the value of every recorder that has a bound lies within its bounds;
the check never raises. -/
theorem C43_feasible (recs : List (Bounds × F)) :
    ∃ r, isFeasible recs = some r ∧
      (r = true ↔ ∀ p ∈ recs, p.1.isConstraint = true → Within p.1.getLower p.1.getUpper p.2) := by
  induction recs with
  | nil => exact ⟨true, rfl, by simp⟩
  | cons p recs ih =>
    obtain ⟨b, x⟩ := p
    obtain ⟨r, h1, h2⟩ := ih
    obtain ⟨v1, v2⟩ := C43_violated b x
    simp only [isFeasible]
    cases hc : b.isConstraint with
    | false => exact ⟨r, by simp [h1], by simp [h2, hc]⟩
    | true =>
      obtain ⟨w1, w2⟩ := v2 hc
      cases hv : b.violated x with
      | none => rw [v1.2 hv] at hc; cases hc
      | some y =>
        cases y with
        | true =>
          refine ⟨false, by simp, ?_⟩
          simp only [Bool.false_eq_true, false_iff]
          intro h
          exact (w1.1 hv) (h (b, x) (by simp) hc)
        | false =>
          refine ⟨r, by simp [h1], ?_⟩
          rw [h2]
          have := w2.1 hv
          constructor
          · intro h p hp
            rcases List.mem_cons.1 hp with rfl | hp
            · exact fun _ => this
            · exact h p hp
          · exact fun h p hp => h p (by simp [hp])

/-- Calls as in the theorems, one of which is rejected. -/
example : (∀ c ∈ [Call.upper (some (.fin 5)), .lower (some (.fin 7)), .lower (some (.fin 2))], c.Proper) ∧
    (runCalls [Call.upper (some (.fin 5)), .lower (some (.fin 7)), .lower (some (.fin 2))] init) = ⟨.fin 2, .fin 5⟩ ∧
    isFeasible [(⟨.fin 2, .fin 5⟩, .fin 3), (init, .nan)] = some true ∧
    isFeasible [(⟨.fin 2, .fin 5⟩, .nan), (init, .nan)] = some false := by
  refine ⟨by simp [Call.Proper], by decide +kernel, by decide +kernel, by decide +kernel⟩

/-! ## Aggregation -/

/-- `x` is the aggregate of the numbers `l`. -/
def Aggregates (f : Func) (l : List Rat) (x : Rat) : Prop :=
  match f with
  | .sum => x = l.sum
  | .product => x = l.prod
  | .max => x ∈ l ∧ ∀ y ∈ l, y ≤ x
  | .min => x ∈ l ∧ ∀ y ∈ l, x ≤ y
  | .mean => x * (l.length : Rat) = l.sum
  | .median => l.length ≤ 2 * (l.filter fun y => decide (y ≤ x)).length ∧
      l.length ≤ 2 * (l.filter fun y => decide (x ≤ y)).length ∧ (l.length % 2 = 1 → x ∈ l)
  | .countNonzero => x = ((l.filter fun y => decide (y ≠ 0)).length : Nat)

theorem numpy_spec (f : Func) (l : List Rat) (h : l ≠ []) : ∃ x, numpy f l = .num x ∧ Aggregates f l x := by
  have hlen : (l.length : Rat) ≠ 0 := by
    have : l.length ≠ 0 := by simpa using h
    exact_mod_cast this
  cases f with
  | sum => exact ⟨_, rfl, rfl⟩
  | product => exact ⟨_, rfl, rfl⟩
  | max =>
    obtain ⟨m, hm⟩ := Aggregate.foldl_max_some l none (.inl h)
    obtain ⟨h1, h2, -⟩ := (Aggregate.foldl_max l none m).1 hm
    exact ⟨m, by simp only [numpy, hm], by simpa using h1, h2⟩
  | min =>
    obtain ⟨m, hm⟩ := Aggregate.foldl_min_some l h
    obtain ⟨h1, h2, -⟩ := (Aggregate.foldl_min l none m).1 hm
    exact ⟨m, by simp only [numpy, hm], by simpa using h1, h2⟩
  | mean =>
    refine ⟨l.sum / (l.length : Rat), by simp only [numpy, if_neg h], ?_⟩
    simp only [Aggregates]
    exact div_mul_cancel₀ _ hlen
  | median =>
    obtain ⟨m, h1, h2, h3, h4⟩ := Aggregate.C33_median (l.map fun x _ => x) (by simpa using h) 0
    simp only [Aggregate.evaluate, List.map_map, Function.comp_def, List.map_id', Option.some.injEq] at h1
    simp only [List.map_map, Function.comp_def, List.map_id', List.length_map] at h2 h3 h4
    refine ⟨m, by simp only [numpy, if_neg h, h1], h2, h3, fun ho => ?_⟩
    obtain ⟨p, hp, hpm⟩ := h4 ho
    obtain ⟨x, hx, rfl⟩ := List.mem_map.1 hp
    rw [← hpm]; exact hx
  | countNonzero =>
    refine ⟨_, rfl, ?_⟩
    simp only [Aggregates, List.countP_eq_length_filter]

theorem numpyNan_some (f : Func) (l : List Rat) : numpyNan f (l.map some) = numpy f l := by
  have h1 : (l.map some).reduceOption = l := by
    induction l with
    | nil => rfl
    | cons x l ih => rw [List.map_cons, List.reduceOption_cons_of_some, ih]
  have h2 : none ∉ l.map some := by simp
  cases f <;> simp only [numpyNan, h1, if_neg h2]
  simp only [numpy, List.countP_map, Function.comp_def, ne_eq, Option.some.injEq]

private theorem filter_some (l : List (Option Rat)) : l.filter (·.isSome) = l.reduceOption.map some := by
  induction l with
  | nil => rfl
  | cons x l ih =>
    cases x with
    | none => rw [List.reduceOption_cons_of_none, ← ih]; rfl
    | some x => rw [List.reduceOption_cons_of_some, List.map_cons, ← ih]; rfl

/-- **C57 (values).** When no value is NaN, the aggregated value is the aggregate of the per-scenario values, whether or not NaN
values are ignored. -/
theorem C57_values (f : Func) (l : List Rat) (h : l ≠ []) (ignoreNan : Bool) :
    ∃ x, aggregate1d f (l.map some) ignoreNan = .num x ∧ Aggregates f l x := by
  obtain ⟨x, h1, h2⟩ := numpy_spec f l h
  refine ⟨x, ?_, h2⟩
  cases ignoreNan with
  | false => simp only [aggregate1d, numpyNan_some, Bool.false_eq_true, if_false]; exact h1
  | true =>
    have hf : (l.map some).filter (·.isSome) = l.map some := List.filter_eq_self.2 (by simp)
    simp only [aggregate1d, hf, if_true, numpyNan_some, List.length_map]
    rw [if_neg (by simpa using h)]
    exact h1

/-- **C57 (ignoring NaN).** With `ignore_nan` the aggregated value is the aggregate of the values that are not NaN, and NaN if there
are none. -/
theorem C57_ignore_nan (f : Func) (l : List (Option Rat)) :
    ((∀ x ∈ l, x = none) → aggregate1d f l true = .nan) ∧
    ((∃ x ∈ l, x ≠ none) → ∃ x, aggregate1d f l true = .num x ∧ Aggregates f l.reduceOption x) := by
  simp only [aggregate1d, if_true, filter_some, numpyNan_some, List.length_map]
  constructor
  · intro h
    have : l.reduceOption = [] := by
      rw [List.eq_nil_iff_forall_not_mem]
      intro x hx
      cases h (some x) (List.reduceOption_mem_iff.1 hx)
    rw [this]; rfl
  · rintro ⟨x, hx, hn⟩
    obtain ⟨y, rfl⟩ := Option.ne_none_iff_exists'.1 hn
    have hne : l.reduceOption ≠ [] := List.ne_nil_of_mem (List.reduceOption_mem_iff.2 hx)
    rw [if_neg (by simpa using hne)]
    exact numpy_spec f _ hne

/-- **C57 (NaN not ignored).** Without `ignore_nan` one NaN value makes the aggregated value NaN, except when counting, where it
counts as not zero. -/
theorem C57_nan (f : Func) (l : List (Option Rat)) (h : none ∈ l) :
    (f ≠ .countNonzero → aggregate1d f l false = .nan) ∧
    aggregate1d .countNonzero l false = .num ((l.filter fun x => decide (x ≠ some 0)).length : Nat) := by
  constructor
  · intro hf
    cases f <;> simp_all [aggregate1d, numpyNan]
  · simp [aggregate1d, numpyNan, List.countP_eq_length_filter]

theorem numpy_perm (g : Func) {a b : List Rat} (hab : a.Perm b) : numpy g a = numpy g b := by
  have hnil : a = [] ↔ b = [] := by
    constructor
    · rintro rfl; exact hab.nil_eq.symm
    · rintro rfl; exact hab.symm.nil_eq.symm
  cases g <;> simp only [numpy]
  · rw [hab.sum_eq]
  · have := Aggregate.foldl_max_perm (α := Ratᵒᵈ) hab
    rw [show a.foldl Aggregate.minStep none = b.foldl Aggregate.minStep none from this]
  · rw [Aggregate.foldl_max_perm hab]
  · simp only [hnil, hab.sum_eq, hab.length_eq]
  · simp only [hnil, Aggregate.median_perm hab]
  · rw [hab.prod_eq]
  · rw [hab.countP_eq]

/-- **C57 (order).** The aggregated value does not depend on the order of the scenarios. -/
theorem C57_order (f : Func) (l l' : List (Option Rat)) (h : l.Perm l') (ignoreNan : Bool) :
    aggregate1d f l ignoreNan = aggregate1d f l' ignoreNan := by
  have hnan : ∀ (a b : List (Option Rat)), a.Perm b → numpyNan f a = numpyNan f b := by
    intro a b hab
    have hr : a.reduceOption.Perm b.reduceOption := hab.filterMap _
    cases f <;> simp only [numpyNan, hab.mem_iff, numpy_perm _ hr, hab.countP_eq]
  have hfil := h.filter (fun x : Option Rat => x.isSome)
  cases ignoreNan with
  | false => simpa [aggregate1d] using hnan _ _ h
  | true => simp only [aggregate1d, if_true, hfil.length_eq, hnan _ _ hfil]

/-- **C57 (over time), partial.** Recorders that aggregate over time hold for every combination the aggregate of that combination's
values. Missing: ignoring NaN values (`C57_temporal_fails`). -/
theorem C57_temporal_partial (f : Func) (rows : List (List Rat)) (n : Nat) (h : rows ≠ []) (hw : ∀ r ∈ rows, r.length = n) :
    ∃ out, aggregate2d f (rows.map (·.map some)) n false = some out ∧ out.length = n ∧
      ∀ i < n, ∃ x, out.getD i .err = .num x ∧ Aggregates f (rows.map fun r => r.getD i 0) x := by
  have hcol : ∀ i < n, (rows.map (·.map some)).map (fun r : List (Option Rat) => r.getD i none) =
      (rows.map fun r => r.getD i 0).map some := by
    intro i hi
    rw [List.map_map, List.map_map]
    apply List.map_congr_left
    intro r hr
    have := hw r hr
    simp only [Function.comp_def]
    rw [List.getD_eq_getElem _ _ (by simp; omega), List.getD_eq_getElem _ _ (by omega)]
    simp
  have hres : ∀ i < n, ∃ x, numpyNan f ((rows.map (·.map some)).map (fun r : List (Option Rat) => r.getD i none)) = .num x ∧
      Aggregates f (rows.map fun r => r.getD i 0) x := by
    intro i hi
    rw [hcol i hi, numpyNan_some]
    exact numpy_spec f _ (by simpa using h)
  simp only [aggregate2d, Bool.false_eq_true, if_false]
  rw [if_neg]
  · refine ⟨_, rfl, by simp, fun i hi => ?_⟩
    obtain ⟨x, h1, h2⟩ := hres i hi
    refine ⟨x, ?_, h2⟩
    rw [List.getD_eq_getElem _ _ (by simpa using hi)]
    simpa using h1
  · intro he
    obtain ⟨i, hi, hx⟩ := List.mem_map.1 he
    obtain ⟨x, h1, -⟩ := hres i (List.mem_range.1 hi)
    rw [h1] at hx; cases hx

/-- **C57 fails over time.** With `ignore_nan` a recorder that aggregates over time never has values, even if no value is NaN:
`values()` always raises. -/
theorem C57_temporal_fails (f : Func) (rows : List (List (Option Rat))) (n : Nat) : aggregate2d f rows n true = none := rfl

/-- **C57 (aggregated recorders), partial.** In every combination the sum, product, greatest, least or mean of the recorders' values.
Missing: other functions (`C57_recorders_fails`) and NaN values (`C57_recorders_nan_fails`). -/
theorem C57_recorders_partial (f : Func) (l : List Rat) (h : l ≠ []) (hf : f ≠ .median ∧ f ≠ .countNonzero) :
    ∃ x, aggregatedRecorder f (l.map some) = some (.fin x) ∧ Aggregates f l x := by
  have hlen : (l.length : Rat) ≠ 0 := by
    have : l.length ≠ 0 := by simpa using h
    exact_mod_cast this
  have hadd : ∀ (l : List Rat) (a : Rat), (l.map some).foldl nanAdd (some a) = some (a + l.sum) := by
    intro l
    induction l with
    | nil => simp
    | cons x l ih => intro a; rw [List.map_cons, List.foldl_cons]; simp only [nanAdd, ih, List.sum_cons, add_assoc]
  have hmul : ∀ (l : List Rat) (a : Rat), (l.map some).foldl nanMul (some a) = some (a * l.prod) := by
    intro l
    induction l with
    | nil => simp
    | cons x l ih => intro a; rw [List.map_cons, List.foldl_cons]; simp only [nanMul, ih, List.prod_cons, mul_assoc]
  have hmax : ∀ (l : List Rat) (a : Option Rat), (l.map some).foldl takeMax (a.elim .negInf .fin) =
      (l.foldl Aggregate.maxStep a).elim .negInf .fin := by
    intro l
    induction l with
    | nil => intro a; rfl
    | cons x l ih =>
      intro a
      rw [List.map_cons, List.foldl_cons, List.foldl_cons, ← ih]
      congr 1
      cases a with
      | none => simp [takeMax, ofNan, lt, le, Aggregate.maxStep]
      | some y => by_cases hxy : y < x <;> simp [takeMax, ofNan, lt, le, Aggregate.maxStep, hxy]
  have hmin : ∀ (l : List Rat) (a : Option Rat), (l.map some).foldl takeMin (a.elim .posInf .fin) =
      (l.foldl Aggregate.minStep a).elim .posInf .fin := by
    intro l
    induction l with
    | nil => intro a; rfl
    | cons x l ih =>
      intro a
      rw [List.map_cons, List.foldl_cons, List.foldl_cons, ← ih]
      congr 1
      cases a with
      | none => simp [takeMin, ofNan, lt, le, Aggregate.minStep]
      | some y => by_cases hxy : x < y <;> simp [takeMin, ofNan, lt, le, Aggregate.minStep, hxy]
  have hne : ¬ (l.map some).length = 0 := by simpa using h
  obtain ⟨x, h1, h2⟩ := numpy_spec f l h
  refine ⟨x, ?_, h2⟩
  unfold aggregatedRecorder
  simp only [if_neg hne]
  cases f with
  | sum => simp only [numpy, Res.num.injEq] at h1; simp only [hadd, zero_add, h1, ofNan]
  | product => simp only [numpy, Res.num.injEq] at h1; simp only [hmul, one_mul, h1, ofNan]
  | mean =>
    simp only [numpy, if_neg h, Res.num.injEq] at h1
    simp only [hadd, zero_add, Option.map_some, List.length_map, h1, ofNan]
  | max =>
    have := hmax l none
    simp only [Option.elim_none] at this
    rw [this]
    simp only [numpy] at h1
    cases hm : l.foldl Aggregate.maxStep none with
    | none => rw [hm] at h1; cases h1
    | some m => rw [hm] at h1; simp only [Res.num.injEq] at h1; simp only [Option.elim_some, h1]
  | min =>
    have := hmin l none
    simp only [Option.elim_none] at this
    rw [this]
    simp only [numpy] at h1
    cases hm : l.foldl Aggregate.minStep none with
    | none => rw [hm] at h1; cases h1
    | some m => rw [hm] at h1; simp only [Res.num.injEq] at h1; simp only [Option.elim_some, h1]
  | median => exact absurd rfl hf.1
  | countNonzero => exact absurd rfl hf.2

/-- **C57 fails for the median.** An aggregated recorder accepts the functions `median` and `count_nonzero`, but its `values()` always
raises. -/
theorem C57_recorders_fails (l : List (Option Rat)) :
    aggregatedRecorder .median l = none ∧ aggregatedRecorder .countNonzero l = none := by
  unfold aggregatedRecorder
  constructor <;> (simp only; split <;> rfl)

/-- **C57 fails for NaN values.** The greatest of NaN and 1 is NaN across scenarios, but 1 across recorders; and the greatest of
NaN alone is minus infinity. -/
theorem C57_recorders_nan_fails : aggregate1d .max [none, some 1] false = .nan ∧
    aggregatedRecorder .max [none, some 1] = some (.fin 1) ∧ aggregatedRecorder .max [none] = some .negInf :=
  ⟨by decide +kernel, by decide +kernel, by decide +kernel⟩

example : aggregate1d .mean [some 1, none, some 4] true = .num (5 / 2) ∧ aggregate1d .mean [some 1, none, some 4] false = .nan ∧
    aggregate1d .max [some 1, some 4] false = .num 4 := ⟨by decide +kernel, by decide +kernel, by decide +kernel⟩

end Verif.Constraints

import Verif.Spec.RecorderConstructors
import Verif.Proof.Constructors
import Mathlib.Data.Rat.Floor
import Mathlib.Algebra.Order.Field.Rat
import Mathlib.Tactic.Linarith
/-! # Constructors of recorders: what they make, piece by piece -/

namespace Verif.Constructors
open Verif.ParameterLoading Verif.RecorderLoading

theorem does_just {f : Args → Option Obj} {rows : List (Args → Option (String × Arg))} (h : Just f rows) : Does f (fun _ => true) rows := fun a => by rw [h a]; rfl

theorem does_congr {f : Args → Option Obj} {c c' : Args → Bool} {rows : List (Args → Option (String × Arg))} (h : Does f c rows) (e : ∀ a, c a = c' a) : Does f c' rows := fun a => by rw [h a, e a]

theorem row_map (r : Args → Option (String × Arg)) (a : Args) : rowsOf [r] a = (r a).map fun e => [e] := by
  unfold rowsOf
  rw [List.mapM_cons, List.mapM_nil]
  cases r a <;> rfl

theorem rows_two (r r' : Args → Option (String × Arg)) (a : Args) : rowsOf [r, r'] a = (r a).bind fun e => (r' a).map fun e' => [e, e'] := by
  unfold rowsOf
  rw [List.mapM_cons, List.mapM_cons, List.mapM_nil]
  cases r a <;> cases r' a <;> rfl

/-! ## Forms -/

theorem aggregator_eq (v : Arg) : aggregator v = aggregation v := by
  rcases v with v | vs | rs
  · cases v <;> try rfl
    unfold aggregator aggregation
    refine if_congr ?_ rfl rfl
    simp only [aggNames, List.mem_cons, List.not_mem_nil, or_false]
    tauto
  · rfl
  · rfl

theorem objective_eq (v : Arg) : objective v = direction v := by
  rcases v with v | vs | rs
  · cases v <;> try rfl
    unfold objective direction
    refine if_congr ?_ rfl (if_congr ?_ rfl rfl)
    · simp only [List.mem_cons, List.not_mem_nil, or_false]
      tauto
    · simp only [List.mem_cons, List.not_mem_nil, or_false]
      tauto
  · rfl
  · rfl

theorem scenarioAgg_eq (v : Arg) : scenarioAgg v = if v = notGiven then some (.one (.text "mean")) else aggregation v := by
  rcases v with v | vs | rs
  · simp only [notGiven, reduceCtorEq, if_false]
    exact aggregator_eq _
  · rfl
  · cases rs with
    | nil => rfl
    | cons r rs =>
      rw [if_neg (by simp [notGiven])]
      rfl

theorem limit_eq (v : Arg) : (limit v).map asArg = orNull aNumber v := by
  rcases v with v | vs | rs
  · cases v with
    | flag b => cases b <;> simp [limit, asArg, orNull, aNumber, oneNumber]
    | _ => simp [limit, asArg, orNull, aNumber, oneNumber]
  · simp [limit, orNull, aNumber]
  · simp [limit, orNull, aNumber]

theorem limit_number {v : Arg} {q : Option Rat} (h : limit v = some q) : numberOf v = q := by
  rcases v with v | vs | rs
  · cases v with
    | flag b => cases b <;> (simp only [limit, Option.some.injEq] at h; rw [← h]; rfl)
    | null => cases h; rfl
    | num => cases h; rfl
    | _ => cases h
  · cases h
  · cases h

theorem constraint_does : Does constraint inOrder [as "constraint_lower_bounds" (orNull aNumber), as "constraint_upper_bounds" (orNull aNumber)] := by
  intro a
  rw [rows_two]
  unfold constraint as inOrder
  rw [← limit_eq, ← limit_eq]
  cases h1 : limit (a "constraint_lower_bounds") with
  | none => simp
  | some l =>
    cases h2 : limit (a "constraint_upper_bounds") with
    | none => simp
    | some u =>
      rw [limit_number h1, limit_number h2]
      cases l with
      | none => simp [asArg]
      | some l =>
        cases u with
        | none => simp [asArg]
        | some u =>
          by_cases h : u < l
          · have h' : ¬ l ≤ u := not_le.2 h
            simp [h, h']
          · have h' : l ≤ u := not_lt.1 h
            simp [h, h']

theorem nameOr_eq {d d' : Args → Option String} (h : ∀ a, d a = d' a) : Just (nameOr d) [named d'] := by
  intro a
  rw [row_map]
  unfold nameOr named
  rw [h a]
  by_cases hn : a "name" = .one .null
  · rw [hn]
    simp only [if_true]
    rw [Option.map_map]
    rfl
  · rw [if_neg hn]
    generalize a "name" = v at hn
    rcases v with v | vs | rs
    · cases v <;> first | rfl | exact absurd rfl hn
    · rfl
    · rfl

theorem recorder_does {d d' : Args → Option String} (h : ∀ a, d a = d' a) : Does (recorderAttrs d) inOrder (recorded d') :=
  does_congr (does_cons (does_just (nameOr_eq h)) (does_cons (does_just just_any) (does_cons (does_just just_any) (does_cons (does_just just_any) (does_cons (does_just (just_attr objective_eq))
    (does_cons (does_just (just_attr number_eq)) (does_cons constraint_does (does_cons (does_just (just_attr scenarioAgg_eq)) does_nil)))))))) fun a => by simp

theorem isNode_eq (v : Arg) : isNode v = aNode v := by rcases v with v | vs | rs <;> rfl

theorem isParam_eq (v : Arg) : RecorderLoading.isParam v = aParam v := by rcases v with v | vs | rs <;> rfl

theorem scenario_eq (v : Arg) : scenario v = orNull aScenario v := by
  rcases v with v | vs | rs
  · cases v <;> simp [scenario, orNull, aScenario]
  · simp [scenario, orNull, aScenario]
  · simp [scenario, orNull, aScenario]

theorem array_eq (v : Arg) : array v = theNumbers v := numbers_eq v

theorem whole_eq (v : Arg) : whole v = aWhole v := by
  rcases v with v | vs | rs
  · cases v with
    | flag b => cases b <;> rfl
    | _ => rfl
  · rfl
  · rfl

theorem component_eq (v : Arg) : component v = aComponent v := by rcases v with v | vs | rs <;> rfl

theorem isRecorder_eq (v : Arg) : isRecorder v = aRecorder v := by rcases v with v | vs | rs <;> rfl

theorem listOrNone_eq (v : Arg) : listOrNone v = orNull aList v := by
  rcases v with v | vs | rs
  · cases v <;> simp [listOrNone, orNull, aList]
  · simp [listOrNone, orNull, aList]
  · simp [listOrNone, orNull, aList]

theorem eventLength_eq (v : Arg) : eventLength v = (numberOf v).bind fun q => if 1 ≤ q then some v else none := by
  rcases v with v | vs | rs
  · cases v with
    | flag b => cases b <;> simp [eventLength, numberOf, oneNumber]
    | _ => simp [eventLength, numberOf, oneNumber]
  · rfl
  · rfl

theorem trunc_eq (q : Rat) : ((q.num.tdiv q.den : Int) : Rat) = if 0 ≤ q then (q.floor : Rat) else (q.ceil : Rat) := by
  split
  · rename_i h
    rw [show q.floor = ⌊q⌋ from rfl, Rat.floor_def', Int.tdiv_eq_ediv_of_nonneg (Rat.num_nonneg.2 h)]
  · rename_i h
    have h' : 0 ≤ -q.num := by
      have := Rat.num_nonneg.not.2 h
      omega
    rw [show q.ceil = ⌈q⌉ from Rat.ceil_eq_neg_floor_neg q, Rat.ceil_def', ← Int.tdiv_eq_ediv_of_nonneg h', Int.neg_tdiv, neg_neg]

theorem count_eq (v : Arg) : (count v).map (fun q => Arg.one (.num q)) = aCount v := by
  unfold aCount
  rcases v with v | vs | rs
  · cases v with
    | flag b =>
      cases b
      · rw [if_neg (by simp)]
        decide +kernel
      · rw [if_neg (by simp)]
        decide +kernel
    | num q =>
      rw [if_neg (by simp)]
      show some (Arg.one (.num _)) = some (Arg.one (.num _))
      rw [trunc_eq]
    | null => rfl
    | _ => rfl
  · rfl
  · rfl

theorem counts_eq (v : Arg) (h : (count v).isSome = true) : counts v = !decide (v = .one .null ∨ v = .one (.num 0) ∨ v = .one (.flag false)) := by
  unfold counts
  rcases v with v | vs | rs
  · cases v with
    | flag b => cases b <;> simp [numberOf, oneNumber]
    | num q => simp [numberOf, oneNumber]
    | null => simp
    | _ => cases h
  · cases h
  · cases h

theorem rolling_does : Does rollingCounts (fun a => counts (a "timesteps") || counts (a "days")) [as "timesteps" aCount, as "days" aCount] := by
  intro a
  rw [rows_two]
  unfold rollingCounts as
  rw [← count_eq, ← count_eq]
  cases h1 : count (a "timesteps") with
  | none => simp
  | some t =>
    cases h2 : count (a "days") with
    | none => simp
    | some d =>
      show _ = if (counts (a "timesteps") || counts (a "days")) = true then _ else none
      rw [counts_eq _ (by rw [h1]; rfl), counts_eq _ (by rw [h2]; rfl)]
      simp only [List.all_cons, List.all_nil, Bool.and_true, Option.bind_some, Option.map_some]
      cases decide (a "timesteps" = .one .null ∨ a "timesteps" = .one (.num 0) ∨ a "timesteps" = .one (.flag false)) <;>
        cases decide (a "days" = .one .null ∨ a "days" = .one (.num 0) ∨ a "days" = .one (.flag false)) <;> rfl

theorem temporal_eq (old : String) : Just (temporal old) [overTimeOr old] := by
  intro a
  rw [row_map]
  unfold temporal overTimeOr
  have e : absent = notGiven := rfl
  rw [e, aggregator_eq, aggregator_eq]
  by_cases h1 : a old = notGiven <;> by_cases h2 : a "temporal_agg_func" = notGiven
  · simp [h1, h2]
  · simp [h1, h2, Function.comp_def]
  · simp [h1, h2, Function.comp_def]
  · simp [h1, h2]

theorem target_eq (k : String) : Just (target k) [forPercentiles k] := by
  intro a
  rw [row_map]
  unfold target forPercentiles
  have hn : ((numbers (a "percentiles")).getD []).length = howMany (theNumbers (a "percentiles")) := by
    rw [← numbers_eq]
    cases numbers (a "percentiles") <;> rfl
  simp only [hn]
  generalize howMany (theNumbers (a "percentiles")) = n
  rcases a k with v | vs | rs
  · cases v <;> simp [orNull, ofLength, theNumbers, howMany] <;> exact ite_self _
  · simp only [orNull, reduceCtorEq, if_false]
    cases h4 : numbers (.many vs) with
    | none =>
      rw [theNumbers_none h4]
      unfold ofLength
      simp
    | some bs =>
      rw [theNumbers_eq h4]
      unfold ofLength
      simp only [Option.bind_some, howMany]
      split <;> simp_all
  · simp only
    cases rs with
    | nil => by_cases hl : ([] : List (List Rat)).length = n <;> simp [hl, aTable]
    | cons r rs =>
      by_cases hl : (r :: rs).length = n
      · by_cases hc : ∀ r' ∈ rs, r'.length = r.length
        · have e : aTable (.rows (r :: rs)) = some (.rows (r :: rs)) := if_pos hc
          rw [if_pos ⟨hl, fun r' h' => by
            rcases List.mem_cons.1 h' with rfl | h'
            · rfl
            · exact hc r' h'⟩, if_pos hl, e]
          rfl
        · have e : aTable (.rows (r :: rs)) = none := if_neg hc
          rw [if_neg fun h => hc fun r' h' => h.2 r' (List.mem_cons_of_mem _ h'), if_pos hl, e]
          rfl
      · rw [if_neg fun h => hl h.1, if_neg hl]
        rfl

theorem oneTarget_does : Does oneTarget (fun a => decide (a "lower_target_fdc" ≠ .one .null ∨ a "upper_target_fdc" ≠ .one .null)) [] := by
  intro a
  unfold oneTarget given
  by_cases h1 : a "lower_target_fdc" = .one .null <;> by_cases h2 : a "upper_target_fdc" = .one .null <;> simp [h1, h2, rowsOf]

theorem firstGiven_one (k : String) (o : Arg) (a : Args) : firstGiven [k] o a = if a k = notGiven then o else a k := by
  unfold firstGiven
  by_cases h : a k = notGiven <;> simp [h]

theorem firstGiven_two (k k' : String) (o : Arg) (a : Args) : firstGiven [k, k'] o a = if a k ≠ notGiven then a k else if a k' ≠ notGiven then a k' else o := by
  unfold firstGiven
  by_cases h : a k = notGiven <;> by_cases h' : a k' = notGiven <;> simp [h, h']

theorem windowAgg_eq : Just windowAgg [fun a => (aggregation (firstGiven ["temporal_agg_func"] (a "agg_func") a)).map fun v => ("temporal_agg_func", v)] := by
  intro a
  rw [row_map, firstGiven_one]
  unfold windowAgg
  rw [aggregator_eq, Option.map_map]
  rfl

theorem across_eq (a : Args) : acrossRecorders a = aggregation (firstGiven ["recorder_agg_func"] (a "agg_func") a) := by
  rw [firstGiven_one]
  exact aggregator_eq _

theorem eventAgg_eq (k : String) (o : Arg) : Just (eventAgg k o) [fun a => some (k, firstGiven [k, "agg_func"] o a)] := by
  intro a
  rw [row_map, firstGiven_two]
  rfl

theorem flowFactors_eq : Just flowFactors [as "nodes" aList,
    fun a => if a "factors" = .one .null then some ("factors", .many (List.replicate (howMany (aList (a "nodes"))) (.num 1))) else as "factors" theNumbers a] := by
  intro a
  rw [rows_two]
  unfold flowFactors as
  rcases a "nodes" with v | ns | rs
  · rfl
  · simp only [aList, Option.map_some, Option.bind_some, howMany]
    by_cases h : a "factors" = .one .null
    · rw [h]
      simp
    · rw [if_neg h]
      generalize a "factors" = v at h
      rw [← numbers_eq]
      have : ∀ x : Option (List Value), Option.map (fun fs => [("nodes", Arg.many ns), ("factors", Arg.many fs)]) x =
          Option.map (fun e' => [("nodes", Arg.many ns), e']) (Option.map (fun v => ("factors", v)) (Option.map Arg.many x)) := fun x => by cases x <;> rfl
      rcases v with v | vs | rs
      · cases v <;> first | exact this _ | exact absurd rfl h
      · exact this _
      · exact this _
  · rfl

/-! ## Classes -/

/-- A class whose checks before the body are those of its attributes. -/
theorem follows_does {c : Class} {s : Sig} (h1 : c.args = s.args) (h3 : Does c.body s.cond s.attrs) (h4 : ∀ a, (rowsOf s.attrs a).isSome = true → c.early a = true) : Follows c s := by
  refine ⟨h1, fun a => ?_⟩
  rw [← h3 a]
  split
  · rfl
  · rename_i he
    rw [h3 a]
    split
    · cases hr : rowsOf s.attrs a with
      | none => rfl
      | some o => exact absurd (h4 a (by rw [hr]; rfl)) he
    · rfl

theorem ofNode_eq (cls : String) (a : Args) : RecorderLoading.ofNode cls a = nodeName cls a := by
  unfold RecorderLoading.ofNode nodeName
  rcases a "node" with v | vs | rs
  · cases v <;> rfl
  · rfl
  · rfl

theorem ofParam_eq (k cls : String) (a : Args) : RecorderLoading.ofParam k cls a = paramName k cls a := by
  unfold RecorderLoading.ofParam paramName
  rcases a k with v | vs | rs
  · cases v with
    | param p => cases p <;> simp [toString]
    | _ => rfl
  · rfl
  · rfl

theorem nodeWith_follows {cls : String} {steps : List Step} {args args' : List (String × Option Arg)} {body : List (Args → Option Obj)} {rows : List (Args → Option (String × Arg))} {c : Args → Bool}
    (ha : args = args') (h : Does (seq body) c rows) : Follows (nodeWith cls steps args body) (ofNode cls args' rows c) := by
  refine follows_does ?_ ?_ ?_
  · rw [← ha]
    simp [nodeWith, ofNode, recorderArgs, everyRecorder, meanAgg, req, needs, opt, textByDefault, falseByDefault, nullByDefault, byDefault]
  · exact does_congr (does_cons (recorder_does (ofNode_eq cls)) (does_cons (does_just (just_attr isNode_eq)) h)) fun a => by simp [ofNode]
  · intro a h
    exact typedNode_of' (as_some h "node" aNode (by simp [ofNode]))

theorem nodeWith_just {cls : String} {steps : List Step} {args args' : List (String × Option Arg)} {body : List (Args → Option Obj)} {rows : List (Args → Option (String × Arg))}
    (ha : args = args') (h : Just (seq body) rows) : Follows (nodeWith cls steps args body) (ofNode cls args' rows) := nodeWith_follows ha (does_just h)

theorem paramWith_just {cls k : String} {steps : List Step} {args args' : List (String × Option Arg)} {body : List (Args → Option Obj)} {rows : List (Args → Option (String × Arg))}
    (ha : args = args') (h : Just (seq body) rows) : Follows (paramWith cls k steps args body) (ofParam cls k args' rows) := by
  refine follows_does ?_ ?_ ?_
  · rw [← ha]
    simp [paramWith, ofParam, recorderArgs, everyRecorder, meanAgg, req, needs, opt, textByDefault, falseByDefault, nullByDefault, byDefault]
  · exact does_congr (does_cons (recorder_does (ofParam_eq k cls)) (does_cons (does_just (just_attr isParam_eq)) (does_just h))) fun a => by simp [ofParam]
  · intro a h
    exact typedParameter_of' (as_some h k aParam (by simp [ofParam]))

theorem over_eq : Just (attr "temporal_agg_func" aggregator) [overTime] := just_attr aggregator_eq

theorem factor_eq {k : String} : Just (attr k number) [as k aNumber] := just_attr number_eq

theorem fdc_eq : Just (seq fdcBody) duration := just_cons (temporal_eq _) (just_cons factor_eq (just_cons (just_attr array_eq) just_nil))

theorem just_append {fs gs : List (Args → Option Obj)} {r1 r2 : List (Args → Option (String × Arg))} (h1 : Just (seq fs) r1) (h2 : Just (seq gs) r2) : Just (seq (fs ++ gs)) (r1 ++ r2) := by
  intro a
  rw [rowsOf_append, ← h1 a, ← h2 a]
  unfold seq
  rw [List.mapM_append]
  cases List.mapM (fun f : Args → Option Obj => f a) fs with
  | none => rfl
  | some x =>
    cases List.mapM (fun f : Args → Option Obj => f a) gs with
    | none => rfl
    | some y => simp

theorem does_append {fs gs : List (Args → Option Obj)} {c : Args → Bool} {r1 r2 : List (Args → Option (String × Arg))} (h1 : Just (seq fs) r1) (h2 : Does (seq gs) c r2) : Does (seq (fs ++ gs)) c (r1 ++ r2) := by
  intro a
  have e : seq (fs ++ gs) a = (seq fs a).bind fun x => (seq gs a).map fun y => x ++ y := by
    unfold seq
    rw [List.mapM_append]
    cases List.mapM (fun f : Args → Option Obj => f a) fs with
    | none => rfl
    | some x =>
      cases List.mapM (fun f : Args → Option Obj => f a) gs with
      | none => rfl
      | some y => simp
  rw [e, h1 a, h2 a, rowsOf_append]
  cases h : c a
  · cases rowsOf r1 a <;> simp
  · simp

theorem power_eq : Just (seq powerBody) powerAttrs :=
  just_cons (just_attr parameter_eq) (just_cons factor_eq (just_cons factor_eq (just_cons factor_eq (just_cons factor_eq (just_cons factor_eq just_nil)))))

theorem powerArgs_eq : powerArgs = powerSig := by decide +kernel

theorem named_eq : recorderArgs.filter (fun e => e.1 != "name") = namedRecorder := by decide +kernel

/-- All classes of recorders. -/
theorem records_follows {cls : String} {c : Class} {s : Sig} (h : Records cls c s) : Follows c s := by
  cases h with
  | node => exact nodeWith_just (steps := []) (args := []) (body := []) rfl just_nil
  | numpyNode => exact nodeWith_just rfl (just_cons over_eq (just_cons factor_eq just_nil))
  | totalFlow => exact nodeWith_just rfl (just_cons factor_eq just_nil)
  | fdc => exact nodeWith_just rfl fdc_eq
  | seasonal => exact nodeWith_just rfl (just_append fdc_eq (just_cons (just_attr list_eq) just_nil))
  | deviation =>
    refine nodeWith_follows rfl (does_append fdc_eq (does_congr (does_cons oneTarget_does (does_just (just_cons (target_eq _) (just_cons (target_eq _) (just_cons (just_attr scenario_eq) just_nil))))) ?_))
    intro a
    exact Bool.and_true _
  | comparison => exact nodeWith_just rfl (just_cons over_eq (just_cons factor_eq (just_cons just_any just_nil)))
  | threshold => exact nodeWith_just rfl (just_cons factor_eq (just_cons (just_attr predicate_eq) just_nil))
  | hydropower => exact nodeWith_just (by rw [powerArgs_eq]; rfl) (just_cons over_eq (just_cons factor_eq power_eq))
  | energy => exact nodeWith_just powerArgs_eq power_eq
  | rollingMean =>
    refine nodeWith_follows rfl (does_congr (does_cons rolling_does does_nil) ?_)
    intro a
    exact Bool.and_true _
  | numpyStorageBase => exact nodeWith_just rfl (just_cons over_eq just_nil)
  | numpyStorage => exact nodeWith_just rfl (just_cons over_eq (just_cons just_any just_nil))
  | normalised => exact nodeWith_just rfl (just_cons over_eq (just_cons (just_attr parameter_eq) just_nil))
  | sdc => exact nodeWith_just rfl (just_cons (temporal_eq _) (just_cons just_any (just_cons (just_attr array_eq) just_nil)))
  | minimumThreshold => exact nodeWith_just rfl (just_cons factor_eq just_nil)
  | kde => exact nodeWith_just rfl (just_cons over_eq (just_cons just_any (just_cons just_any (just_cons just_any (just_cons just_any (just_cons just_any just_nil))))))
  | normalisedKde => exact nodeWith_just rfl (just_cons over_eq (just_cons (just_attr parameter_eq) (just_cons just_any (just_cons just_any (just_cons just_any (just_cons just_any just_nil))))))
  | parameter => exact paramWith_just rfl just_nil
  | numpyParameter => exact paramWith_just rfl (just_cons over_eq just_nil)
  | totalParameter => exact paramWith_just rfl (just_cons factor_eq (just_cons just_any just_nil))
  | meanParameter => exact paramWith_just rfl (just_cons factor_eq just_nil)
  | rollingWindow => exact paramWith_just rfl (just_cons (just_attr whole_eq) (just_cons windowAgg_eq just_nil))
  | timestepCount => exact paramWith_just rfl (just_cons (just_attr whole_eq) just_nil)
  | annualCount => exact paramWith_just rfl (just_cons (just_attr whole_eq) just_nil)
  | annualThreshold =>
    refine follows_does (show recorderArgs.filter (fun e => e.1 != "name") ++ _ = namedRecorder ++ _ by rw [named_eq]; rfl) ?_ ?_
    · have hr : ∀ a, ofClass cls a = (fun _ : Args => some cls) a := fun _ => rfl
      have h := just_cons (just_attr (k := "parameters") list_eq) (just_cons (just_attr (k := "threshold") whole_eq) (just_cons (just_attr (k := "exclude_months") listOrNone_eq)
        (just_cons (just_any (k := "include_from_month")) (just_cons (just_any (k := "include_from_day")) (just_cons (just_any (k := "include_to_month")) (just_cons (just_any (k := "include_to_day"))
        (just_cons over_eq just_nil)))))))
      exact does_congr (does_cons (recorder_does hr) (does_just h)) fun a => Bool.and_true _
    · intro a h
      have h1 := as_some h "parameters" aList (by simp)
      have h2 := as_some h "threshold" aWhole (by simp)
      have h3 := as_some h "exclude_months" (orNull aList) (by simp)
      rw [← listOrNone_eq] at h3
      rw [← whole_eq] at h2
      have h4 : (listOrNone (a "parameters")).isSome = true := by
        rw [listOrNone_eq]
        unfold orNull
        split
        · rfl
        · exact h1
      simp [RecorderLoading.annualThreshold, h2, h3, h4]
  | annualFlow =>
    refine follows_does (show recorderArgs.filter (fun e => e.1 != "name") ++ _ = namedRecorder ++ _ by rw [named_eq]; rfl) ?_ ?_
    · have hr : ∀ a, ofClass cls a = (fun _ : Args => some cls) a := fun _ => rfl
      exact does_congr (does_cons (recorder_does hr) (does_just (just_cons flowFactors_eq (just_cons over_eq just_nil)))) fun a => Bool.and_true _
    · intro a h
      have h1 := as_some h "nodes" aList (by simp)
      show (listOrNone (a "nodes")).isSome = true
      rw [listOrNone_eq]
      unfold orNull
      split
      · rfl
      · exact h1
  | aggregated =>
    have hp : Just (fun a => (acrossRecorders a).map fun v => [("recorder_agg_func", v)]) [fun a => (aggregation (firstGiven ["recorder_agg_func"] (a "agg_func") a)).map fun v => ("recorder_agg_func", v)] := by
      intro a
      rw [row_map, Option.map_map]
      show (acrossRecorders a).map _ = _
      rw [across_eq]
      rfl
    refine follows_does rfl ?_ ?_
    · have hr : ∀ a, ofClass cls a = (fun _ : Args => some cls) a := fun _ => rfl
      exact does_congr (does_cons (recorder_does hr) (does_just (just_cons hp (just_cons (just_attr list_eq) just_nil)))) fun a => Bool.and_true _
    · intro a h
      have h1 := rowsOf_some h (r := fun a => (aggregation (firstGiven ["recorder_agg_func"] (a "agg_func") a)).map fun v => ("recorder_agg_func", v)) (by simp)
      show (acrossRecorders a).isSome = true
      rw [across_eq]
      simpa using h1
  | event =>
    refine follows_does rfl ?_ fun _ _ => rfl
    have hr : ∀ a, ofClass cls a = (fun _ : Args => some cls) a := fun _ => rfl
    exact does_congr (does_cons (recorder_does hr) (does_just (just_cons (eventAgg_eq _ _) (just_cons (just_attr component_eq) (just_cons (just_attr eventLength_eq) (just_cons (just_attr parameter_eq)
      just_nil)))))) fun a => Bool.and_true _
  | eventDuration =>
    refine follows_does rfl ?_ fun _ _ => rfl
    have hr : ∀ a, ofClass cls a = (fun _ : Args => some cls) a := fun _ => rfl
    exact does_congr (does_cons (recorder_does hr) (does_just (just_cons (eventAgg_eq _ _) (just_cons (just_attr isRecorder_eq) just_nil)))) fun a => Bool.and_true _
  | eventStatistic =>
    refine follows_does rfl ?_ fun _ _ => rfl
    have hr : ∀ a, ofClass cls a = (fun _ : Args => some cls) a := fun _ => rfl
    exact does_congr (does_cons (recorder_does hr) (does_just (just_cons (eventAgg_eq _ _) (just_cons (eventAgg_eq _ _) (just_cons (just_attr isRecorder_eq) just_nil))))) fun a => Bool.and_true _

end Verif.Constructors

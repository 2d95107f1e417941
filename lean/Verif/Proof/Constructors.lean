import Verif.Spec.Constructors
import Verif.Proof.ParameterLoading
import Mathlib.Tactic.Tauto
/-! # Constructors: what they make, piece by piece -/

namespace Verif.Constructors
open Verif.ParameterLoading

/-- What is kept in rows. -/
def rowsOf (rows : List (Args → Option (String × Arg))) (a : Args) : Option Obj := rows.mapM fun r : Args → Option (String × Arg) => r a

/-- A piece of a constructor makes some attributes under a condition. -/
def Does (f : Args → Option Obj) (cond : Args → Bool) (rows : List (Args → Option (String × Arg))) : Prop :=
  ∀ a, f a = if cond a = true then rowsOf rows a else none

theorem rowsOf_append (r1 r2 : List (Args → Option (String × Arg))) (a : Args) : rowsOf (r1 ++ r2) a = (rowsOf r1 a).bind fun x => (rowsOf r2 a).map fun y => x ++ y := by
  unfold rowsOf
  rw [List.mapM_append]
  cases List.mapM (fun r : Args → Option (String × Arg) => r a) r1 with
  | none => rfl
  | some x =>
    cases List.mapM (fun r : Args → Option (String × Arg) => r a) r2 with
    | none => rfl
    | some y => rfl

theorem seq_cons (f : Args → Option Obj) (fs : List (Args → Option Obj)) (a : Args) : seq (f :: fs) a = (f a).bind fun x => (seq fs a).map fun y => x ++ y := by
  unfold seq
  rw [List.mapM_cons]
  cases f a with
  | none => rfl
  | some x =>
    cases List.mapM (fun f : Args → Option Obj => f a) fs with
    | none => rfl
    | some y => rfl

theorem does_nil : Does (seq []) (fun _ => true) [] := fun _ => rfl

theorem does_cons {f : Args → Option Obj} {fs : List (Args → Option Obj)} {c1 c2 : Args → Bool} {r1 r2 : List (Args → Option (String × Arg))} (h1 : Does f c1 r1) (h2 : Does (seq fs) c2 r2) :
    Does (seq (f :: fs)) (fun a => c1 a && c2 a) (r1 ++ r2) := by
  intro a
  rw [seq_cons, h1 a, h2 a, rowsOf_append]
  cases h : c1 a
  · simp [h]
  · cases h' : c2 a
    · cases rowsOf r1 a <;> simp [h, h']
    · simp [h, h']

/-- A piece without conditions. -/
def Just (f : Args → Option Obj) (rows : List (Args → Option (String × Arg))) : Prop := ∀ a, f a = rowsOf rows a

theorem just_nil : Just (seq []) [] := fun _ => rfl

theorem just_cons {f : Args → Option Obj} {fs : List (Args → Option Obj)} {r1 r2 : List (Args → Option (String × Arg))} (h1 : Just f r1) (h2 : Just (seq fs) r2) : Just (seq (f :: fs)) (r1 ++ r2) := by
  intro a
  rw [seq_cons, h1 a, h2 a, rowsOf_append]

theorem just_attr {k : String} {conv f : Arg → Option Arg} (h : ∀ v, conv v = f v) : Just (attr k conv) [as k f] := by
  intro a
  show (conv (a k)).map _ = _
  rw [h]
  cases h' : f (a k) with
  | none => simp [rowsOf, as, h']
  | some v => simp [rowsOf, as, h']

theorem just_any {k : String} : Just (attr k whatever) [any k] := fun _ => rfl

/-- The model of a class does what its description says. -/
structure Follows (c : Class) (s : Sig) : Prop where
  args : c.args = s.args
  make : ∀ a, (if c.early a = true then c.body a else none) = if s.cond a = true then rowsOf s.attrs a else none

theorem arg_eq (c : Class) (kw : Kw) (k : String) : c.arg kw k = valueOf c.args kw k := by
  unfold Class.arg valueOf
  cases kw.lookup k with
  | some v => rfl
  | none =>
    cases c.args.lookup k with
    | none => rfl
    | some d => cases d <;> rfl

theorem wellCalled_iff (c : Class) (kw : Kw) : c.callable kw = true ↔ WellCalled c.args kw := by
  rw [callable_iff]
  unfold WellCalled
  refine and_congr Iff.rfl (and_congr ?_ ?_)
  · simp only [List.mem_map]
  · constructor
    · intro h a ha h0
      obtain ⟨v, hv⟩ := h a ha h0
      exact List.mem_map.2 ⟨_, hv, rfl⟩
    · intro h a ha h0
      obtain ⟨⟨k, v⟩, he, rfl⟩ := List.mem_map.1 (h a ha h0)
      exact ⟨v, he⟩

theorem follows_make {c : Class} {s : Sig} (h : Follows c s) (kw : Kw) : construct c kw = s.make kw := by
  unfold construct Sig.make
  have e : c.arg kw = valueOf s.args kw := by
    funext k
    rw [arg_eq, h.args]
  have e2 := wellCalled_iff c kw
  rw [h.args] at e2
  have := h.make (valueOf s.args kw)
  rw [e]
  by_cases hw : WellCalled s.args kw
  · rw [e2.2 hw]
    simp only [Bool.true_and, hw, true_and]
    exact this
  · have : c.callable kw = false := by rw [← Bool.not_eq_true, e2]; exact hw
    rw [this]
    simp [hw]

/-- A class without checks of its own. -/
theorem follows_just {c : Class} {s : Sig} (h1 : c.args = s.args) (h2 : ∀ a, s.cond a = true) (h3 : Just c.body s.attrs) (h4 : ∀ a, (rowsOf s.attrs a).isSome = true → c.early a = true) : Follows c s := by
  refine ⟨h1, fun a => ?_⟩
  rw [if_pos (h2 a), ← h3 a]
  split
  · rfl
  · rename_i he
    cases hr : c.body a with
    | none => rfl
    | some o =>
      rw [h3 a] at hr
      exact absurd (h4 a (by rw [hr]; rfl)) he

/-- Each row of an accepted object. -/
theorem rowsOf_some {rows : List (Args → Option (String × Arg))} {a : Args} (h : (rowsOf rows a).isSome = true) {r : Args → Option (String × Arg)} (hr : r ∈ rows) : (r a).isSome = true := by
  obtain ⟨o, ho⟩ := Option.isSome_iff_exists.1 h
  obtain ⟨y, -, hy⟩ := forall₂_mem_left (mapM_forall₂.1 ho) hr
  rw [hy]; rfl

theorem as_some {rows : List (Args → Option (String × Arg))} {a : Args} (h : (rowsOf rows a).isSome = true) (k : String) (f : Arg → Option Arg) (hr : as k f ∈ rows) : (f (a k)).isSome = true := by
  have := rowsOf_some h hr
  unfold as at this
  rwa [Option.isSome_map] at this

/-! ## Forms -/

theorem number_eq (v : Arg) : number v = aNumber v := by
  rcases v with v | vs | rs
  · cases v <;> try rfl
    rename_i b
    cases b <;> rfl
  · rfl
  · rfl

theorem mapM_congr' {α β : Type} {f g : α → Option β} (h : ∀ x, f x = g x) (l : List α) : l.mapM f = l.mapM g := by rw [show f = g from funext h]

theorem mapM_map {α β γ : Type} (f : α → Option β) (g : β → γ) (l : List α) : l.mapM (fun x => (f x).map g) = (l.mapM f).map (List.map g) := by
  induction l with
  | nil => rfl
  | cons x l ih =>
    rw [List.mapM_cons, List.mapM_cons, ih]
    cases f x with
    | none => rfl
    | some y => cases l.mapM f <;> rfl

theorem numbers_eq (v : Arg) : (numbers v).map Arg.many = theNumbers v := by
  rcases v with v | vs | rs
  · rfl
  · show Option.map Arg.many (vs.mapM _) = (vs.mapM oneNumber).map _
    rw [mapM_congr' (g := fun x => (oneNumber x).map Value.num) (fun x => by
      cases x with
      | flag b => cases b <;> rfl
      | _ => rfl), mapM_map, Option.map_map]
    rfl
  · rfl

theorem parameter_eq (v : Arg) : parameter v = orNull aParam v := by
  rcases v with v | vs | rs
  · cases v <;> simp [parameter, orNull, aParam]
  · simp [parameter, orNull, aParam]
  · simp [parameter, orNull, aParam]

theorem node_eq (v : Arg) : node v = orNull aNode v := by
  rcases v with v | vs | rs
  · cases v <;> simp [node, orNull, aNode]
  · simp [node, orNull, aNode]
  · simp [node, orNull, aNode]

theorem curve_eq (v : Value) : curve v = paramOrConstant v := by
  cases v <;> try rfl
  rename_i b
  cases b <;> rfl

theorem curves_eq (v : Arg) : (curves v).map Arg.many = theCurves v := by
  rcases v with v | vs | rs
  · cases v <;> rfl
  · show (vs.mapM curve).map _ = (vs.mapM paramOrConstant).map _
    rw [mapM_congr' curve_eq]
  · rfl

theorem curves_count (v : Arg) : ((curves v).getD []).length = howMany (theCurves v) := by
  rw [← curves_eq]
  cases curves v <;> rfl

theorem threshold_eq (v : Arg) : threshold v = paramOrNumber v := by
  rcases v with v | vs | rs
  · cases v <;> try rfl
    rename_i b
    cases b <;> rfl
  · rfl
  · rfl

theorem predicate_eq (v : Arg) : predicate v = comparison v := by
  rcases v with v | vs | rs
  · cases v <;> try rfl
    rename_i s
    unfold predicate comparison
    by_cases h1 : s = "LT"
    · subst h1; rfl
    by_cases h2 : s = "<"
    · subst h2; rfl
    by_cases h3 : s = "GT"
    · subst h3; rfl
    by_cases h4 : s = ">"
    · subst h4; rfl
    by_cases h5 : s = "EQ"
    · subst h5; rfl
    by_cases h6 : s = "="
    · subst h6; rfl
    by_cases h7 : s = "LE"
    · subst h7; rfl
    by_cases h8 : s = "<="
    · subst h8; rfl
    by_cases h9 : s = "GE"
    · subst h9; rfl
    by_cases h10 : s = ">="
    · subst h10; rfl
    have : predicates.lookup s = none := by
      rw [List.lookup_eq_none_iff]
      intro p hp
      simp only [predicates, List.mem_cons, List.not_mem_nil, or_false] at hp
      rcases hp with rfl | rfl | rfl | rfl | rfl | rfl | rfl | rfl | rfl | rfl <;> simp [*]
    simp [*]
  · rfl
  · rfl

theorem thresholdValues_eq (v : Arg) : thresholdValues v = orNull theNumbers v := by
  rcases v with v | vs | rs
  · cases v <;> simp [thresholdValues, orNull, theNumbers, numbers]
  · simp only [orNull, reduceCtorEq, if_false]
    rw [← numbers_eq]
    rfl
  · simp [thresholdValues, orNull, theNumbers, numbers]

theorem table_eq (a : Args) : coefficientRows a = rowsOf [as "coefficients" aTable] a := by
  unfold coefficientRows
  cases h : a "coefficients" with
  | one v => simp [rowsOf, as, h, aTable]
  | many vs => simp [rowsOf, as, h, aTable]
  | rows rs =>
    cases rs with
    | nil => simp [rowsOf, as, h, aTable]
    | cons r rs =>
      by_cases hc : ∀ r' ∈ rs, r'.length = r.length
      · have e : aTable (.rows (r :: rs)) = some (.rows (r :: rs)) := if_pos hc
        simp [rowsOf, as, h, e]
        exact fun r' h' => hc r' h'
      · have e : aTable (.rows (r :: rs)) = none := if_neg hc
        simp only [rowsOf, as, h, e, List.mapM_cons, List.mapM_nil, Option.map_none]
        rw [if_neg]
        · rfl
        · intro hall
          exact hc fun r' h' => hall r' (List.mem_cons_of_mem _ h')

theorem wrapped_eq (k : String) : Just (wrappedList k) [as k params] := by
  intro a
  unfold wrappedList
  cases h : a k with
  | one v => simp [rowsOf, as, h, params]
  | many vs =>
    show (vs.mapM curve).map _ = _
    rw [mapM_congr' curve_eq]
    cases h2 : vs.mapM paramOrConstant <;> simp [rowsOf, as, h, params, h2]
  | rows rs => simp [rowsOf, as, h, params]

theorem coefficients_eq : Just coefficients [as "coefficients" theNumbers] := by
  intro a
  unfold coefficients
  have := numbers_eq (a "coefficients")
  cases h : numbers (a "coefficients") with
  | none => rw [h] at this; simp [rowsOf, as, ← this]
  | some vs => rw [h] at this; simp [rowsOf, as, ← this]

theorem base_does : Just baseAttrs kept := just_cons just_any (just_cons just_any just_nil)

theorem agg_eq (v : Arg) : aggFunc v = paramAggregation v := by
  rcases v with v | vs | rs
  · cases v <;> try rfl
    unfold aggFunc paramAggregation
    simp only
    refine if_congr ?_ rfl rfl
    simp only [List.mem_cons, List.not_mem_nil, or_false]
    tauto
  · rfl
  · rfl

theorem list_eq (v : Arg) : anyList v = aList v := by
  rcases v with v | vs | rs <;> rfl

theorem threshold_does : Just thresholdAttrs (kept ++ [as "threshold" paramOrNumber, as "values" (orNull theNumbers), as "predicate" comparison, any "ratchet"]) :=
  just_cons base_does (just_cons (just_attr threshold_eq) (just_cons (just_attr thresholdValues_eq) (just_cons (just_attr predicate_eq) (just_cons just_any just_nil))))

theorem typedNode_of {k : String} {a : Args} (h : (orNull aNode (a k)).isSome = true) : typedNode k a = true := by
  unfold typedNode
  rw [node_eq]
  exact h

theorem typedNode_of' {k : String} {a : Args} (h : (aNode (a k)).isSome = true) : typedNode k a = true := by
  apply typedNode_of
  unfold orNull
  split
  · rfl
  · exact h

theorem typedParameter_of {k : String} {a : Args} (h : (orNull aParam (a k)).isSome = true) : typedParameter k a = true := by
  unfold typedParameter
  rw [parameter_eq]
  exact h

theorem typedParameter_of' {k : String} {a : Args} (h : (aParam (a k)).isSome = true) : typedParameter k a = true := by
  apply typedParameter_of
  unfold orNull
  split
  · rfl
  · exact h

theorem baseCurve_eq : Just baseCurve [as "control_curves" theCurves, as "storage_node" aNode] := by
  intro a
  unfold baseCurve
  have := curves_eq (a "control_curves")
  cases h : curves (a "control_curves") with
  | none => rw [h] at this; simp [rowsOf, as, ← this]
  | some vs =>
    rw [h] at this
    rcases h2 : a "storage_node" with v | vs | rs
    · cases v <;> simp [rowsOf, as, ← this, h2, aNode]
    · simp [rowsOf, as, ← this, h2, aNode]
    · simp [rowsOf, as, ← this, h2, aNode]

theorem polynomial_does : Just polynomialAttrs [as "coefficients" theNumbers, as "node" (orNull aNode), as "storage_node" (orNull aNode), as "parameter" (orNull aParam), any "use_proportional_volume",
    as "offset" aNumber, as "scale" aNumber] :=
  just_cons coefficients_eq (just_cons (just_attr node_eq) (just_cons (just_attr node_eq) (just_cons (just_attr parameter_eq) (just_cons just_any (just_cons (just_attr number_eq)
    (just_cons (just_attr number_eq) just_nil))))))

theorem polynomial2_does : Just polynomialAttrs2 [as "coefficients" aTable, as "storage_node" (orNull aNode), as "parameter" (orNull aParam), any "use_proportional_volume", as "storage_offset" aNumber,
    as "storage_scale" aNumber, as "parameter_offset" aNumber, as "parameter_scale" aNumber] :=
  just_cons table_eq (just_cons (just_attr node_eq) (just_cons (just_attr parameter_eq) (just_cons just_any (just_cons (just_attr number_eq) (just_cons (just_attr number_eq)
    (just_cons (just_attr number_eq) (just_cons (just_attr number_eq) just_nil)))))))

theorem rowsOf_tail {r1 r2 : List (Args → Option (String × Arg))} {a : Args} (h : (rowsOf (r1 ++ r2) a).isSome = true) : (rowsOf r2 a).isSome = true := by
  rw [rowsOf_append] at h
  cases h1 : rowsOf r1 a with
  | none => rw [h1] at h; cases h
  | some x =>
    cases h2 : rowsOf r2 a with
    | none => rw [h1, h2] at h; cases h
    | some y => rfl

theorem theNumbers_eq {v : Arg} {vs : List Value} (h : numbers v = some vs) : theNumbers v = some (.many vs) := by rw [← numbers_eq, h]; rfl

theorem theNumbers_none {v : Arg} (h : numbers v = none) : theNumbers v = none := by rw [← numbers_eq, h]; rfl

theorem paramsOnly_eq (v : Arg) : (paramsOnly v).map Arg.many = onlyParams v := by
  rcases v with v | vs | rs
  · rfl
  · show Option.map Arg.many (paramsOnly (.many vs)) = if _ then _ else _
    by_cases h : ∀ v ∈ vs, isParam v = true
    · rw [if_pos h]
      have : paramsOnly (.many vs) = some vs := by
        unfold paramsOnly
        refine mapM_forall₂.2 (List.forall₂_same.2 ?_)
        intro v hv
        have := h v hv
        cases v <;> first | rfl | cases this
      rw [this]
      rfl
    · rw [if_neg h]
      cases hm : paramsOnly (.many vs) with
      | none => rfl
      | some l =>
        exfalso
        apply h
        intro v hv
        obtain ⟨y, -, hy⟩ := forall₂_mem_left (mapM_forall₂.1 hm) hv
        cases v <;> first | rfl | cases hy
  · rfl

theorem valuesOr_if (n : Nat) (other : Option Obj) (a : Args) : valuesOr n other a =
    if a "values" = .one .null then
      if a "parameters" = .one .null then other
      else (paramsOnly (a "parameters")).bind fun ps => if ps.length = n then some [("parameters", .many ps)] else none
    else (numbers (a "values")).bind fun vs => if vs.length = n then some [("values", .many vs)] else none := by
  unfold valuesOr
  by_cases h1 : a "values" = .one .null
  · rw [if_pos h1, h1]
    by_cases h2 : a "parameters" = .one .null
    · rw [if_pos h2, h2]
    · rw [if_neg h2]
      generalize a "parameters" = v at h2
      rcases v with v | vs | rs
      · cases v <;> first | rfl | exact absurd rfl h2
      · rfl
      · rfl
  · rw [if_neg h1]
    generalize a "values" = v at h1
    rcases v with v | vs | rs
    · cases v <;> first | rfl | exact absurd rfl h1
    · rfl
    · rfl

theorem valuesOr_eq {more : Nat} {a : Args} {other : Option Obj} {o : Nat → Option Arg} (ho : other = (o (curveCount a + more)).map fun v => [("values", v)]) :
    valuesOr (curveCount a + more) other a = rowsOf [atCurves more o] a := by
  have hc : curveCount a = howMany (theCurves (a "control_curves")) := curves_count _
  have hrow : rowsOf [atCurves more o] a = (atCurves more o a).map fun e => [e] := by
    unfold rowsOf
    rw [List.mapM_cons, List.mapM_nil]
    cases atCurves more o a <;> rfl
  rw [hrow, valuesOr_if]
  unfold atCurves
  simp only [← hc]
  by_cases h1 : a "values" = .one .null
  · rw [if_pos h1, if_neg (not_not.2 h1)]
    by_cases h2 : a "parameters" = .one .null
    · rw [if_pos h2, if_neg (not_not.2 h2), ho, Option.map_map]
      rfl
    · rw [if_neg h2, if_pos h2]
      have hp := paramsOnly_eq (a "parameters")
      cases h4 : paramsOnly (a "parameters") with
      | none =>
        rw [h4] at hp
        rw [← hp]
        unfold ofLength
        rw [show (Option.map Arg.many (none : Option (List Value))) = none from rfl]
        simp
      | some ps =>
        rw [h4] at hp
        rw [← hp]
        unfold ofLength
        simp only [Option.bind_some, Option.map_some, howMany]
        split <;> simp_all
  · rw [if_neg h1, if_pos h1]
    cases h4 : numbers (a "values") with
    | none =>
      rw [theNumbers_none h4]
      unfold ofLength
      simp
    | some ps =>
      rw [theNumbers_eq h4]
      unfold ofLength
      simp only [Option.bind_some, howMany]
      split <;> simp_all

theorem bounds_eq (k : String) : Just (bounds k) [boundsOf k] := by
  intro a
  have hrow : rowsOf [boundsOf k] a = (boundsOf k a).map fun e => [e] := by
    unfold rowsOf
    rw [List.mapM_cons, List.mapM_nil]
    cases boundsOf k a <;> rfl
  rw [hrow]
  unfold bounds boundsOf ofLength
  by_cases h1 : a k = .one .null
  · simp only [h1, if_true]
    rfl
  · rw [if_neg h1]
    split
    · rename_i h3
      exact absurd h3 h1
    · cases h4 : numbers (a k) with
      | none =>
        rw [theNumbers_none h4]
        cases aList (a "variable_indices") <;> simp
      | some bs =>
        rw [theNumbers_eq h4]
        rcases h5 : a "variable_indices" with v | vs | rs
        · rfl
        · simp only [aList, Option.bind_some, howMany]
          split <;> simp_all
        · rfl

/-- All classes of parameters. -/
theorem described_follows {c : Class} {s : Sig} (h : Described c s) : Follows c s := by
  cases h with
  | controlCurve =>
    refine follows_just rfl (fun _ => rfl) ?_ ?_
    · intro a
      have hp : Just (fun a => valuesOr (curveCount a + 1) (some [("values", .many ((List.range (curveCount a + 1)).map fun i => .num i))]) a) [atCurves 1 fun n => some (.many ((List.range n).map fun i => .num i))] :=
        fun a => valuesOr_eq rfl
      have := just_cons base_does (just_cons baseCurve_eq (just_cons hp (just_cons (just_any (k := "variable_indices")) (just_cons (bounds_eq "upper_bounds") (just_cons (bounds_eq "lower_bounds") just_nil))))) a
      exact this
    · intro a ha
      exact typedNode_of' (as_some ha "storage_node" aNode (by simp))
  | interpolated =>
    refine follows_just rfl (fun _ => rfl) ?_ ?_
    · intro a
      have hp : Just (fun a => valuesOr (curveCount a + 2) none a) [atCurves 2 fun _ => none] := fun a => valuesOr_eq rfl
      have := just_cons base_does (just_cons baseCurve_eq (just_cons hp just_nil)) a
      exact this
    · intro a ha
      exact typedNode_of' (as_some ha "storage_node" aNode (by simp))
  | piecewise =>
    refine follows_just rfl (fun _ => rfl) ?_ ?_
    · intro a
      show seq [baseAttrs, baseCurve, pairs (curveCount a + 1), attr "minimum" number, attr "maximum" number] a = _
      have hp : Just (fun a => pairs (curveCount a + 1) a) [fun a => match a "values" with
            | .rows rs => if rs.length = howMany (theCurves (a "control_curves")) + 1 ∧ ∀ r ∈ rs, r.length = 2 then some ("values", .rows rs) else none
            | _ => none] := by
        intro a
        have hc : curveCount a = howMany (theCurves (a "control_curves")) := curves_count _
        show pairs (curveCount a + 1) a = _
        unfold pairs
        rw [hc]
        cases h : a "values" with
        | one v => simp [rowsOf, h]
        | many vs => simp [rowsOf, h]
        | rows rs =>
          simp only [rowsOf, h, List.mapM_cons, List.mapM_nil]
          split <;> simp_all
      have := just_cons base_does (just_cons baseCurve_eq (just_cons hp (just_cons (just_attr (k := "minimum") number_eq) (just_cons (just_attr (k := "maximum") number_eq) just_nil)))) a
      exact this
    · intro a ha
      exact typedNode_of' (as_some ha "storage_node" aNode (by simp))
  | curveIndex =>
    refine follows_just rfl (fun _ => rfl) (just_cons base_does (just_cons (just_attr node_eq) (just_cons (r1 := [as "control_curves" theCurves]) ?_ just_nil))) fun _ _ => rfl
    intro a
    have := curves_eq (a "control_curves")
    show (curves (a "control_curves")).map _ = _
    cases h : curves (a "control_curves") with
    | none => rw [h] at this; simp [rowsOf, as, ← this]
    | some vs => rw [h] at this; simp [rowsOf, as, ← this]
  | storageThreshold =>
    exact follows_just rfl (fun _ => rfl) (by have h := just_cons threshold_does (just_cons (just_attr (k := "storage") node_eq) just_nil); exact h)
      fun a ha => typedNode_of (as_some ha "storage" (orNull aNode) (by simp [thresholdSig]))
  | nodeThreshold =>
    exact follows_just rfl (fun _ => rfl) (by have h := just_cons threshold_does (just_cons (just_attr (k := "node") node_eq) just_nil); exact h)
      fun a ha => typedNode_of (as_some ha "node" (orNull aNode) (by simp [thresholdSig]))
  | parameterThreshold =>
    exact follows_just rfl (fun _ => rfl) (by have h := just_cons threshold_does (just_cons (just_attr (k := "param") parameter_eq) just_nil); exact h)
      fun a ha => typedParameter_of (as_some ha "param" (orNull aParam) (by simp [thresholdSig]))
  | yearThreshold => exact follows_just rfl (fun _ => rfl) threshold_does fun _ _ => rfl
  | multipleThreshold => exact follows_just rfl (fun _ => rfl) (just_cons base_does (just_cons (just_attr node_eq) (just_cons (wrapped_eq _) just_nil))) fun _ _ => rfl
  | multipleThresholdParameter => exact follows_just rfl (fun _ => rfl) (just_cons base_does (just_cons (just_attr parameter_eq) (just_cons (wrapped_eq _) just_nil))) fun _ _ => rfl
  | polynomial1 =>
    refine ⟨rfl, fun a => ?_⟩
    have hb : polynomial1.body a = rowsOf _ a := just_cons base_does (just_cons polynomial_does just_nil) a
    have hp := polynomial_does a
    have hcond : decide (([a "node", a "storage_node", a "parameter"].filter given).length ≤ 1) =
        decide ((a "node" = .one .null ∧ a "storage_node" = .one .null) ∨ (a "node" = .one .null ∧ a "parameter" = .one .null) ∨ (a "storage_node" = .one .null ∧ a "parameter" = .one .null)) := by
      by_cases h1 : a "node" = .one .null <;> by_cases h2 : a "storage_node" = .one .null <;> by_cases h3 : a "parameter" = .one .null <;> simp [given, h1, h2, h3]
    show (if ((polynomialAttrs a).isSome && _) = true then polynomial1.body a else none) = _
    rw [hcond, hb]
    simp only [Bool.and_eq_true]
    by_cases hs : (polynomialAttrs a).isSome = true
    · simp only [hs, true_and]
      rfl
    · rw [if_neg (fun h => hs h.1)]
      split
      · symm
        by_contra hne
        have := rowsOf_tail (r1 := kept) (Option.isSome_iff_ne_none.2 hne)
        rw [← hp] at this
        exact hs this
      · rfl
  | polynomial2 =>
    refine follows_just rfl (fun _ => rfl) (just_cons base_does (just_cons polynomial2_does just_nil)) fun a ha => ?_
    have := rowsOf_tail (r1 := kept) ha
    rw [← polynomial2_does a] at this
    exact this
  | negative => exact follows_just rfl (fun _ => rfl) (just_cons base_does (just_cons (just_attr parameter_eq) just_nil)) fun _ _ => rfl
  | maxMin => exact follows_just rfl (fun _ => rfl) (just_cons base_does (just_cons (just_attr parameter_eq) (just_cons (just_attr number_eq) just_nil))) fun _ _ => rfl
  | offset => exact follows_just rfl (fun _ => rfl) (just_cons base_does (just_cons (just_attr parameter_eq) (just_cons (just_attr number_eq) just_nil))) fun _ _ => rfl
  | division => exact follows_just rfl (fun _ => rfl) (just_cons base_does (just_cons (just_attr parameter_eq) (just_cons (just_attr parameter_eq) just_nil))) fun _ _ => rfl
  | deficit => exact follows_just rfl (fun _ => rfl) (just_cons base_does (just_cons (just_attr node_eq) just_nil)) fun _ _ => rfl
  | flow =>
    refine follows_just rfl (fun _ => rfl) (just_cons base_does (just_cons (just_attr node_eq) (just_cons (just_attr number_eq) just_nil))) fun a ha => ?_
    have := as_some ha "initial_value" aNumber (by simp)
    show (number (a "initial_value")).isSome = true
    rw [number_eq]
    exact this
  | storage => exact follows_just rfl (fun _ => rfl) (just_cons base_does (just_cons (just_attr node_eq) (just_cons just_any just_nil))) fun _ _ => rfl
  | licence => exact follows_just rfl (fun _ => rfl) (just_cons base_does (just_cons just_any (just_cons just_any just_nil))) fun _ _ => rfl
  | indexedArray =>
    refine follows_just rfl (fun _ => rfl) (just_cons base_does (just_cons (r1 := [as "index_parameter" aParam]) ?_ (just_cons (wrapped_eq _) just_nil))) fun _ _ => rfl
    intro a
    rcases h : a "index_parameter" with v | vs | rs
    · cases v <;> simp [rowsOf, as, h, aParam]
    · simp [rowsOf, as, h, aParam]
    · simp [rowsOf, as, h, aParam]
  | aggregated => exact follows_just rfl (fun _ => rfl) (just_cons base_does (just_cons (just_attr agg_eq) (just_cons (just_attr list_eq) just_nil))) fun _ _ => rfl
  | hydropower =>
    exact follows_just (by decide +kernel) (fun _ => rfl) (just_cons base_does (just_cons (just_attr parameter_eq) (just_cons (just_attr parameter_eq) (just_cons (just_attr parameter_eq) (just_cons (just_attr parameter_eq)
      (just_cons (just_attr number_eq) (just_cons (just_attr number_eq) (just_cons (just_attr number_eq) (just_cons (just_attr number_eq) (just_cons (just_attr number_eq) (just_cons (just_attr number_eq)
      just_nil))))))))))) fun _ _ => rfl

end Verif.Constructors

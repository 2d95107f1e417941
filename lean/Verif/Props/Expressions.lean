import Verif.Spec.Expressions
import Verif.Props.Components
import Verif.Props.Aggregate
/-! Parameters computed from other parameters (C73). -/

namespace Verif.Expressions

open Verif Verif.Components

/-! ### The value rules -/

private theorem mapM_forall2 {v : Nat → Option Rat} : ∀ {ps : List Nat} {as : List Rat},
    List.Forall₂ (fun p a => v p = some a) ps as → ps.mapM v = some as
  | _, _, .nil => rfl
  | _, _, .cons h t => by rw [List.mapM_cons, h, mapM_forall2 t]; rfl

private theorem mapM_congr' {v w : Nat → Option Rat} : ∀ {ps : List Nat}, (∀ p ∈ ps, v p = w p) → ps.mapM v = ps.mapM w
  | [], _ => rfl
  | p :: ps, h => by
    rw [List.mapM_cons, List.mapM_cons, h p (by simp), mapM_congr' fun q hq => h q (by simp [hq])]

private theorem const_map (as : List Rat) (g : Nat) : ((as.map fun a (_ : Nat) => a).map fun p => p g) = as := by
  simp [List.map_map, Function.comp_def]

private theorem agg_meaning (f : Aggregate.Func) (as : List Rat) (g : Nat) :
    AggMeaning f as (Aggregate.evaluate f (as.map fun a _ => a) g).join := by
  obtain ⟨hs, hp, hm⟩ := Aggregate.C33_sum_product_mean (as.map fun a (_ : Nat) => a) g
  rw [const_map] at hs hp hm
  cases f with
  | sum => simp only [AggMeaning, hs]; rfl
  | product => simp only [AggMeaning, hp]; rfl
  | mean =>
    intro h
    refine ⟨_, by rw [hm]; rfl, ?_⟩
    have : (as.length : Rat) ≠ 0 := by exact_mod_cast fun h0 => h (List.length_eq_zero_iff.1 h0)
    rw [List.length_map]
    exact div_mul_cancel₀ _ this
  | max =>
    intro h
    obtain ⟨⟨m, h1, ⟨p, hp1, hp2⟩, h3⟩, -⟩ := Aggregate.C33_max_min (as.map fun a (_ : Nat) => a) (by simpa using h) g
    refine ⟨m, by rw [h1]; rfl, ?_, ?_⟩
    · obtain ⟨a, ha, rfl⟩ := List.mem_map.1 hp1; subst hp2; exact ha
    · intro a ha; exact h3 (fun _ => a) (List.mem_map.2 ⟨a, ha, rfl⟩)
  | min =>
    intro h
    obtain ⟨-, ⟨m, h1, ⟨p, hp1, hp2⟩, h3⟩⟩ := Aggregate.C33_max_min (as.map fun a (_ : Nat) => a) (by simpa using h) g
    refine ⟨m, by rw [h1]; rfl, ?_, ?_⟩
    · obtain ⟨a, ha, rfl⟩ := List.mem_map.1 hp1; subst hp2; exact ha
    · intro a ha; exact h3 (fun _ => a) (List.mem_map.2 ⟨a, ha, rfl⟩)
  | median =>
    intro h
    obtain ⟨m, h1, h2, h3, -⟩ := Aggregate.C33_median (as.map fun a (_ : Nat) => a) (by simpa using h) g
    rw [const_map, List.length_map] at h2 h3
    exact ⟨m, by rw [h1]; rfl, h2, h3⟩
  | any => rfl
  | all => rfl

private theorem compute_meaning (k : Kind) (v : Nat → Nat → Option Rat) (g : Nat) : Meaning k v g (compute k v g) := by
  cases k with
  | leaf f => rfl
  | index f => rfl
  | negative p => intro a h; simp [compute, h]
  | maximum p t =>
    intro a h; simp only [compute, h, Option.map_some]; congr 1
    by_cases c : t > a
    · rw [if_pos c, max_eq_right c.le]
    · rw [if_neg c, max_eq_left (not_lt.1 c)]
  | negativeMax p t =>
    intro a h; simp only [compute, h, Option.map_some]; congr 1
    by_cases c : t > -a
    · rw [if_pos c, max_eq_right c.le]
    · rw [if_neg c, max_eq_left (not_lt.1 c)]
  | minimum p t =>
    intro a h; simp only [compute, h, Option.map_some]; congr 1
    by_cases c : t < a
    · rw [if_pos c, min_eq_right c.le]
    · rw [if_neg c, min_eq_left (not_lt.1 c)]
  | negativeMin p t =>
    intro a h; simp only [compute, h, Option.map_some]; congr 1
    by_cases c : t < -a
    · rw [if_pos c, min_eq_right c.le]
    · rw [if_neg c, min_eq_left (not_lt.1 c)]
  | offset p o => intro a h; simp [compute, h]
  | scaled p s => intro a h; simp [compute, h, mul_comm]
  | division n d =>
    intro a b ha hb
    simp only [compute, ha, hb, Option.bind_some]
    refine ⟨fun h => ⟨a / b, by rw [if_neg h], div_mul_cancel₀ _ h⟩, fun h => by rw [if_pos h]⟩
  | aggregated f ps =>
    intro as h
    simp only [compute, mapM_forall2 (v := fun p => v p g) h, Option.bind_some]
    exact agg_meaning f as g
  | indexedArray i ps =>
    refine ⟨fun j p hi hp => ?_, fun j p hi hp => ?_, fun j hi hj => ?_⟩
    · have hj : j < ps.length := (List.getElem?_eq_some_iff.1 hp).1
      have hr : DataFrame.resolve ps.length ((j : Rat)).num = some j := by
        rw [Rat.num_natCast]; unfold DataFrame.resolve
        rw [if_pos ⟨by omega, by exact_mod_cast hj⟩]; simp
      simp only [compute, hi, Option.bind_some, hr, hp]
    · have hj : j < ps.length := by simpa using (List.getElem?_eq_some_iff.1 hp).1
      have hr : DataFrame.resolve ps.length (-(j + 1 : Nat) : Rat).num = some (ps.length - 1 - j) := by
        rw [Rat.num_neg_eq_neg_num, Rat.num_natCast]; unfold DataFrame.resolve
        rw [if_neg (by omega), if_pos (by omega)]
        congr 1; omega
      rw [List.getElem?_reverse hj] at hp
      simp only [compute, hi, Option.bind_some, hr, hp]
    · have hr : DataFrame.resolve ps.length (j : Rat).num = none := by
        rw [Rat.num_intCast]; unfold DataFrame.resolve
        rw [if_neg (by omega), if_neg (by omega)]
      simp only [compute, hi, Option.bind_some, hr, Option.bind_none]
  | wrapper member ps => intro p hp; simp only [compute, hp, Option.bind_some]
  | interpolated p f => intro a h; simp only [compute, h, Option.bind_some]
  | quadrature u l f =>
    cases l with
    | none => intro b hb; simp only [compute, hb, Option.bind_some]
    | some l => intro a b ha hb; simp only [compute, ha, hb, Option.bind_some]
  | computed ps f =>
    intro as h
    simp only [compute, mapM_forall2 (v := fun p => v p g) h, Option.bind_some]

private theorem compute_reads (k : Kind) (v w : Nat → Nat → Option Rat) (h : ∀ d ∈ k.reads, v d = w d) : compute k v = compute k w := by
  funext g
  cases k with
  | leaf f => rfl
  | index f => rfl
  | division n d => simp only [compute]; rw [h n (by simp [Kind.reads]), h d (by simp [Kind.reads])]
  | aggregated f ps =>
    simp only [compute]
    rw [mapM_congr' (w := fun p => w p g) fun p hp => by rw [h p hp]]
  | computed ps f =>
    simp only [compute]
    rw [mapM_congr' (w := fun p => w p g) fun p hp => by rw [h p hp]]
  | indexedArray i ps =>
    simp only [compute]
    rw [h i (by simp [Kind.reads])]
    congr 1; funext a; congr 1; funext j
    cases hp : ps[j]? with
    | none => rfl
    | some p => simp only [Option.bind_some]; rw [h p (by simp [Kind.reads, List.mem_of_getElem? hp])]
  | wrapper member ps =>
    simp only [compute]
    cases hp : ps[member g]? with
    | none => rfl
    | some p => simp only [Option.bind_some]; rw [h p (by simp [Kind.reads, List.mem_of_getElem? hp])]
  | quadrature u l f =>
    cases l with
    | none => simp only [compute]; rw [h u (by simp [Kind.reads])]
    | some l => simp only [compute]; rw [h u (by simp [Kind.reads]), h l (by simp [Kind.reads])]
  | _ p => simp only [compute]; rw [h p (by simp [Kind.reads])]

/-! ### Registered dependencies -/

private theorem dep_create (tr : List Components.Op) (c x d : Nat) :
    declaredDep (tr ++ [Components.Op.create c]).reverse x d ↔ declaredDep tr.reverse x d := by
  simp [declaredDep]

private theorem dep_other (tr : List Components.Op) (c x d : Nat) :
    declaredDep (tr ++ [Components.Op.addOther c]).reverse x d ↔ declaredDep tr.reverse x d := by
  simp [declaredDep]

private theorem dep_add (tr : List Components.Op) (x' d' x d : Nat) :
    declaredDep (tr ++ [Components.Op.addDep x' d']).reverse x d ↔ (x = x' ∧ d = d') ∨ declaredDep tr.reverse x d := by
  simp [declaredDep]

private theorem dep_remove (tr : List Components.Op) (x' d' x d : Nat) :
    declaredDep (tr ++ [Components.Op.removeDep x' d']).reverse x d ↔ ¬ (x = x' ∧ d = d') ∧ declaredDep tr.reverse x d := by
  simp [declaredDep]

private theorem dep_adds (tr : List Components.Op) (x' x d : Nat) (l : List Nat) :
    declaredDep (tr ++ l.map (Components.Op.addDep x')).reverse x d ↔ (x = x' ∧ d ∈ l) ∨ declaredDep tr.reverse x d := by
  induction l generalizing tr with
  | nil => simp
  | cons a l ih =>
    have : tr ++ (a :: l).map (Components.Op.addDep x') = (tr ++ [Components.Op.addDep x' a]) ++ l.map (Components.Op.addDep x') := by simp
    rw [this, ih, dep_add, List.mem_cons]
    tauto

private theorem build_extend {tr l : List Components.Op} {g g' : Digraph} (h : build tr = some g) (h' : l.foldlM applyOp g = some g') :
    build (tr ++ l) = some g' := by
  unfold build at h ⊢
  rw [List.foldlM_append, h]
  exact h'

private theorem build_one {tr : List Components.Op} {op : Components.Op} {g g' : Digraph} (h : build tr = some g) (h' : applyOp g op = some g') :
    build (tr ++ [op]) = some g' :=
  build_extend h (by rw [List.foldlM_cons, h']; rfl)

/-- The component graph is the result of a history that created exactly the parameters and registered everything they read. -/
private structure Inv (s : St) (tr : List Components.Op) : Prop where
  built : build tr = some s.graph
  objects : ∀ c, c ∈ created tr ↔ (s.heap c).isSome = true
  registered : ∀ x k, s.heap x = some k → ∀ d ∈ k.reads, declaredDep tr.reverse x d

private theorem created_adds (tr : List Components.Op) (x : Nat) (l : List Nat) : created (tr ++ l.map (Components.Op.addDep x)) = created tr := by
  simp [created, List.filterMap_append, List.filterMap_map]

private theorem reads_registered (k : Kind) : ∀ d, d ∈ k.reads ↔ d ∈ k.registered := by
  intro d
  cases k with
  | quadrature u l f => cases l <;> simp [Kind.reads, Kind.registered]
  | indexedArray i ps => simp [Kind.reads, Kind.registered]; tauto
  | _ => simp [Kind.reads, Kind.registered]

private theorem put_some (h : Nat → Option Kind) (x : Nat) (k : Kind) (c : Nat) (hx : (h x).isSome = true) :
    (put h x k c).isSome = (h c).isSome := by
  unfold put
  by_cases c0 : c = x
  · rw [if_pos c0, c0, hx]; rfl
  · rw [if_neg c0]

/-- An existing object `x` becomes `k`; the history of the graph grows by `l`. -/
private theorem Inv.change {s : St} {tr : List Components.Op} (I : Inv s tr) {x : Nat} {k : Kind} {l : List Components.Op} {g : Digraph}
    (hx : (s.heap x).isSome = true) (hb : build (tr ++ l) = some g) (hcr : created (tr ++ l) = created tr)
    (hother : ∀ y d, y ≠ x → declaredDep tr.reverse y d → declaredDep (tr ++ l).reverse y d)
    (hself : ∀ d ∈ k.reads, declaredDep (tr ++ l).reverse x d) : Inv ⟨put s.heap x k, g⟩ (tr ++ l) := by
  refine ⟨hb, ?_, ?_⟩
  · intro c; rw [hcr, I.objects c]; show _ ↔ (put s.heap x k c).isSome = true
    rw [put_some _ _ _ _ hx]
  · intro y k' hy d hd
    change put s.heap x k y = some k' at hy
    unfold put at hy
    by_cases c0 : y = x
    · rw [if_pos c0] at hy; cases hy; rw [c0]; exact hself d hd
    · rw [if_neg c0] at hy; exact hother y d c0 (I.registered y k' hy d hd)

private theorem Inv.empty : Inv St.empty [] :=
  ⟨rfl, by intro c; simp [created, St.empty], by intro x k h; simp [St.empty] at h⟩

/-- Effect of a property setter on the history: what was registered stays, except the old value; the new value is registered. -/
private theorem propertySet_inv {h : Nat → Option Kind} {tr : List Components.Op} {g g' : Digraph} {x : Nat} {old new : Option Nat}
    (hb : build tr = some g) (hs : propertySet h g x old new = some g') :
    ∃ l, build (tr ++ l) = some g' ∧ created (tr ++ l) = created tr ∧
      (∀ y d, (y ≠ x ∨ some d ≠ old) → declaredDep tr.reverse y d → declaredDep (tr ++ l).reverse y d) ∧
      ∀ d, new = some d → declaredDep (tr ++ l).reverse x d := by
  unfold propertySet at hs
  simp only [Option.bind_eq_some_iff] at hs
  obtain ⟨g1, h1, h2⟩ := hs
  have hrem : ∃ l1, build (tr ++ l1) = some g1 ∧ created (tr ++ l1) = created tr ∧
      (∀ y d, (y ≠ x ∨ some d ≠ old) → declaredDep tr.reverse y d → declaredDep (tr ++ l1).reverse y d) := by
    cases old with
    | none => cases h1; exact ⟨[], by simpa using hb, by simp, fun y d _ hd => by simpa using hd⟩
    | some o =>
      by_cases ht : truthy h o = true
      · simp only [ht, if_true] at h1
        refine ⟨[.removeDep x o], build_one hb h1, by rw [created_append]; simp, ?_⟩
        intro y d hne hd
        rw [dep_remove]
        refine ⟨?_, hd⟩
        rintro ⟨rfl, rfl⟩
        rcases hne with hne | hne <;> exact hne rfl
      · simp only [ht, Bool.false_eq_true, if_false] at h1
        cases h1
        exact ⟨[], by simpa using hb, by simp, fun y d _ hd => by simpa using hd⟩
  obtain ⟨l1, hb1, hc1, hd1⟩ := hrem
  cases new with
  | some p =>
    refine ⟨l1 ++ [.addDep x p], ?_, ?_, ?_, ?_⟩
    · rw [← List.append_assoc]; exact build_one hb1 h2
    · rw [← List.append_assoc, created_append, hc1]; simp
    · intro y d hne hd; rw [← List.append_assoc, dep_add]; exact .inr (hd1 y d hne hd)
    · intro d hd; cases hd; rw [← List.append_assoc, dep_add]; exact .inl ⟨rfl, rfl⟩
  | none =>
    refine ⟨l1 ++ [.addOther x], ?_, ?_, ?_, ?_⟩
    · rw [← List.append_assoc]; exact build_one hb1 h2
    · rw [← List.append_assoc, created_append, hc1]; simp
    · intro y d hne hd; rw [← List.append_assoc, dep_other]; exact hd1 y d hne hd
    · intro d hd; cases hd

private theorem some_of_match {s : St} {x : Nat} {k : Kind} (h : s.heap x = some k) : (s.heap x).isSome = true := by rw [h]; rfl

private theorem two_ops {tr : List Components.Op} {g g' : Digraph} {a b : Components.Op} (hb : build tr = some g)
    (h : [a, b].foldlM applyOp g = some g') : build (tr ++ [a, b]) = some g' := build_extend hb h

private theorem dep_swap (tr : List Components.Op) (x o p y d : Nat) :
    declaredDep (tr ++ [Components.Op.removeDep x o, Components.Op.addDep x p]).reverse y d ↔
      (y = x ∧ d = p) ∨ (¬ (y = x ∧ d = o) ∧ declaredDep tr.reverse y d) := by
  have : tr ++ [Components.Op.removeDep x o, Components.Op.addDep x p] = (tr ++ [Components.Op.removeDep x o]) ++ [Components.Op.addDep x p] := by simp
  rw [this, dep_add, dep_remove]

private theorem step_inv {s s' : St} {tr : List Components.Op} (I : Inv s tr) (op : Op) (hs : Safe s op) (h : step s op = some s') :
    ∃ tr', Inv s' tr' := by
  cases op with
  | new x k =>
    simp only [step] at h
    by_cases c : (s.heap x).isNone ∧ (∀ d ∈ k.registered, (s.heap d).isSome) ∧ accepted s.heap k
    · rw [if_pos c] at h
      simp only [Option.bind_eq_some_iff] at h
      obtain ⟨g, hg, he⟩ := h
      cases he
      have hx0 : s.heap x = none := Option.isNone_iff_eq_none.1 c.1
      refine ⟨tr ++ (Components.Op.create x :: k.registered.map (Components.Op.addDep x)), build_extend I.built hg, ?_, ?_⟩
      · intro y
        have e : tr ++ (Components.Op.create x :: k.registered.map (Components.Op.addDep x)) =
          (tr ++ [Components.Op.create x]) ++ k.registered.map (Components.Op.addDep x) := by simp
        rw [e, created_adds, created_append, List.mem_append, I.objects y]
        show _ ↔ (put s.heap x k y).isSome = true
        unfold put
        by_cases c0 : y = x
        · rw [if_pos c0]; simp [c0]
        · rw [if_neg c0]; simp [c0]
      · intro y k' hy d hd
        have e : tr ++ (Components.Op.create x :: k.registered.map (Components.Op.addDep x)) =
          (tr ++ [Components.Op.create x]) ++ k.registered.map (Components.Op.addDep x) := by simp
        rw [e, dep_adds, dep_create]
        change put s.heap x k y = some k' at hy
        unfold put at hy
        by_cases c0 : y = x
        · rw [if_pos c0] at hy; cases hy; exact .inl ⟨c0, (reads_registered k d).1 hd⟩
        · rw [if_neg c0] at hy; exact .inr (I.registered y k' hy d hd)
    · rw [if_neg c] at h; cases h
  | setNumerator x p =>
    simp only [step] at h
    split at h
    · rename_i n d _ hx hp
      simp only [Option.bind_eq_some_iff] at h
      obtain ⟨g, hg, he⟩ := h
      cases he
      refine ⟨_, I.change (some_of_match hx) (two_ops I.built hg) (by simp [created]) ?_ ?_⟩
      · intro y e hy he; rw [dep_swap]; exact .inr ⟨fun h => hy h.1, he⟩
      · intro e he
        simp only [Kind.reads, List.mem_cons, List.not_mem_nil, or_false] at he
        rw [dep_swap]
        rcases he with rfl | rfl
        · exact .inl ⟨rfl, rfl⟩
        · by_cases c : n = e
          · exact .inl ⟨rfl, (hs n e hx c).symm⟩
          · exact .inr ⟨fun h => c h.2.symm, I.registered x _ hx e (by simp [Kind.reads])⟩
    · cases h
  | setDenominator x p =>
    simp only [step] at h
    split at h
    · rename_i n d _ hx hp
      simp only [Option.bind_eq_some_iff] at h
      obtain ⟨g, hg, he⟩ := h
      cases he
      refine ⟨_, I.change (some_of_match hx) (two_ops I.built hg) (by simp [created]) ?_ ?_⟩
      · intro y e hy he; rw [dep_swap]; exact .inr ⟨fun h => hy h.1, he⟩
      · intro e he
        simp only [Kind.reads, List.mem_cons, List.not_mem_nil, or_false] at he
        rw [dep_swap]
        rcases he with rfl | rfl
        · by_cases c : e = d
          · exact .inl ⟨rfl, (hs e d hx c).symm⟩
          · exact .inr ⟨fun h => c h.2, I.registered x _ hx e (by simp [Kind.reads])⟩
        · exact .inl ⟨rfl, rfl⟩
    · cases h
  | aggAdd x p =>
    simp only [step] at h
    split at h
    · rename_i f ps _ hx hp
      simp only [Option.bind_eq_some_iff] at h
      obtain ⟨g, hg, he⟩ := h
      cases he
      refine ⟨_, I.change (some_of_match hx) (build_one I.built hg) (by simp [created]) ?_ ?_⟩
      · intro y e hy he; rw [dep_add]; exact .inr he
      · intro e he
        simp only [Kind.reads, List.mem_append, List.mem_singleton] at he
        rw [dep_add]
        rcases he with he | he
        · exact .inr (I.registered x _ hx e he)
        · exact .inl ⟨rfl, he⟩
    · cases h
  | aggRemove x p =>
    simp only [step] at h
    split at h
    · rename_i f ps hx
      by_cases c : p ∈ ps
      · rw [if_pos c] at h
        simp only [Option.bind_eq_some_iff] at h
        obtain ⟨g, hg, he⟩ := h
        cases he
        refine ⟨_, I.change (some_of_match hx) (build_one I.built hg) (by simp [created]) ?_ ?_⟩
        · intro y e hy he; rw [dep_remove]; exact ⟨fun h => hy h.1, he⟩
        · intro e he
          simp only [Kind.reads] at he
          rw [dep_remove]
          refine ⟨?_, I.registered x _ hx e (List.mem_of_mem_erase he)⟩
          rintro ⟨-, rfl⟩
          have h1 := hs f ps hx
          have h2 : 0 < (ps.erase e).count e := List.count_pos_iff.2 he
          rw [List.count_erase_self] at h2
          omega
      · rw [if_neg c] at h; cases h
    · cases h
  | setInterpolated x p =>
    simp only [step] at h
    split at h
    · rename_i o f _ hx hp
      simp only [Option.bind_eq_some_iff] at h
      obtain ⟨g, hg, he⟩ := h
      cases he
      obtain ⟨l, h1, h2, h3, h4⟩ := propertySet_inv I.built hg
      refine ⟨_, I.change (some_of_match hx) h1 h2 (fun y d hy => h3 y d (.inl hy)) ?_⟩
      intro e he
      simp only [Kind.reads, List.mem_singleton] at he
      exact h4 e (by rw [he])
    · cases h
  | setUpper x p =>
    simp only [step] at h
    split at h
    · rename_i u l f _ hx hp
      simp only [Option.bind_eq_some_iff] at h
      obtain ⟨g, hg, he⟩ := h
      cases he
      obtain ⟨l', h1, h2, h3, h4⟩ := propertySet_inv I.built hg
      refine ⟨_, I.change (some_of_match hx) h1 h2 (fun y d hy => h3 y d (.inl hy)) ?_⟩
      intro e he
      simp only [Kind.reads, List.mem_cons, Option.mem_toList] at he
      rcases he with he | he
      · exact h4 e (by rw [he])
      · by_cases c : e = u
        · subst c; exact h4 e (by rw [hs e l f hx he])
        · exact h3 x e (.inr fun h => c (by cases h; rfl)) (I.registered x _ hx e (by simp only [Kind.reads, List.mem_cons, Option.mem_toList]; exact .inr he))
    · cases h
  | setLower x p =>
    simp only [step] at h
    split at h
    · rename_i u l f hx
      simp only [Option.bind_eq_some_iff] at h
      obtain ⟨g, hg, he⟩ := h
      cases he
      obtain ⟨l', h1, h2, h3, h4⟩ := propertySet_inv I.built hg
      refine ⟨_, I.change (some_of_match hx) h1 h2 (fun y d hy => h3 y d (.inl hy)) ?_⟩
      intro e he
      simp only [Kind.reads, List.mem_cons, Option.mem_toList] at he
      rcases he with he | he
      · by_cases c : l = some u
        · rw [he]; exact h4 u (hs u l f hx c)
        · rw [he]; exact h3 x u (.inr fun h => c h.symm) (I.registered x _ hx u (by simp [Kind.reads]))
      · exact h4 e he
    · cases h
  | assign x p => exact absurd hs id

private theorem run_inv (ops : List Op) (hs : SafeHistory ops) (s : St) (h : runOps ops = some s) : ∃ tr, Inv s tr := by
  induction ops using List.reverseRecOn generalizing s with
  | nil => cases h; exact ⟨[], Inv.empty⟩
  | append_singleton ops op ih =>
    unfold runOps at h
    rw [List.foldlM_append] at h
    simp only [Option.bind_eq_bind, Option.bind_eq_some_iff] at h
    obtain ⟨s0, h0, h1⟩ := h
    simp only [List.foldlM_cons, List.foldlM_nil, Option.bind_eq_bind, Option.bind_eq_some_iff, Option.pure_def, Option.some.injEq] at h1
    obtain ⟨s1, h1, rfl⟩ := h1
    have hs0 : SafeHistory ops := fun b o a e => hs b o (a ++ [op]) (by rw [e]; simp)
    obtain ⟨tr, I⟩ := ih hs0 s0 h0
    exact step_inv I op (hs ops op [] (by simp) s0 h0) h1

private theorem reads_only {s : St} {tr : List Components.Op} (I : Inv s tr) : ReadsOnly (declaredDep tr.reverse) (rule s.heap) := by
  intro c v w h
  unfold rule
  cases hc : s.heap c with
  | none => rfl
  | some k => exact compute_reads k v w fun d hd => h d (I.registered c k hc d hd)

/-- **C73, partial.** However parameters were constructed and re-wired (by the setters that maintain the component graph, without replacing a parameter that the same object uses twice),
after the value-calculation loop of every timestep every parameter has in every scenario the value its definition gives on the *current* values of the parameters it refers to, whatever
values were left from before.  Missing with respect to C73: replacing one of two uses of the same parameter and assigning plain attributes (`C73_shared_fails`, `C73_removed_fails`, `C73_attribute_fails`). -/
theorem C73_partial (ops : List Op) (hs : SafeHistory ops) (s : St) (h : runOps ops = some s) (order : List Nat) (ho : flatten s.graph = .ok order)
    (stale : Nat → Nat → Option Rat) :
    Coherent s.heap (s.values order stale) ∧
    ∀ stale' x, (s.heap x).isSome → s.values order stale' x = s.values order stale x := by
  obtain ⟨tr, I⟩ := run_inv ops hs s h
  obtain ⟨h1, h2⟩ := C01_values tr s.graph I.built order ho (rule s.heap) (reads_only I) stale
  refine ⟨?_, fun stale' x hx => h2 stale' x ((I.objects x).2 hx)⟩
  intro x k hk g
  have := h1 x ((I.objects x).2 (by rw [hk]; rfl))
  change s.values order stale x = rule s.heap x (s.values order stale) at this
  rw [this]
  unfold rule
  rw [hk]
  exact compute_meaning k _ g

/-! ### Constructors only -/

private theorem declared_created {tr : List Components.Op} {g : Digraph} (hb : build tr = some g) {x d : Nat} (h : declaredDep tr.reverse x d) :
    x ∈ created tr ∧ d ∈ created tr := by
  have B := build_inv tr g hb
  obtain ⟨hd, hx⟩ := B.deps_root x d h
  have he := (B.deps x d hd).2 h
  obtain ⟨h1, h2⟩ := B.wf.2.2 d x he
  exact ⟨((B.nodes x).1 h2).resolve_left hx, ((B.nodes d).1 h1).resolve_left hd⟩

private theorem built_ranked (ops : List Op) (hn : ∀ op ∈ ops, ∃ x k, op = .new x k) (s : St) (h : runOps ops = some s) :
    ∃ tr, Inv s tr ∧ ∃ (rank : Nat → Nat) (n : Nat), (∀ c ∈ created tr, rank c < n) ∧ ∀ x d, declaredDep tr.reverse x d → rank d < rank x := by
  induction ops using List.reverseRecOn generalizing s with
  | nil => cases h; exact ⟨[], Inv.empty, fun _ => 0, 0, by simp [created], by simp [declaredDep]⟩
  | append_singleton ops op ih =>
    unfold runOps at h
    rw [List.foldlM_append] at h
    simp only [Option.bind_eq_bind, Option.bind_eq_some_iff] at h
    obtain ⟨s0, h0, h1⟩ := h
    simp only [List.foldlM_cons, List.foldlM_nil, Option.bind_eq_bind, Option.bind_eq_some_iff, Option.pure_def, Option.some.injEq] at h1
    obtain ⟨s1, h1, rfl⟩ := h1
    obtain ⟨tr, I, rank, n, hr, hd⟩ := ih (fun o ho => hn o (by simp [ho])) s0 h0
    obtain ⟨x, k, rfl⟩ := hn op (by simp)
    simp only [step] at h1
    by_cases c : (s0.heap x).isNone ∧ (∀ d ∈ k.registered, (s0.heap d).isSome) ∧ accepted s0.heap k
    · rw [if_pos c] at h1
      simp only [Option.bind_eq_some_iff] at h1
      obtain ⟨g, hg, he⟩ := h1
      cases he
      have hx0 : x ∉ created tr := fun hm => by
        have := (I.objects x).1 hm
        rw [Option.isNone_iff_eq_none.1 c.1] at this; cases this
      have e : tr ++ (Components.Op.create x :: k.registered.map (Components.Op.addDep x)) =
        (tr ++ [Components.Op.create x]) ++ k.registered.map (Components.Op.addDep x) := by simp
      have hcr : created (tr ++ (Components.Op.create x :: k.registered.map (Components.Op.addDep x))) = created tr ++ [x] := by
        rw [e, created_adds, created_append]
      have hdep : ∀ y d, declaredDep (tr ++ (Components.Op.create x :: k.registered.map (Components.Op.addDep x))).reverse y d ↔
          (y = x ∧ d ∈ k.registered) ∨ declaredDep tr.reverse y d := by
        intro y d; rw [e, dep_adds, dep_create]
      refine ⟨tr ++ (Components.Op.create x :: k.registered.map (Components.Op.addDep x)), ⟨build_extend I.built hg, ?_, ?_⟩,
        (fun y => if y = x then n else rank y), n + 1, ?_, ?_⟩
      · intro y
        rw [hcr, List.mem_append, I.objects y]
        show _ ↔ (put s0.heap x k y).isSome = true
        unfold put
        by_cases c0 : y = x
        · rw [if_pos c0]; simp [c0]
        · rw [if_neg c0]; simp [c0]
      · intro y k' hy d hd'
        rw [hdep]
        change put s0.heap x k y = some k' at hy
        unfold put at hy
        by_cases c0 : y = x
        · rw [if_pos c0] at hy; cases hy; exact .inl ⟨c0, (reads_registered k d).1 hd'⟩
        · rw [if_neg c0] at hy; exact .inr (I.registered y k' hy d hd')
      · intro y hy
        rw [hcr, List.mem_append, List.mem_singleton] at hy
        by_cases c0 : y = x
        · simp only [c0, if_true]; omega
        · simp only [c0, if_false]
          have := hr y (hy.resolve_right c0); omega
      · intro y d hyd
        rcases (hdep y d).1 hyd with ⟨rfl, hm⟩ | hyd'
        · have hdc : d ∈ created tr := (I.objects d).2 (c.2.1 d hm)
          have hne : d ≠ y := fun h => hx0 (h ▸ hdc)
          simp only [hne, if_false, if_true]
          exact hr d hdc
        · obtain ⟨h3, h4⟩ := declared_created I.built hyd'
          have n1 : y ≠ x := fun h => hx0 (h ▸ h3)
          have n2 : d ≠ x := fun h => hx0 (h ▸ h4)
          simp only [n1, n2, if_false]
          exact hd y d hyd'
    · rw [if_neg c] at h1; cases h1

/-- **C73 (constructors).** A model whose parameters are only constructed, in whatever order, is never rejected for a cycle, and in every timestep every parameter has in every scenario
the value its definition gives on the current values of the parameters it refers to. -/
theorem C73_constructed (ops : List Op) (hn : ∀ op ∈ ops, ∃ x k, op = .new x k) (s : St) (h : runOps ops = some s) :
    ∃ order, flatten s.graph = .ok order ∧ ∀ stale, Coherent s.heap (s.values order stale) := by
  obtain ⟨tr, I, rank, n, hr, hd⟩ := built_ranked ops hn s h
  have hac : ¬ ∃ c, Relation.TransGen (declaredDep tr.reverse) c c := by
    rintro ⟨c, hc⟩
    have key : ∀ a b, Relation.TransGen (declaredDep tr.reverse) a b → rank b < rank a := by
      intro a b hab
      induction hab with
      | single h => exact hd _ _ h
      | tail _ h ih => exact lt_trans (hd _ _ h) ih
    exact lt_irrefl _ (key c c hc)
  obtain ⟨order, ho, -⟩ := C01_order tr s.graph I.built hac
  refine ⟨order, ho, fun stale => (C73_partial ops ?_ s h order ho stale).1⟩
  intro b o a e s' _
  obtain ⟨x, k, rfl⟩ := hn o (by rw [e]; simp)
  trivial

/-- A demand: the larger of a scaled profile and a minimum, divided by a factor chosen by an index. -/
private def demand : List Op :=
  [.new 1 (.leaf fun g => 10 + g), .new 2 (.scaled 1 3), .new 3 (.maximum 2 32), .new 4 (.index fun g => 1 - (g : Int)), .new 5 (.leaf fun _ => 2), .new 6 (.leaf fun _ => 4),
   .new 7 (.indexedArray 4 [5, 6]), .new 8 (.division 3 7), .new 9 (.aggregated .sum [8, 1, 8])]

example : ((runOps demand).map fun s => (s.values [6, 5, 4, 7, 1, 2, 3, 8, 9] (fun _ _ => some 99) 9 0, s.values [6, 5, 4, 7, 1, 2, 3, 8, 9] (fun _ _ => some 99) 9 1)) =
    some (some 26, some 44) := by decide +kernel

/-- The wiring after the setters is the one used: the numerator is replaced, the removed child no longer counts. -/
example : ((runOps (demand ++ [.setNumerator 8 1, .aggRemove 9 1])).map fun s => s.values [6, 5, 4, 7, 1, 2, 3, 8, 9] (fun _ _ => some 99) 9 1) =
    some (some 11) := by decide +kernel

example : SafeHistory [.new 1 (.leaf fun _ => 1), .new 2 (.leaf fun _ => 2), .new 3 (.division 1 2), .setNumerator 3 2] := by
  intro b op a e s hb
  rcases b with _ | ⟨b1, _ | ⟨b2, _ | ⟨b3, _ | ⟨b4, b⟩⟩⟩⟩ <;> simp only [List.nil_append, List.cons_append, List.cons.injEq] at e
  · rw [← e.1]; trivial
  · rw [← e.2.1]; trivial
  · rw [← e.2.2.1]; trivial
  · rw [← e.2.2.2.1]
    obtain ⟨rfl, rfl, rfl, -⟩ := e
    intro n d hx hnd
    cases hb
    simp only [put, if_true] at hx
    cases hx
    cases hnd
  · obtain ⟨-, -, -, -, e⟩ := e
    simp at e

/-! ### Where the registered dependencies get lost -/

private theorem incoherent {s : St} {order : List Nat} {stale : Nat → Nat → Option Rat} {x : Nat} {k : Kind} (hx : s.heap x = some k)
    (h : ¬ Meaning k (s.values order stale) 0 (s.values order stale x 0)) : ¬ Coherent s.heap (s.values order stale) := fun hc => h (hc x k hx 0)

/-- `5 / p` made out of `p / p` by replacing the numerator. -/
private def ratio : List Op := [.new 1 (.leaf fun _ => 10), .new 2 (.division 1 1), .new 3 (.leaf fun _ => 5), .setNumerator 2 3]

/-- **C73 fails (one parameter used twice).** Numerator and denominator of a division are the same parameter and the numerator is replaced: the denominator is no longer registered, the division
is evaluated before it and uses its value of the previous timestep (here 4 instead of 10).  Replacing the denominator too then raises an error. -/
theorem C73_shared_fails : ∃ s, runOps ratio = some s ∧ flatten s.graph = .ok [3, 2, 1] ∧
    s.values [3, 2, 1] (fun _ _ => some 4) 1 0 = some 10 ∧ s.values [3, 2, 1] (fun _ _ => some 4) 2 0 = some (5 / 4) ∧
    ¬ Coherent s.heap (s.values [3, 2, 1] (fun _ _ => some 4)) ∧
    (runOps (ratio ++ [.setDenominator 2 3])).isNone := by
  refine ⟨⟨fun y => _, ⟨[0, 1, 2, 3], [(0, 1), (0, 2), (0, 3), (3, 2)]⟩⟩, rfl, ?_, by decide +kernel, by decide +kernel, ?_, by decide +kernel⟩
  · rw [flatten, if_neg (by decide +kernel), if_neg (by decide +kernel)]
    simp [dfsPostorder, dfsLoop, Digraph.adj, root]
  · refine incoherent (x := 2) rfl ?_
    intro h
    obtain ⟨h1, -⟩ := h 5 10 (by decide +kernel) (by decide +kernel)
    obtain ⟨q, hq, he⟩ := h1 (by decide +kernel)
    have : q = 5 / 4 := by
      have h2 : some q = some (5 / 4 : Rat) := by rw [← hq]; decide +kernel
      exact Option.some.inj h2
    rw [this] at he
    revert he; decide +kernel

/-- **C73 fails (removed once).** A parameter is twice among the children of an aggregated parameter and one use is removed: the other one is no longer registered. -/
theorem C73_removed_fails : ∃ s, runOps [.new 1 (.leaf fun _ => 10), .new 2 (.aggregated .sum [1, 1]), .aggRemove 2 1] = some s ∧ flatten s.graph = .ok [2, 1] ∧
    s.values [2, 1] (fun _ _ => some 4) 1 0 = some 10 ∧ s.values [2, 1] (fun _ _ => some 4) 2 0 = some 4 ∧
    ¬ Coherent s.heap (s.values [2, 1] (fun _ _ => some 4)) := by
  refine ⟨⟨fun y => _, ⟨[0, 1, 2], [(0, 1), (0, 2)]⟩⟩, rfl, ?_, by decide +kernel, by decide +kernel, ?_⟩
  · rw [flatten, if_neg (by decide +kernel), if_neg (by decide +kernel)]
    simp [dfsPostorder, dfsLoop, Digraph.adj, root]
  · refine incoherent (x := 2) rfl ?_
    intro h
    have := h [10] (.cons (by decide +kernel) .nil)
    revert this
    simp only [AggMeaning]
    decide +kernel

/-- **C73 fails (plain attributes).** `parameter` of a negative, maximum, minimum or offset parameter can be assigned, but the new parameter is not registered. -/
theorem C73_attribute_fails : ∃ s, runOps [.new 3 (.leaf fun _ => 5), .new 1 (.leaf fun _ => 10), .new 2 (.negative 1), .assign 2 3] = some s ∧ flatten s.graph = .ok [1, 2, 3] ∧
    s.values [1, 2, 3] (fun _ _ => some 4) 3 0 = some 5 ∧ s.values [1, 2, 3] (fun _ _ => some 4) 2 0 = some (-4) ∧
    ¬ Coherent s.heap (s.values [1, 2, 3] (fun _ _ => some 4)) := by
  refine ⟨⟨fun y => _, ⟨[0, 3, 1, 2], [(0, 3), (0, 1), (0, 2), (1, 2)]⟩⟩, rfl, ?_, by decide +kernel, by decide +kernel, ?_⟩
  · rw [flatten, if_neg (by decide +kernel), if_neg (by decide +kernel)]
    simp [dfsPostorder, dfsLoop, Digraph.adj, root]
  · refine incoherent (x := 2) rfl ?_
    intro h
    have := h 5 (by decide +kernel)
    revert this
    decide +kernel

/-- **C73 fails (empty aggregated parameters).** An aggregated parameter without children counts as false, so replacing it as
the input of an interpolation leaves it registered: using the interpolation in it later makes a model that is refused for
a cycle, though no parameter refers to itself. -/
theorem C73_empty_fails : ∃ s, runOps [.new 1 (.aggregated .sum []), .new 3 (.leaf fun _ => 5), .new 2 (.interpolated 1 some), .setInterpolated 2 3, .aggAdd 1 2] = some s ∧
    s.heap 1 = some (.aggregated .sum [2]) ∧ s.heap 2 = some (.interpolated 3 some) ∧ (∀ order, flatten s.graph ≠ .ok order) := by
  refine ⟨⟨fun y => _, ⟨[0, 1, 3, 2], [(0, 1), (0, 3), (0, 2), (1, 2), (3, 2), (2, 1)]⟩⟩, rfl, rfl, rfl, ?_⟩
  intro order h
  rw [flatten, if_pos (by decide +kernel)] at h
  cases h

/-- An index parameter may be negative: as in Python the array is then indexed from its end instead of raising an error. -/
theorem C73_negative_index : ((runOps [.new 1 (.index fun _ => -1), .new 2 (.leaf fun _ => 7), .new 3 (.leaf fun _ => 8), .new 4 (.indexedArray 1 [2, 3])]).map
    fun s => s.values [3, 2, 1, 4] (fun _ _ => none) 4 0) = some (some 8) := by decide +kernel

/-! ### What the setters do to the definitions -/

private theorem put_self (h : Nat → Option Kind) (x : Nat) (k : Kind) : put h x k x = some k := if_pos rfl

private theorem put_other (h : Nat → Option Kind) {x y : Nat} (k : Kind) (hy : y ≠ x) : put h x k y = h y := if_neg hy

/-- **C73 (definitions).** An operation that succeeds changes one object and no other: a constructor makes the object, and a setter replaces one operand and keeps everything else. -/
theorem C73_rewired {s s' : St} {op : Op} (h : step s op = some s') :
    ∃ k, Rewired op (s.heap op.target) k ∧ s'.heap op.target = some k ∧ ∀ y, y ≠ op.target → s'.heap y = s.heap y := by
  have fin : ∀ {k : Kind} {g : Digraph}, Rewired op (s.heap op.target) k → (⟨put s.heap op.target k, g⟩ : St) = s' →
      ∃ k, Rewired op (s.heap op.target) k ∧ s'.heap op.target = some k ∧ ∀ y, y ≠ op.target → s'.heap y = s.heap y := by
    rintro k g hr rfl
    exact ⟨k, hr, put_self _ _ _, fun _ hy => put_other _ _ hy⟩
  cases op with
  | new x k =>
    simp only [step] at h
    split at h
    · rename_i hc
      obtain ⟨g, _, h⟩ := Option.bind_eq_some_iff.1 h
      refine fin (k := k) (g := g) ?_ (Option.some.inj h)
      show Rewired (.new x k) (s.heap x) k
      rw [Option.isNone_iff_eq_none.1 hc.1]
      exact .new x k
    · cases h
  | setNumerator x p =>
    simp only [step] at h
    split at h
    · rename_i hx _
      obtain ⟨g, _, h⟩ := Option.bind_eq_some_iff.1 h
      refine fin (g := g) ?_ (Option.some.inj h)
      show Rewired _ (s.heap x) _
      rw [hx]; exact .numerator ..
    · cases h
  | setDenominator x p =>
    simp only [step] at h
    split at h
    · rename_i hx _
      obtain ⟨g, _, h⟩ := Option.bind_eq_some_iff.1 h
      refine fin (g := g) ?_ (Option.some.inj h)
      show Rewired _ (s.heap x) _
      rw [hx]; exact .denominator ..
    · cases h
  | aggAdd x p =>
    simp only [step] at h
    split at h
    · rename_i hx _
      obtain ⟨g, _, h⟩ := Option.bind_eq_some_iff.1 h
      refine fin (g := g) ?_ (Option.some.inj h)
      show Rewired _ (s.heap x) _
      rw [hx]; exact .add ..
    · cases h
  | aggRemove x p =>
    simp only [step] at h
    split at h
    · rename_i f ps hx
      split at h
      · rename_i hp
        obtain ⟨g, _, h⟩ := Option.bind_eq_some_iff.1 h
        refine fin (g := g) ?_ (Option.some.inj h)
        show Rewired _ (s.heap x) _
        obtain ⟨a, b, ha, e, e'⟩ := List.exists_erase_eq hp
        rw [hx, e', e]; exact .remove x p f a b ha
      · cases h
    · cases h
  | setInterpolated x p =>
    simp only [step] at h
    split at h
    · rename_i hx _
      obtain ⟨g, _, h⟩ := Option.bind_eq_some_iff.1 h
      refine fin (g := g) ?_ (Option.some.inj h)
      show Rewired _ (s.heap x) _
      rw [hx]; exact .interpolated ..
    · cases h
  | setUpper x p =>
    simp only [step] at h
    split at h
    · rename_i hx _
      obtain ⟨g, _, h⟩ := Option.bind_eq_some_iff.1 h
      refine fin (g := g) ?_ (Option.some.inj h)
      show Rewired _ (s.heap x) _
      rw [hx]; exact .upper ..
    · cases h
  | setLower x p =>
    simp only [step] at h
    split at h
    · rename_i hx
      obtain ⟨g, _, h⟩ := Option.bind_eq_some_iff.1 h
      refine fin (g := g) ?_ (Option.some.inj h)
      show Rewired _ (s.heap x) _
      rw [hx]; exact .lower ..
    · cases h
  | assign x p =>
    simp only [step] at h
    split at h
    · rename_i k _ hx _
      obtain ⟨k', hk, h⟩ := Option.bind_eq_some_iff.1 h
      refine fin (k := k') (g := s.graph) ?_ (Option.some.inj h)
      show Rewired _ (s.heap x) _
      rw [hx]
      cases k <;> simp only [Kind.reassign, Option.some.injEq, reduceCtorEq] at hk <;> subst hk <;> constructor
    · cases h

/-- C73: the operand of a negative maximum is replaced, its threshold stays. -/
example : ∃ s s', runOps [.new 1 (.leaf fun _ => 10), .new 3 (.leaf fun _ => 5), .new 2 (.negativeMax 1 7)] = some s ∧ step s (.assign 2 3) = some s' ∧ s'.heap 2 = some (.negativeMax 3 7) :=
  ⟨_, _, rfl, rfl, rfl⟩

/-- **C73 (operands of an indexed array).** An indexed array is made of an index parameter and nothing else: where it exists, its first operand is one that has an index. -/
theorem C73_indexed {s s' : St} {x i : Nat} {ps : List Nat} (h : step s (.new x (.indexedArray i ps)) = some s') : ∃ f, s.heap i = some (.index f) := by
  simp only [step] at h
  by_cases c : (s.heap x).isNone ∧ (∀ d ∈ (Kind.indexedArray i ps).registered, (s.heap d).isSome) ∧ accepted s.heap (.indexedArray i ps)
  · have := c.2.2
    unfold accepted at this
    dsimp only at this
    split at this
    · exact ⟨_, by assumption⟩
    · cases this
  · rw [if_neg c] at h; cases h

example : (runOps [.new 1 (.leaf fun _ => 1), .new 2 (.indexedArray 1 [1])]).isNone = true ∧ (runOps [.new 1 (.index fun _ => 1), .new 2 (.indexedArray 1 [1])]).isSome = true := by
  decide +kernel

private theorem addEdge_edges {g : Digraph} (u v : Nat) (e : Nat × Nat) : e ∈ (g.addEdge u v).edges ↔ e ∈ g.edges ∨ e = (u, v) := by
  have hn : ∀ (g : Digraph) w, (g.addNode w).edges = g.edges := by
    intro g w
    unfold Digraph.addNode
    split <;> rfl
  unfold Digraph.addEdge
  dsimp only
  rw [hn, hn]
  split
  · rename_i h
    rw [hn, hn]
    exact ⟨.inl, fun h' => h'.elim id fun h' => h' ▸ h⟩
  · simp

private theorem addEdge_nodup {g : Digraph} (u v : Nat) (h : g.edges.Nodup) : (g.addEdge u v).edges.Nodup := by
  have hn : ∀ (g : Digraph) w, (g.addNode w).edges = g.edges := by
    intro g w
    unfold Digraph.addNode
    split <;> rfl
  unfold Digraph.addEdge
  dsimp only
  rw [hn, hn]
  split
  · rw [hn, hn]; exact h
  · rename_i hm
    exact List.nodup_append.2 ⟨h, by simp, fun a ha b hb => by
      rintro rfl
      simp only [List.mem_singleton] at hb
      exact hm (hb ▸ ha)⟩

private theorem applyOp_nodup {g g' : Digraph} {op : Components.Op} (h : applyOp g op = some g') (hn : g.edges.Nodup) : g'.edges.Nodup := by
  cases op with
  | create c => simp only [applyOp] at h; split at h <;> cases h; exact addEdge_nodup _ _ hn
  | addDep x d => simp only [applyOp] at h; split at h <;> cases h; exact addEdge_nodup _ _ hn
  | addOther x => simp only [applyOp] at h; split at h <;> cases h; exact hn
  | removeDep x d =>
    simp only [applyOp, Digraph.removeEdge] at h
    split at h
    · cases h
    · split at h <;> cases h
      exact hn.erase _

private theorem build_nodup : ∀ {l : List Components.Op} {g g' : Digraph}, l.foldlM applyOp g = some g' → g.edges.Nodup → g'.edges.Nodup
  | [], g, g', h, hn => by cases h; exact hn
  | op :: l, g, g', h, hn => by
    rw [List.foldlM_cons] at h
    obtain ⟨g1, h1, h2⟩ := Option.bind_eq_some_iff.1 h
    exact build_nodup h2 (applyOp_nodup h1 hn)

private theorem propertySet_nodup {h : Nat → Option Kind} {g g' : Digraph} {x : Nat} {old new : Option Nat} (e : propertySet h g x old new = some g') (hn : g.edges.Nodup) :
    g'.edges.Nodup := by
  unfold propertySet at e
  obtain ⟨g1, h1, h2⟩ := Option.bind_eq_some_iff.1 e
  have n1 : g1.edges.Nodup := by
    cases old with
    | none => cases h1; exact hn
    | some o =>
      dsimp only at h1
      split at h1
      · exact applyOp_nodup h1 hn
      · cases h1; exact hn
  cases new <;> exact applyOp_nodup h2 n1

private theorem step_nodup {s s' : St} {op : Op} (h : step s op = some s') (hn : s.graph.edges.Nodup) : s'.graph.edges.Nodup := by
  cases op <;> simp only [step] at h <;> split at h <;> first
    | (cases h; done)
    | (obtain ⟨g, hg, h⟩ := Option.bind_eq_some_iff.1 h; cases h; exact build_nodup hg hn)
    | (obtain ⟨g, hg, h⟩ := Option.bind_eq_some_iff.1 h; cases h; exact applyOp_nodup hg hn)
    | (obtain ⟨g, hg, h⟩ := Option.bind_eq_some_iff.1 h; cases h; exact propertySet_nodup hg hn)
    | (obtain ⟨g, hg, h⟩ := Option.bind_eq_some_iff.1 h; cases h; exact hn)
    | (split at h
       · obtain ⟨g, hg, h⟩ := Option.bind_eq_some_iff.1 h; cases h; exact applyOp_nodup hg hn
       · cases h)

private theorem run_nodup (ops : List Op) (s : St) (h : runOps ops = some s) : s.graph.edges.Nodup := by
  have key : ∀ (l : List Op) (s0 s : St), l.foldlM step s0 = some s → s0.graph.edges.Nodup → s.graph.edges.Nodup := by
    intro l
    induction l with
    | nil => intro s0 s h hn; cases h; exact hn
    | cons op l ih =>
      intro s0 s h hn
      rw [List.foldlM_cons] at h
      obtain ⟨s1, h1, h2⟩ := Option.bind_eq_some_iff.1 h
      exact ih s1 s h2 (step_nodup h1 hn)
  exact key ops St.empty s h (by decide)

private theorem remove_gone {g g' : Digraph} {x o : Nat} (h : applyOp g (.removeDep x o) = some g') (hn : g.edges.Nodup) : (o, x) ∉ g'.edges := by
  simp only [applyOp, Digraph.removeEdge] at h
  split at h
  · cases h
  · split at h <;> cases h
    exact fun hm => ((List.Nodup.mem_erase_iff hn).1 hm).1 rfl

private theorem swap_gone {g g' : Digraph} {x o p : Nat} (h : [Components.Op.removeDep x o, Components.Op.addDep x p].foldlM applyOp g = some g') (hn : g.edges.Nodup) (hp : p ≠ o) :
    (o, x) ∉ g'.edges ∧ (p, x) ∈ g'.edges := by
  rw [List.foldlM_cons] at h
  obtain ⟨g1, h1, h2⟩ := Option.bind_eq_some_iff.1 h
  rw [List.foldlM_cons] at h2
  obtain ⟨g2, h2, h3⟩ := Option.bind_eq_some_iff.1 h2
  cases h3
  have r := remove_gone h1 hn
  simp only [applyOp] at h2
  split at h2 <;> cases h2
  rw [addEdge_edges, addEdge_edges]
  refine ⟨?_, .inr rfl⟩
  rintro (hm | hm)
  · exact r hm
  · exact hp (Prod.mk.inj hm).1.symm

private theorem property_gone {h : Nat → Option Kind} {g g' : Digraph} {x o : Nat} {new : Option Nat} (e : propertySet h g x (some o) new = some g') (hn : g.edges.Nodup)
    (ho : ∀ f, h o ≠ some (.aggregated f [])) (hp : new ≠ some o) : (o, x) ∉ g'.edges ∧ ∀ p, new = some p → (p, x) ∈ g'.edges := by
  unfold propertySet at e
  obtain ⟨g1, h1, h2⟩ := Option.bind_eq_some_iff.1 e
  have ht : truthy h o = true := by
    unfold truthy
    split
    · rename_i f hf; exact absurd hf (ho f)
    · rfl
  dsimp only at h1
  rw [if_pos ht] at h1
  have r := remove_gone h1 hn
  cases new with
  | none =>
    simp only [applyOp] at h2
    split at h2 <;> cases h2
    exact ⟨r, fun p hp => by cases hp⟩
  | some p =>
    simp only [applyOp] at h2
    split at h2 <;> cases h2
    refine ⟨?_, fun q hq => ?_⟩
    · rw [addEdge_edges]
      rintro (hm | hm)
      · exact r hm
      · exact hp (congrArg some (Prod.mk.inj hm).1.symm)
    · cases hq
      exact (addEdge_edges _ _ _).2 (.inr rfl)

/-- **C73 (dependencies of setters).** After a setter, or a removal of a member, the parameter that was replaced is no longer a child of the object, so that the object does not wait for it and it can be made to depend on the object;
and the parameter that was put in its place is one. Left out (in `Replaces`) are aggregated parameters without members, which stay registered (`C73_empty_fails`). -/
theorem C73_released (ops : List Op) (s s' : St) (hr : runOps ops = some s) (op : Op) (h : step s op = some s') (k : Kind) (hk : s.heap op.target = some k) (o : Nat) (new : Option Nat)
    (hp : Replaces s.heap op k o new) (hne : new ≠ some o) : (o, op.target) ∉ s'.graph.edges ∧ ∀ p, new = some p → (p, op.target) ∈ s'.graph.edges := by
  have hn := run_nodup ops s hr
  cases hp with
  | numerator x p _ d =>
    dsimp only [Op.target] at hk ⊢
    simp only [step, hk] at h
    split at h
    · rename_i e _; cases e
      obtain ⟨g, hg, h⟩ := Option.bind_eq_some_iff.1 h
      cases h
      have := swap_gone hg hn (fun e => hne (e ▸ rfl))
      exact ⟨this.1, fun q hq => by cases hq; exact this.2⟩
    · cases h
  | denominator x p n _ =>
    dsimp only [Op.target] at hk ⊢
    simp only [step, hk] at h
    split at h
    · rename_i e _; cases e
      obtain ⟨g, hg, h⟩ := Option.bind_eq_some_iff.1 h
      cases h
      have := swap_gone hg hn (fun e => hne (e ▸ rfl))
      exact ⟨this.1, fun q hq => by cases hq; exact this.2⟩
    · cases h
  | member x _ f ps =>
    dsimp only [Op.target] at hk ⊢
    simp only [step, hk] at h
    split at h
    · obtain ⟨g, hg, h⟩ := Option.bind_eq_some_iff.1 h
      cases h
      exact ⟨remove_gone hg hn, fun q hq => by cases hq⟩
    · cases h
  | interpolated x p _ f ho =>
    dsimp only [Op.target] at hk ⊢
    simp only [step, hk] at h
    split at h
    · rename_i e _; cases e
      obtain ⟨g, hg, h⟩ := Option.bind_eq_some_iff.1 h
      cases h
      exact property_gone hg hn ho hne
    · cases h
  | upper x p _ l f ho =>
    dsimp only [Op.target] at hk ⊢
    simp only [step, hk] at h
    split at h
    · rename_i e _; cases e
      obtain ⟨g, hg, h⟩ := Option.bind_eq_some_iff.1 h
      cases h
      exact property_gone hg hn ho hne
    · cases h
  | lower x u _ _ f ho =>
    dsimp only [Op.target] at hk ⊢
    simp only [step, hk] at h
    obtain ⟨g, hg, h⟩ := Option.bind_eq_some_iff.1 h
    cases h
    exact property_gone hg hn ho hne

/-- Replacing the input of an interpolation, which is an aggregated parameter of one member. -/
example : ∃ s s', runOps [.new 4 (.leaf fun _ => 1), .new 1 (.aggregated .sum [4]), .new 3 (.leaf fun _ => 5), .new 2 (.interpolated 1 some)] = some s ∧ step s (.setInterpolated 2 3) = some s' ∧
    Replaces s.heap (.setInterpolated 2 3) (.interpolated 1 some) 1 (some 3) ∧ s'.graph.edges = [(0, 4), (0, 1), (4, 1), (0, 3), (0, 2), (3, 2)] := by
  refine ⟨_, _, rfl, rfl, .interpolated 2 3 1 some ?_, by decide +kernel⟩
  intro g h
  have h : some (Kind.aggregated .sum [4]) = some (Kind.aggregated g []) := h
  injection h with h
  injection h with _ h
  cases h

end Verif.Expressions

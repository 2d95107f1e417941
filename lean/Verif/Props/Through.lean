import Verif.Props.Units
import Verif.Spec.Through
/-!
# C122: a link put into a connection
-/

namespace Verif.Lp

open Verif Verif.Bounds Verif.Composite

/-! ## Routes -/

private theorem through_cons (a b l x : Nat) (r : List Nat) : ∃ t, through a b l (x :: r) = x :: t := by
  cases r with
  | nil => exact ⟨[], rfl⟩
  | cons y r => unfold through; split <;> exact ⟨_, rfl⟩

private theorem through_head (a b l : Nat) (r : List Nat) : (through a b l r).head? = r.head? := by
  cases r with
  | nil => rfl
  | cons x r => obtain ⟨t, ht⟩ := through_cons a b l x r; rw [ht]; rfl

private theorem through_last (a b l : Nat) (r : List Nat) : (through a b l r).getLast? = r.getLast? := by
  induction r with
  | nil => rfl
  | cons x r ih =>
    cases r with
    | nil => rfl
    | cons y r =>
      obtain ⟨t, ht⟩ := through_cons a b l y r
      rw [ht] at ih
      unfold through
      split
      · rw [ht, List.getLast?_cons_cons, List.getLast?_cons_cons, ih, List.getLast?_cons_cons]
      · rw [ht, List.getLast?_cons_cons, ih, List.getLast?_cons_cons]

private theorem through_filter {a b l : Nat} {r : List Nat} (h : l ∉ r) : (through a b l r).filter (fun n => n != l) = r := by
  induction r with
  | nil => rfl
  | cons x r ih =>
    have hx : x ≠ l := by rintro rfl; simp at h
    cases r with
    | nil => simp [through, hx]
    | cons y r =>
      have ih := ih (by intro hm; exact h (List.mem_cons_of_mem _ hm))
      unfold through
      split <;> simp [hx, ih]

private theorem through_contains {a b l n : Nat} {r : List Nat} (h : l ∉ r) (hn : n ≠ l) : (through a b l r).contains n = r.contains n := by
  have := through_filter (a := a) (b := b) h
  rw [Bool.eq_iff_iff, List.contains_iff_mem, List.contains_iff_mem]
  conv_rhs => rw [← this]
  rw [List.mem_filter]
  simp [hn]

private theorem through_mem {a b l : Nat} {r : List Nat} (h : l ∉ r) : (through a b l r).contains l = takes a b r := by
  induction r with
  | nil => rfl
  | cons x r ih =>
    have hx : l ≠ x := by rintro rfl; simp at h
    cases r with
    | nil => simp [through, takes, hx]
    | cons y r =>
      have ih := ih (by intro hm; exact h (List.mem_cons_of_mem _ hm))
      unfold through takes
      by_cases hc : x = a ∧ y = b
      · rw [if_pos hc]; simp [hc.1, hc.2]
      · rw [if_neg hc, List.contains_cons, ih]
        have : (x == a && y == b) = false := by rw [Bool.eq_false_iff]; simpa using hc
        simp [this, hx]

private theorem passes_through {d : Data} {a b l n : Nat} {r : List Nat} (h : l ∉ r) (hn : n ≠ l) : passes (d.kind n) n (through a b l r) = passes (d.kind n) n r := by
  unfold passes
  split
  · rw [through_head]
  · rw [through_last]
  · exact through_contains h hn

private theorem routeFactors_through {v : VirtualData} {a b l : Nat} {r : List Nat} (h : l ∉ r) (hv : l ∉ v.nodes) : routeFactors v (through a b l r) = routeFactors v r := by
  have key : ∀ s : List Nat, routeFactors v s = routeFactors v (s.filter fun n => n != l) := by
    intro s
    induction s with
    | nil => rfl
    | cons x s ih =>
      unfold routeFactors at ih ⊢
      by_cases hx : x = l
      · subst hx
        have : v.nodes.idxOf? x = none := by rw [List.idxOf?_eq_none_iff]; exact hv
        rw [List.filterMap_cons_none (by rw [this]; rfl), ih]; simp
      · rw [List.filter_cons_of_pos (p := fun n => n != l) (by simpa using hx), List.filterMap_cons, List.filterMap_cons, ih]
  rw [key (through a b l r), through_filter h]

private theorem lastWeight_through {g : AggData} {a b l : Nat} {r : List Nat} (h : l ∉ r) (hg : l ∉ g.nodes) :
    (lastWeight g fun n => (through a b l r).contains n) = lastWeight g fun n => r.contains n := by
  unfold lastWeight
  congr 2
  apply List.filter_congr
  intro p hp
  exact through_contains h (by rintro rfl; exact hg (List.of_mem_zip hp).1)

private theorem sum_filter_zero {c : Nat → Rat} {l : Nat} (hc : c l = 0) (p : Nat → Bool) (s : List Nat) : ((s.filter p).map c).sum = (((s.filter fun n => n != l).filter p).map c).sum := by
  induction s with
  | nil => rfl
  | cons x s ih =>
    by_cases hx : x = l
    · subst hx
      by_cases hp : p x = true <;> simp [hp, hc, ih]
    · by_cases hp : p x = true <;> simp [hp, hx, ih]

private theorem middle_filter {l : Nat} {s : List Nat} (h1 : s.head? ≠ some l) (h2 : s.getLast? ≠ some l) :
    s.tail.dropLast.filter (fun n => n != l) = (s.filter fun n => n != l).tail.dropLast := by
  cases s with
  | nil => rfl
  | cons x t =>
    have hx : x ≠ l := by simpa using h1
    rw [List.filter_cons_of_pos (p := fun n => n != l) (by simpa using hx)]
    simp only [List.tail_cons]
    rcases List.eq_nil_or_concat t with rfl | ⟨u, z, rfl⟩
    · rfl
    · have hz : z ≠ l := by
        intro hz
        apply h2
        rw [hz, List.concat_eq_append, ← List.cons_append, List.getLast?_concat]
      simp [hz]

private theorem routeCost_through {d : Data} {a b l : Nat} {r : List Nat} (h : l ∉ r) (hc : d.cost l = 0) : routeCost d (through a b l r) = routeCost d r := by
  unfold routeCost
  rw [through_head, through_last]
  simp only [List.map_append, List.sum_append]
  congr 2
  have h1 : (through a b l r).head? ≠ some l := by rw [through_head]; intro hh; exact h (mem_of_head? hh)
  have h2 : (through a b l r).getLast? ≠ some l := by rw [through_last]; intro hh; exact h (List.mem_of_getLast? hh)
  rw [sum_filter_zero hc, middle_filter h1 h2, through_filter h]

private theorem S_map {α β : Type} (f : α → β) (l : List α) (x : List Rat) (w : β → Rat) : S (l.map f) x w = S l x fun a => w (f a) := by
  rw [S_zip, S_zip, List.zip_map_left, List.map_map]
  rfl

/-- Lines that agree on corresponding columns. -/
private def Agree {α β : Type} (f : α → β) (l : List α) (o : Option (Line α)) (o' : Option (Line β)) : Prop :=
  match o, o' with
  | none, none => True
  | some L, some L' => (∀ a ∈ l, L'.bad (f a) = L.bad a ∧ L'.mult (f a) = L.mult a ∧ L'.coef (f a) = L.coef a) ∧ L'.bounds = L.bounds
  | _, _ => False

private theorem agree_holds {α β : Type} {f : α → β} {l : List α} {o : Option (Line α)} {o' : Option (Line β)} (h : Agree f l o o') (x : List Rat) :
    (∃ L', o' = some L' ∧ L'.Built (l.map f) ∧ L'.Holds (l.map f) x) ↔ ∃ L, o = some L ∧ L.Built l ∧ L.Holds l x := by
  cases o with
  | none => cases o' with
    | none => simp
    | some L' => exact h.elim
  | some L => cases o' with
    | none => exact h.elim
    | some L' =>
      obtain ⟨h1, h2⟩ := h
      simp only [Option.some.injEq, exists_eq_left']
      unfold Line.Built Line.Holds
      rw [S_map, h2, S_congr (g := L.coef) fun a ha => (h1 a ha).2.2]
      simp only [List.mem_map, forall_exists_index, and_imp, forall_apply_eq_imp_iff₂, exists_exists_and_eq_and]
      have e1 : (∀ a ∈ l, L'.bad (f a) = false) ↔ ∀ a ∈ l, L.bad a = false := forall₂_congr fun a ha => by rw [(h1 a ha).1]
      have e2 : (∃ a ∈ l, L'.mult (f a) ≠ 0) ↔ ∃ a ∈ l, L.mult a ≠ 0 := exists_congr fun a => and_congr_right fun ha => by rw [(h1 a ha).2.1]
      have e3 : (∀ a ∈ l, L'.mult (f a) ≤ 1) ↔ ∀ a ∈ l, L.mult a ≤ 1 := forall₂_congr fun a ha => by rw [(h1 a ha).2.1]
      rw [e1, e2, e3]

private theorem agree_limit {α β : Type} {f : α → β} {l : List α} {bad : α → Bool} {m : α → Nat} {w : α → Rat} {bad' : β → Bool} {m' : β → Nat} {w' : β → Rat} {mn mx : F}
    (h : ∀ a ∈ l, bad' (f a) = bad a ∧ m' (f a) = m a ∧ w' (f a) = w a) : Agree f l (limitLine bad m w mn mx) (limitLine bad' m' w' mn mx) := by
  unfold limitLine
  cases flowRow true mn mx with
  | stored r => exact ⟨h, rfl⟩
  | glpkError => trivial
  | storedNan => trivial

private theorem plainRow : flowRow true (.fin 0) .posInf = .stored ⟨.lo, 0, dblMax⟩ := by decide +kernel

private theorem allHold_append {α : Type} (p q : List (Option (Line α))) (l : List α) (x : List Rat) : AllHold (p ++ q) l x ↔ AllHold p l x ∧ AllHold q l x := by
  unfold AllHold; simp only [List.mem_append, or_imp, forall_and]

private theorem nonStorages_withNode {d : Data} {l : Nat} (h : d.kind l = .link) : (withNode d l).nonStorages = d.nonStorages ++ [l] := by
  unfold Data.nonStorages withNode
  simp [List.filter_append, h]

private theorem through_self {a b l : Nat} {r : List Nat} (h : takes a b r = false) : through a b l r = r := by
  induction r with
  | nil => rfl
  | cons x r ih =>
    cases r with
    | nil => rfl
    | cons y r =>
      unfold takes at h
      rw [Bool.or_eq_false_iff] at h
      unfold through
      rw [if_neg, ih h.2]
      rintro ⟨rfl, rfl⟩
      simp at h

private theorem takes_mem {a b : Nat} {r : List Nat} (h : takes a b r = true) : a ∈ r := by
  induction r with
  | nil => cases h
  | cons x r ih =>
    cases r with
    | nil => cases h
    | cons y r =>
      unfold takes at h
      rw [Bool.or_eq_true] at h
      rcases h with h | h
      · simp at h; simp [h.1]
      · exact List.mem_cons_of_mem _ (ih h)

private theorem through_nodup {a b l : Nat} {r : List Nat} (hr : r.Nodup) (h : l ∉ r) : (through a b l r).Nodup := by
  induction r with
  | nil => exact hr
  | cons x r ih =>
    cases r with
    | nil => exact hr
    | cons y r =>
      rw [List.nodup_cons] at hr
      have hx : x ≠ l := by rintro rfl; simp at h
      have hl : l ∉ y :: r := fun hm => h (List.mem_cons_of_mem _ hm)
      have ih := ih hr.2 hl
      have hx' : x ∉ through a b l (y :: r) := by
        intro hm
        have := through_contains (a := a) (b := b) hl hx
        exact hr.1 (by rw [← List.contains_iff_mem, ← this]; simpa using hm)
      unfold through
      split
      · rename_i hc
        refine List.nodup_cons.2 ⟨?_, List.nodup_cons.2 ⟨?_, ih⟩⟩
        · rw [List.mem_cons]; rintro (e | e)
          · exact hx e
          · exact hx' e
        · intro hm
          have h1 := through_mem (a := a) (b := b) hl
          have h2 : takes a b (y :: r) = true := by rw [← h1]; simpa using hm
          exact hr.1 (hc.1 ▸ takes_mem h2)
      · exact List.nodup_cons.2 ⟨hx', ih⟩

private theorem through_wellRouted {d : Data} {a b l : Nat} (hl : PlainLink d l) {routes : List (List Nat)} (hw : WellRouted d routes) :
    WellRouted (withNode d l) (routes.map (through a b l)) := by
  intro r' hr'
  obtain ⟨r, hr, rfl⟩ := List.mem_map.1 hr'
  obtain ⟨h1, h2, h3, h4⟩ := hw r hr
  have hlr : l ∉ r := fun hm => hl.new (h4 l hm).2
  refine ⟨through_nodup h1 hlr, by rw [through_head]; exact h2, by rw [through_last]; exact h3, fun n hn => ?_⟩
  by_cases hnl : n = l
  · subst hnl
    exact ⟨by rw [show (withNode d n).kind n = d.kind n from rfl, hl.kind]; exact Kind.noConfusion, by simp [withNode]⟩
  · have : n ∈ r := by
      have := through_contains (a := a) (b := b) hlr hnl
      rw [← List.contains_iff_mem, ← this]; simpa using hn
    exact ⟨(h4 n this).1, by simp [withNode, (h4 n this).2]⟩

private theorem carries_through {d : Data} {a b l n : Nat} {r : List Nat} (h : l ∉ r) (hn : n ≠ l) : Carries (withNode d l) (through a b l r) n ↔ Carries d r n := by
  unfold Carries
  have hk : (withNode d l).kind n = d.kind n := rfl
  rw [hk]
  cases d.kind n with
  | input => simp only [through_head]
  | output => simp only [through_last]
  | link =>
    have := through_contains (a := a) (b := b) h hn
    simp only
    rw [← List.contains_iff_mem, ← List.contains_iff_mem, this]
  | other => exact Iff.rfl

private theorem route_agree {d : Data} {a b l : Nat} (hl : PlainLink d l) {routes : List (List Nat)} (hr : ∀ r ∈ routes, l ∉ r) (x : List Rat) :
    AllHold (d.nonStorages.map (nodeLine d) ++ d.cross.map (crossLine d) ++ d.storages.map (fun s => some (storageLine d s)) ++ d.virtuals.map (fun v => some (virtualLine d v)) ++
      d.aggs.flatMap factorLines ++ d.aggs.map aggLine) (routes.map (through a b l)) x ↔ AllHold (routeLines d) routes x := by
  unfold routeLines
  simp only [allHold_append]
  have key : ∀ ls : List (Option (Line (List Nat))), (∀ o ∈ ls, Agree (through a b l) routes o o) → (AllHold ls (routes.map (through a b l)) x ↔ AllHold ls routes x) := by
    intro ls h
    unfold AllHold
    exact forall₂_congr fun o ho => agree_holds (h o ho) x
  rw [key (d.nonStorages.map (nodeLine d)), key (d.cross.map (crossLine d)), key (d.storages.map _), key (d.virtuals.map _), key (d.aggs.flatMap factorLines), key (d.aggs.map aggLine)]
  · intro o ho
    obtain ⟨g, hg, rfl⟩ := List.mem_map.1 ho
    refine agree_limit fun r hm => ?_
    have := lastWeight_through (a := a) (b := b) (hr r hm) (hl.aggs g hg)
    exact ⟨rfl, by simp only [this], by simp only [this]⟩
  · intro o ho
    obtain ⟨g, hg, ho⟩ := List.mem_flatMap.1 ho
    have hgn := hl.aggs g hg
    unfold factorLines at ho
    split at ho
    · cases ho
    · split at ho
      · rw [List.mem_singleton.1 ho]; trivial
      · rename_i n0 rest hn
        split at ho
        · rw [List.mem_singleton.1 ho]; trivial
        · split at ho
          · rw [List.mem_singleton.1 ho]; trivial
          · obtain ⟨p, hp, rfl⟩ := List.mem_map.1 ho
            rw [hn] at hgn
            have h0 : n0 ≠ l := by rintro rfl; simp at hgn
            have h1 : p.1 ≠ l := by rintro rfl; exact hgn (List.mem_cons_of_mem _ (List.of_mem_zip hp).1)
            refine ⟨fun r hm => ?_, rfl⟩
            have e0 := through_contains (a := a) (b := b) (hr r hm) h0
            have e1 := through_contains (a := a) (b := b) (hr r hm) h1
            exact ⟨rfl, by simp only [e0, e1], by simp only [e0, e1]⟩
  · intro o ho
    obtain ⟨v, hv, rfl⟩ := List.mem_map.1 ho
    refine ⟨fun r hm => ?_, rfl⟩
    have := routeFactors_through (a := a) (b := b) (hr r hm) (hl.virtuals v hv)
    exact ⟨rfl, by simp only [virtualLine, this], by simp only [virtualLine, this]⟩
  · intro o ho
    obtain ⟨s, hs, rfl⟩ := List.mem_map.1 ho
    refine ⟨fun r hm => ?_, rfl⟩
    exact ⟨rfl, by simp only [storageLine, through_head, through_last], by simp only [storageLine, through_head, through_last]⟩
  · intro o ho
    obtain ⟨c, hc, rfl⟩ := List.mem_map.1 ho
    unfold crossLine
    split
    · trivial
    · refine ⟨fun r hm => ?_, rfl⟩
      have := passes_through (d := d) (a := a) (b := b) (hr r hm) (hl.cross c hc).1
      exact ⟨rfl, by simp only [this, through_head], by simp only [this, through_head]⟩
  · intro o ho
    obtain ⟨n, hn, rfl⟩ := List.mem_map.1 ho
    have hnl : n ≠ l := by rintro rfl; exact hl.new (mem_nonStorages.1 hn).1
    refine agree_limit fun r hm => ?_
    have := passes_through (d := d) (a := a) (b := b) (hr r hm) hnl
    exact ⟨rfl, by simp only [this], by simp only [this]⟩

/-- **C122 (a link put into a connection).** A link without limits and costs, put into a connection that some route takes, changes nothing: the same flows of the routes are feasible, at the same cost, the same
ones are optimal, all other nodes have the same flows, and the flow of the link is that of the connection. -/
theorem C122_route_partial (d : Data) (routes : List (List Nat)) (hw : WellRouted d routes) (a b l : Nat) (hl : PlainLink d l) (hu : ∃ r ∈ routes, takes a b r = true) (x : List Rat) :
    (RouteFeasible (withNode d l) (routes.map (through a b l)) x ↔ RouteFeasible d routes x) ∧
    routeObjective (withNode d l) (routes.map (through a b l)) x = routeObjective d routes x ∧
    (Optimal (withNode d l) (routes.map (through a b l)) x ↔ Optimal d routes x) ∧
    (∀ n, n ≠ l → routeNodeFlow (withNode d l) (routes.map (through a b l)) x n = routeNodeFlow d routes x n) ∧
    routeNodeFlow (withNode d l) (routes.map (through a b l)) x l = connectionFlow a b routes x := by
  have hr : ∀ r ∈ routes, l ∉ r := fun r hm hlr => hl.new ((hw r hm).2.2.2 l hlr).2
  obtain ⟨r0, hr0, hu0⟩ := hu
  have hfeas : ∀ x, RouteFeasible (withNode d l) (routes.map (through a b l)) x ↔ RouteFeasible d routes x := by
    intro x
    rw [routeFeasible_iff, routeFeasible_iff, ← route_agree (a := a) (b := b) hl hr x, List.length_map]
    have h0 : (withNode d l).nodes ≠ [] ∧ routes.map (through a b l) ≠ [] ∧ (withNode d l).nonStorages ≠ [] := by
      rw [nonStorages_withNode hl.kind]
      exact ⟨by simp [withNode], by simpa using List.ne_nil_of_mem hr0, by simp⟩
    have h1 : d.nodes ≠ [] ∧ routes ≠ [] ∧ d.nonStorages ≠ [] := by
      have ha := (hw r0 hr0).2.2.2 a (takes_mem hu0)
      exact ⟨List.ne_nil_of_mem ha.2, List.ne_nil_of_mem hr0, List.ne_nil_of_mem (mem_nonStorages.2 ⟨ha.2, ha.1⟩)⟩
    have hlines : routeLines (withNode d l) = (d.nonStorages ++ [l]).map (nodeLine d) ++ d.cross.map (crossLine d) ++ d.storages.map (fun s => some (storageLine d s)) ++
        d.virtuals.map (fun v => some (virtualLine d v)) ++ d.aggs.flatMap factorLines ++ d.aggs.map aggLine := by
      unfold routeLines; rw [nonStorages_withNode hl.kind]; rfl
    rw [hlines]
    simp only [allHold_append, List.map_append]
    have hnew : x.length = routes.length → (∀ v ∈ x, 0 ≤ v) → AllHold [nodeLine d l] (routes.map (through a b l)) x := by
      intro _ hx o ho
      rw [List.mem_singleton.1 ho]
      unfold nodeLine limitLine
      rw [hl.minFlow, hl.maxFlow, plainRow, hl.kind]
      refine ⟨_, rfl, ⟨fun _ _ => rfl, ⟨through a b l r0, List.mem_map_of_mem hr0, ?_⟩, fun r _ => ?_⟩, ?_⟩
      · have := through_mem (a := a) (b := b) (hr r0 hr0)
        simp only [passes, this, hu0]; decide
      · simp only [one]; split <;> decide
      · unfold Line.Holds Row.Admits
        simp only
        exact S_nonneg hx fun r _ => by unfold term; split <;> norm_num
    simp only [List.map_cons, List.map_nil]
    tauto
  have hobj : ∀ x, routeObjective (withNode d l) (routes.map (through a b l)) x = routeObjective d routes x := by
    intro x
    rw [routeObjective_S, routeObjective_S, S_map]
    refine S_congr fun r hm => ?_
    rw [show routeCost (withNode d l) = routeCost d from rfl, routeCost_through (hr r hm) hl.cost]
  refine ⟨hfeas x, hobj x, ?_, fun n hn => ?_, ?_⟩
  · unfold Optimal
    simp only [hfeas, hobj]
  · rw [routeNodeFlow_eq (through_wellRouted hl hw), routeNodeFlow_eq hw, S_map]
    exact S_congr fun r hm => by simp only [carries_through (hr r hm) hn]
  · rw [routeNodeFlow_eq (through_wellRouted hl hw), S_map, S_zip]
    unfold connectionFlow
    congr 1
    apply List.map_congr_left
    intro p hp
    have h1 := through_mem (a := a) (b := b) (hr p.1 (List.of_mem_zip hp).1)
    have h2 : Carries (withNode d l) (through a b l p.1) l ↔ takes a b p.1 = true := by
      unfold Carries
      rw [show (withNode d l).kind l = d.kind l from rfl, hl.kind]
      simp only
      rw [← h1, List.contains_iff_mem]
    simp only [h2]
    split <;> simp

/-- **C122 (a connection no route takes).** If no route takes the connection, the route solver refuses the model with the link. -/
theorem C122_unused_fails (d : Data) (routes : List (List Nat)) (hw : WellRouted d routes) (a b l : Nat) (hl : PlainLink d l) (hu : ∀ r ∈ routes, takes a b r = false) (x : List Rat) :
    ¬RouteFeasible (withNode d l) (routes.map (through a b l)) x := by
  have hr : ∀ r ∈ routes, l ∉ r := fun r hm hlr => hl.new ((hw r hm).2.2.2 l hlr).2
  rw [routeFeasible_iff]
  rintro ⟨-, -, -, h⟩
  obtain ⟨L, hL, ⟨-, ⟨r', hr', hm⟩, -⟩, -⟩ := h (nodeLine (withNode d l) l) (by
    unfold routeLines
    rw [nonStorages_withNode hl.kind]
    simp)
  obtain ⟨r, hr0, rfl⟩ := List.mem_map.1 hr'
  unfold nodeLine limitLine at hL
  rw [show (withNode d l).minFlow l = d.minFlow l from rfl, show (withNode d l).maxFlow l = d.maxFlow l from rfl, hl.minFlow, hl.maxFlow, plainRow] at hL
  simp only [Option.some.injEq] at hL
  subst hL
  apply hm
  simp only
  rw [show (withNode d l).kind l = d.kind l from rfl, hl.kind]
  simp only [passes, through_mem (hr r hr0), hu r hr0]
  rfl

/-! ## The routes found -/

private theorem mem_split {a b l : Nat} {es : List (Nat × Nat)} {f : Nat × Nat} :
    f ∈ splitEdges a b l es ↔ (f ∈ es ∧ f ≠ (a, b)) ∨ ((a, b) ∈ es ∧ (f = (a, l) ∨ f = (l, b))) := by
  induction es with
  | nil => simp [splitEdges]
  | cons e es ih =>
    unfold splitEdges
    by_cases he : e = (a, b)
    · subst he
      rw [if_pos rfl, List.mem_cons, List.mem_cons, ih]
      simp only [List.mem_cons]
      constructor
      · rintro (h | h | h)
        · exact .inr ⟨.inl trivial, .inl h⟩
        · exact .inr ⟨.inl trivial, .inr h⟩
        · rcases h with ⟨h1, h2⟩ | ⟨-, h2⟩
          · exact .inl ⟨.inr h1, h2⟩
          · exact .inr ⟨.inl trivial, h2⟩
      · rintro (⟨h1 | h1, h2⟩ | ⟨-, h | h⟩)
        · exact absurd h1 h2
        · exact .inr (.inr (.inl ⟨h1, h2⟩))
        · exact .inl h
        · exact .inr (.inl h)
    · rw [if_neg he, List.mem_cons, ih]
      simp only [List.mem_cons]
      have he' : ¬(a, b) = e := fun h => he h.symm
      constructor
      · rintro (h | ⟨h1, h2⟩ | ⟨h1, h2⟩)
        · exact .inl ⟨.inl h, h ▸ he⟩
        · exact .inl ⟨.inr h1, h2⟩
        · exact .inr ⟨.inr h1, h2⟩
      · rintro (⟨h1 | h1, h2⟩ | ⟨h1 | h1, h2⟩)
        · exact .inl h1
        · exact .inr (.inl ⟨h1, h2⟩)
        · exact absurd h1 he'
        · exact .inr (.inr ⟨h1, h2⟩)

private theorem chain_through {a b l : Nat} {es : List (Nat × Nat)} {r : List Nat} (h : r.IsChain fun u v => (u, v) ∈ es) :
    (through a b l r).IsChain fun u v => (u, v) ∈ splitEdges a b l es := by
  induction r with
  | nil => exact .nil
  | cons x r ih =>
    cases r with
    | nil => simp [through]
    | cons y r =>
      rw [List.isChain_cons_cons] at h
      have ih := ih h.2
      obtain ⟨t, ht⟩ := through_cons a b l y r
      unfold through
      split
      · rename_i hc
        obtain ⟨rfl, rfl⟩ := hc
        rw [ht] at ih ⊢
        exact .cons_cons (mem_split.2 (.inr ⟨h.1, .inl rfl⟩)) (.cons_cons (mem_split.2 (.inr ⟨h.1, .inr rfl⟩)) ih)
      · rename_i hc
        rw [ht] at ih ⊢
        exact .cons_cons (mem_split.2 (.inl ⟨h.1, fun e => hc (by simpa using e)⟩)) ih

private theorem chain_back {a b l : Nat} {es : List (Nat × Nat)} (hes : ∀ e ∈ es, e.1 ≠ l ∧ e.2 ≠ l) (hab : (a, b) ∈ es) :
    ∀ (k : Nat) (r' : List Nat), r'.length ≤ k → r'.head? ≠ some l → r'.getLast? ≠ some l → (r'.IsChain fun u v => (u, v) ∈ splitEdges a b l es) →
      ∃ r, l ∉ r ∧ (r.IsChain fun u v => (u, v) ∈ es) ∧ through a b l r = r' := by
  intro k
  induction k with
  | zero =>
    intro r' hk _ _ _
    cases r' with
    | nil => exact ⟨[], by simp, .nil, rfl⟩
    | cons _ _ => simp at hk
  | succ k ih =>
    intro r' hk hh ht hc
    match r', hk, hh, ht, hc with
    | [], _, _, _, _ => exact ⟨[], by simp, .nil, rfl⟩
    | [x], _, hh, _, _ => exact ⟨[x], by simpa using fun e => hh (by rw [e]; rfl), .singleton x, rfl⟩
    | x :: y :: t, hk, hh, ht, hc =>
      have hx : x ≠ l := fun e => hh (by rw [e]; rfl)
      rw [List.isChain_cons_cons] at hc
      obtain ⟨hxy, hc⟩ := hc
      rw [List.getLast?_cons_cons] at ht
      by_cases hy : y = l
      · subst hy
        cases t with
        | nil => exact absurd rfl ht
        | cons z t =>
          rw [List.isChain_cons_cons] at hc
          obtain ⟨hyz, hc⟩ := hc
          rw [List.getLast?_cons_cons] at ht
          have e1 : x = a := by
            rcases mem_split.1 hxy with ⟨h, -⟩ | ⟨-, h | h⟩
            · exact absurd rfl (hes _ h).2
            · exact (Prod.mk.inj h).1
            · exact absurd (Prod.mk.inj h).1 hx
          have e2 : z = b ∧ z ≠ y := by
            have hb := (hes _ hab).2
            rcases mem_split.1 hyz with ⟨h, -⟩ | ⟨-, h | h⟩
            · exact absurd rfl (hes _ h).1
            · exact absurd (Prod.mk.inj h).1.symm (hes _ hab).1
            · exact ⟨(Prod.mk.inj h).2, (Prod.mk.inj h).2 ▸ hb⟩
          obtain ⟨r, h1, h2, h3⟩ := ih (z :: t) (by simp at hk ⊢; omega) (by simpa using e2.2) ht hc
          have h4 := through_head a b y r
          rw [h3] at h4
          cases r with
          | nil => cases h4
          | cons w r =>
            simp only [List.head?_cons, Option.some.injEq] at h4
            rw [e2.1] at h4
            subst h4
            refine ⟨x :: b :: r, ?_, .cons_cons (e1 ▸ hab) h2, ?_⟩
            · rw [List.mem_cons]; rintro (e | e)
              · exact hx e.symm
              · exact h1 e
            · unfold through
              rw [if_pos ⟨e1, rfl⟩, h3]
      · obtain ⟨r, h1, h2, h3⟩ := ih (y :: t) (by simp at hk ⊢; omega) (by simpa using hy) ht hc
        have hxy' : (x, y) ∈ es ∧ (x, y) ≠ (a, b) := by
          rcases mem_split.1 hxy with h | ⟨-, h | h⟩
          · exact h
          · exact absurd (Prod.mk.inj h).2 hy
          · exact absurd (Prod.mk.inj h).1 hx
        have h4 := through_head a b l r
        rw [h3] at h4
        cases r with
        | nil => cases h4
        | cons w r =>
          simp only [List.head?_cons, Option.some.injEq] at h4
          subst h4
          refine ⟨x :: y :: r, ?_, .cons_cons hxy'.1 h2, ?_⟩
          · rw [List.mem_cons]; rintro (e | e)
            · exact hx e.symm
            · exact h1 e
          · unfold through
            rw [if_neg (fun e => hxy'.2 (by rw [e.1, e.2])), h3]

/-- **C122 (routes).** The routes found with the link in the connection are those found without it, led through the link. -/
theorem C122_routes (g : Digraph) (hg : g.WF) (a b l : Nat) (hab : (a, b) ∈ g.edges) (hl : l ∉ g.nodes) (info : Routes.NodeInfo) (ha : info.domain l = info.domain a) (t1 t2 test : Nat → Bool)
    (h1 : t1 l = false) (h2 : t2 l = false) (h3 : test l = true) (routes routes' : List (List Nat))
    (h : Routes.findAllRoutes g info (.cls t1) (.cls t2) (some test) none .strict = .ok routes)
    (h' : Routes.findAllRoutes ⟨g.nodes ++ [l], splitEdges a b l g.edges⟩ info (.cls t1) (.cls t2) (some test) none .strict = .ok routes') :
    routes'.Perm (routes.map (through a b l)) := by
  have hes : ∀ e ∈ g.edges, e.1 ≠ l ∧ e.2 ≠ l := fun e he => by
    have := hg.2.2 e.1 e.2 he
    exact ⟨fun e1 => hl (e1 ▸ this.1), fun e1 => hl (e1 ▸ this.2)⟩
  have hg' : Digraph.WF ⟨g.nodes ++ [l], splitEdges a b l g.edges⟩ := by
    refine ⟨?_, ?_, ?_⟩
    · rw [List.nodup_append]
      exact ⟨hg.1, by simp, by rintro x hx y hy rfl; simp at hy; exact hl (hy ▸ hx)⟩
    · have key : ∀ es : List (Nat × Nat), es.Nodup → (∀ e ∈ es, e.1 ≠ l ∧ e.2 ≠ l) → (a ≠ l ∧ b ≠ l) → (splitEdges a b l es).Nodup := by
        intro es
        induction es with
        | nil => intros; exact List.nodup_nil
        | cons e es ih =>
          intro hn he hab
          rw [List.nodup_cons] at hn
          have ih := ih hn.2 (fun e' h' => he e' (List.mem_cons_of_mem _ h')) hab
          unfold splitEdges
          split
          · rename_i hc
            subst hc
            refine List.nodup_cons.2 ⟨?_, List.nodup_cons.2 ⟨?_, ih⟩⟩
            · rw [List.mem_cons, mem_split]
              rintro (e1 | ⟨e1, -⟩ | ⟨e1, -⟩)
              · exact hab.1 (Prod.mk.inj e1).1
              · exact (he _ (List.mem_cons_of_mem _ e1)).2 rfl
              · exact hn.1 e1
            · rw [mem_split]
              rintro (⟨e1, -⟩ | ⟨e1, -⟩)
              · exact (he _ (List.mem_cons_of_mem _ e1)).1 rfl
              · exact hn.1 e1
          · refine List.nodup_cons.2 ⟨?_, ih⟩
            rw [mem_split]
            rintro (⟨e1, -⟩ | ⟨-, e1 | e1⟩)
            · exact hn.1 e1
            · exact (he e (by simp)).2 (by rw [e1])
            · exact (he e (by simp)).1 (by rw [e1])
      exact key g.edges hg.2.1 hes (hes _ hab)
    · intro u v huv
      have hA := hg.2.2 a b hab
      rcases mem_split.1 huv with ⟨e, -⟩ | ⟨-, e | e⟩
      · have := hg.2.2 u v e
        simp [this.1, this.2]
      · obtain ⟨rfl, rfl⟩ := Prod.mk.inj e; simp [hA.1]
      · obtain ⟨rfl, rfl⟩ := Prod.mk.inj e; simp [hA.2]
  obtain ⟨hn, hm⟩ := Routes.C26_routes_exact g hg info _ _ _ _ _ routes h
  obtain ⟨hn', hm'⟩ := Routes.C26_routes_exact _ hg' info _ _ _ _ _ routes' h'
  have hlr : ∀ r ∈ routes, l ∉ r := by
    intro r hr hlr
    obtain ⟨s, t, hs, ht, hst, ⟨p1, p2, p3, p4⟩, -⟩ := (hm r).1 hr
    have hsub : ∀ (r : List Nat), (r.IsChain g.Edge) → ∀ s, r.head? = some s → s ∈ g.nodes → ∀ n ∈ r, n ∈ g.nodes := by
      intro r
      induction r with
      | nil => intro _ s hs; cases hs
      | cons x r ih =>
        intro hc s hs hsn n hnr
        simp only [List.head?_cons, Option.some.injEq] at hs
        subst hs
        rcases List.mem_cons.1 hnr with rfl | hnr
        · exact hsn
        · cases r with
          | nil => cases hnr
          | cons y r =>
            rw [List.isChain_cons_cons] at hc
            exact ih hc.2 y rfl (hg.2.2 _ _ hc.1).2 n hnr
    exact hl (hsub r p3 s p1 hs.1 l hlr)
  have hinj : (routes.map (through a b l)).Nodup := by
    refine List.Nodup.map_on (fun r hr r' hr' e => ?_) hn
    have e1 := through_filter (a := a) (b := b) (hlr r hr)
    have e2 := through_filter (a := a) (b := b) (hlr r' hr')
    rw [← e1, ← e2, e]
  rw [List.perm_ext_iff_of_nodup hn' hinj]
  intro r'
  rw [hm', List.mem_map]
  constructor
  · rintro ⟨s, t, hs, ht, hst, ⟨p1, p2, p3, p4⟩, hv, -, hd⟩
    have hsl : s ≠ l := by rintro rfl; rw [hs.2] at h1; cases h1
    have htl : t ≠ l := by rintro rfl; rw [ht.2] at h2; cases h2
    obtain ⟨r, q1, q2, q3⟩ := chain_back hes hab r'.length r' (Nat.le_refl _) (by rw [p1]; simpa using hsl) (by rw [p2]; simpa using htl) p3
    refine ⟨r, (hm r).2 ⟨s, t, ?_, ?_, hst, ⟨?_, ?_, q2, ?_⟩, ?_, ?_, ?_⟩, q3⟩
    · have := hs.1
      simp only [List.mem_append, List.mem_singleton] at this
      exact ⟨this.resolve_right hsl, hs.2⟩
    · have := ht.1
      simp only [List.mem_append, List.mem_singleton] at this
      exact ⟨this.resolve_right htl, ht.2⟩
    · rw [← through_head a b l, q3, p1]
    · rw [← through_last a b l, q3, p2]
    · rw [← through_filter (a := a) (b := b) q1, q3]; exact p4.filter _
    · intro tt htt x hx hxs hxt
      refine hv tt htt x ?_ hxs hxt
      rw [← q3, ← List.contains_iff_mem, through_contains q1 (by rintro rfl; exact q1 hx)]
      simpa using hx
    · intro k hk; cases hk
    · have hin : ∀ x ∈ r, x ∈ r' := fun x hx => by
        rw [← q3, ← List.contains_iff_mem, through_contains q1 (by rintro rfl; exact q1 hx)]
        simpa using hx
      exact fun x hx y hy => hd x (hin x hx) y (hin y hy)
  · rintro ⟨r, hr, rfl⟩
    have q1 := hlr r hr
    obtain ⟨s, t, hs, ht, hst, ⟨p1, p2, p3, p4⟩, hv, -, hd⟩ := (hm r).1 hr
    have hin : ∀ x ∈ through a b l r, x ≠ l → x ∈ r := fun x hx hxl => by
      rw [← List.contains_iff_mem, ← through_contains (a := a) (b := b) q1 hxl]
      simpa using hx
    have hdom : ∀ x ∈ through a b l r, ∃ y ∈ r, info.domain x = info.domain y := by
      intro x hx
      by_cases hxl : x = l
      · subst hxl
        have : takes a b r = true := by rw [← through_mem q1]; simpa using hx
        exact ⟨a, takes_mem this, ha⟩
      · exact ⟨x, hin x hx hxl, rfl⟩
    refine ⟨s, t, ⟨List.mem_append_left _ hs.1, hs.2⟩, ⟨List.mem_append_left _ ht.1, ht.2⟩, hst, ⟨by rw [through_head]; exact p1, by rw [through_last]; exact p2, chain_through p3, through_nodup p4 q1⟩, ?_, ?_, ?_⟩
    · intro tt htt x hx hxs hxt
      by_cases hxl : x = l
      · cases htt; rw [hxl]; exact h3
      · exact hv tt htt x (hin x hx hxl) hxs hxt
    · intro k hk; cases hk
    · intro x hx y hy
      obtain ⟨x', hx', e1⟩ := hdom x hx
      obtain ⟨y', hy', e2⟩ := hdom y hy
      rw [e1, e2]
      exact hd x' hx' y' hy'

/-! ## The edge problem -/

private theorem zip_double {a b l : Nat} (es : List (Nat × Nat)) (y : List Rat) (h : y.length = es.length) (w : Nat × Nat → Rat) :
    (((splitEdges a b l es).zip (double a b es y)).map fun p => w p.1 * p.2).sum = ((es.zip y).map fun p => (if p.1 = (a, b) then w (a, l) + w (l, b) else w p.1) * p.2).sum := by
  induction es generalizing y with
  | nil => simp [splitEdges]
  | cons e es ih =>
    cases y with
    | nil => cases h
    | cons v y =>
      have ih := ih y (by simpa using h)
      unfold splitEdges double
      by_cases he : e = (a, b)
      · simp only [he, if_true, List.zip_cons_cons, List.map_cons, List.sum_cons, ih]; ring
      · simp only [he, if_false, List.zip_cons_cons, List.map_cons, List.sum_cons, ih]

private theorem S_double {a b l : Nat} {es : List (Nat × Nat)} {y : List Rat} (h : y.length = es.length) (w : Nat × Nat → Rat) :
    S (splitEdges a b l es) (double a b es y) w = S es y fun e => if e = (a, b) then w (a, l) + w (l, b) else w e := by
  rw [S_zip, S_zip]; exact zip_double es y h w

private theorem double_length {a b l : Nat} (es : List (Nat × Nat)) (y : List Rat) (h : y.length = es.length) : (double a b es y).length = (splitEdges a b l es).length := by
  induction es generalizing y with
  | nil => simp [splitEdges, double]
  | cons e es ih =>
    cases y with
    | nil => cases h
    | cons v y =>
      have ih := ih y (by simpa using h)
      unfold splitEdges double
      by_cases he : e = (a, b) <;> simp [he, ih]

private theorem mem_double {a b : Nat} (es : List (Nat × Nat)) (y : List Rat) (h : y.length = es.length) (v : Rat) : v ∈ double a b es y ↔ v ∈ y := by
  induction es generalizing y with
  | nil => cases y with
    | nil => simp [double]
    | cons _ _ => cases h
  | cons e es ih =>
    cases y with
    | nil => cases h
    | cons u y =>
      have ih := ih y (by simpa using h)
      unfold double
      by_cases he : e = (a, b)
      · simp only [he, if_true, List.mem_cons, ih]; tauto
      · simp only [he, if_false, List.mem_cons, ih]

/-- Only values that treat both halves alike satisfy the balance of the link. -/
private theorem double_of_balance {a b l : Nat} (es : List (Nat × Nat)) (hn : es.Nodup) (hes : ∀ e ∈ es, e.1 ≠ l ∧ e.2 ≠ l) (w : Nat × Nat → Rat) (hw1 : w (a, l) = 1) (hw2 : w (l, b) = -1)
    (hw : ∀ e ∈ es, w e = 0) (y' : List Rat) (hl : y'.length = (splitEdges a b l es).length) (h : (((splitEdges a b l es).zip y').map fun p => w p.1 * p.2).sum = 0) :
    ∃ y, y.length = es.length ∧ double a b es y = y' := by
  induction es generalizing y' with
  | nil => exact ⟨[], rfl, by cases y' with
    | nil => rfl
    | cons _ _ => cases hl⟩
  | cons e es ih =>
    rw [List.nodup_cons] at hn
    have hes' : ∀ e ∈ es, e.1 ≠ l ∧ e.2 ≠ l := fun e he => hes e (List.mem_cons_of_mem _ he)
    have hw' : ∀ e ∈ es, w e = 0 := fun e he => hw e (List.mem_cons_of_mem _ he)
    unfold splitEdges at hl h
    by_cases he : e = (a, b)
    · rw [if_pos he] at hl h
      subst he
      match y', hl, h with
      | [], hl, _ => cases hl
      | [_], hl, _ => simp at hl
      | u :: v :: y', hl, h =>
        have hz : (((splitEdges a b l es).zip y').map fun p => w p.1 * p.2).sum = 0 := by
          refine sum_map_zero fun p hp => ?_
          rcases mem_split.1 (List.of_mem_zip hp).1 with ⟨h1, -⟩ | ⟨h1, -⟩
          · rw [hw' _ h1, zero_mul]
          · exact absurd h1 hn.1
        simp only [List.zip_cons_cons, List.map_cons, List.sum_cons, hz, hw1, hw2] at h
        obtain ⟨y, h1, h2⟩ := ih hn.2 hes' hw' y' (by simpa using hl) hz
        refine ⟨u :: y, by simp [h1], ?_⟩
        unfold double
        rw [if_pos rfl, h2, show v = u by linarith]
    · rw [if_neg he] at hl h
      cases y' with
      | nil => cases hl
      | cons u y' =>
        simp only [List.zip_cons_cons, List.map_cons, List.sum_cons, hw e (by simp), zero_mul, zero_add] at h
        obtain ⟨y, h1, h2⟩ := ih hn.2 hes' hw' y' (by simpa using hl) h
        refine ⟨u :: y, by simp [h1], ?_⟩
        unfold double
        rw [if_neg he, h2]

/-- Lines that say the same about a connection and about its two halves. -/
private def Halves (a b l : Nat) (o : Option (Line (Nat × Nat))) : Prop :=
  ∀ L, o = some L → L.bad (a, b) = (L.bad (a, l) || L.bad (l, b)) ∧ (L.mult (a, b) = 0 ↔ L.mult (a, l) = 0 ∧ L.mult (l, b) = 0) ∧ (L.mult (a, b) ≤ 1 ↔ L.mult (a, l) ≤ 1 ∧ L.mult (l, b) ≤ 1) ∧
    L.coef (a, b) = L.coef (a, l) + L.coef (l, b)

private theorem halves_holds {a b l : Nat} {es : List (Nat × Nat)} (hab : (a, b) ∈ es) {o : Option (Line (Nat × Nat))} (h : Halves a b l o) {y : List Rat} (hy : y.length = es.length) :
    (∃ L, o = some L ∧ L.Built (splitEdges a b l es) ∧ L.Holds (splitEdges a b l es) (double a b es y)) ↔ ∃ L, o = some L ∧ L.Built es ∧ L.Holds es y := by
  refine exists_congr fun L => and_congr_right fun hL => ?_
  obtain ⟨h1, h2, h3, h4⟩ := h L hL
  have hm : ∀ {P : Nat × Nat → Prop}, (P (a, b) ↔ P (a, l) ∧ P (l, b)) → ((∀ e ∈ splitEdges a b l es, P e) ↔ ∀ e ∈ es, P e) := by
    intro P hP
    simp only [mem_split]
    constructor
    · intro hs e he
      by_cases hc : e = (a, b)
      · rw [hc, hP]; exact ⟨hs _ (.inr ⟨hab, .inl rfl⟩), hs _ (.inr ⟨hab, .inr rfl⟩)⟩
      · exact hs e (.inl ⟨he, hc⟩)
    · rintro hs e (⟨he, -⟩ | ⟨-, rfl | rfl⟩)
      · exact hs e he
      · exact (hP.1 (hs _ hab)).1
      · exact (hP.1 (hs _ hab)).2
  have e1 := hm (P := fun e => L.bad e = false) (by rw [h1, Bool.or_eq_false_iff])
  have e2 := hm (P := fun e => L.mult e = 0) h2
  have e3 := hm (P := fun e => L.mult e ≤ 1) h3
  have e2' : (∃ e ∈ splitEdges a b l es, L.mult e ≠ 0) ↔ ∃ e ∈ es, L.mult e ≠ 0 := by
    have := not_congr e2
    push Not at this
    exact this
  have e4 : S (splitEdges a b l es) (double a b es y) L.coef = S es y L.coef := by
    rw [S_double hy]
    refine S_congr fun e _ => ?_
    split
    · rename_i hc; rw [hc, h4]
    · rfl
  unfold Line.Built Line.Holds
  rw [e1, e2', e3, e4]

private theorem halves_none (a b l : Nat) : Halves a b l none := by intro L hL; cases hL

private theorem halves_limit {a b l : Nat} {bad : Nat × Nat → Bool} {m : Nat × Nat → Nat} {w : Nat × Nat → Rat} {mn mx : F} (h : ∀ r, Halves a b l (some ⟨bad, m, w, r⟩)) : Halves a b l (limitLine bad m w mn mx) := by
  unfold limitLine
  cases flowRow true mn mx with
  | stored r => exact h r
  | glpkError => exact halves_none _ _ _
  | storedNan => exact halves_none _ _ _

/-- The connection lies in one domain, and so does the link. -/
private structure Ends (g : Graph) (a b l : Nat) : Prop where
  da : g.domain a = g.domain l
  db : g.domain b = g.domain l

private theorem enters_first {g : Graph} {a b l n : Nat} (_ : Ends g a b l) (hn : n ≠ l) : enters g n (a, l) = false := by
  unfold enters; simp [Ne.symm hn]

private theorem enters_second {g : Graph} {a b l n : Nat} (h : Ends g a b l) : enters g n (l, b) = enters g n (a, b) := by
  unfold enters; simp [h.da, h.db]

private theorem leaves_first {g : Graph} {a b l n : Nat} (h : Ends g a b l) : leaves g n (a, l) = leaves g n (a, b) := by
  unfold leaves; simp [h.da, h.db]

private theorem leaves_second {g : Graph} {a b l n : Nat} (_ : Ends g a b l) (hn : n ≠ l) : leaves g n (l, b) = false := by
  unfold leaves; simp [Ne.symm hn]

private theorem enters_eq {g : Graph} {a b l n : Nat} (h : Ends g a b l) : enters g n (a, b) = (b == n) := by
  unfold enters; simp [h.da, h.db]

private theorem leaves_eq {g : Graph} {a b l n : Nat} (h : Ends g a b l) : leaves g n (a, b) = (a == n) := by
  unfold leaves; simp [h.da, h.db]

private theorem meets_halves {d : Data} {g : Graph} {a b l n : Nat} (h : Ends g a b l) (hn : n ≠ l) :
    (meets d g n (a, l) = false ∧ meets d g n (l, b) = meets d g n (a, b) ∧ (meets d g n (a, b) = true → n = b ∧ d.kind b = .output)) ∨
    (meets d g n (l, b) = false ∧ meets d g n (a, l) = meets d g n (a, b) ∧ (meets d g n (a, b) = true → n = a ∧ d.kind n ≠ .output)) := by
  unfold meets
  by_cases hk : d.kind n = .output
  · simp only [hk, if_true]
    refine .inl ⟨enters_first h hn, enters_second h, fun hm => ?_⟩
    rw [enters_eq h] at hm
    have : b = n := by simpa using hm
    exact ⟨this.symm, this ▸ hk⟩
  · simp only [hk, if_false]
    refine .inr ⟨leaves_second h hn, leaves_first h, fun hm => ?_⟩
    rw [leaves_eq h] at hm
    have : a = n := by simpa using hm
    exact ⟨this.symm, by simpa using hk⟩

private theorem halves_first {a b l : Nat} {L : Line (Nat × Nat)} (h1 : L.bad (l, b) = false ∧ L.mult (l, b) = 0 ∧ L.coef (l, b) = 0)
    (h2 : L.bad (a, l) = L.bad (a, b) ∧ L.mult (a, l) = L.mult (a, b) ∧ L.coef (a, l) = L.coef (a, b)) : Halves a b l (some L) := by
  rintro L' hL
  cases hL
  rw [h1.1, h1.2.1, h1.2.2, h2.1, h2.2.1, h2.2.2]
  simp

private theorem halves_second {a b l : Nat} {L : Line (Nat × Nat)} (h1 : L.bad (a, l) = false ∧ L.mult (a, l) = 0 ∧ L.coef (a, l) = 0)
    (h2 : L.bad (l, b) = L.bad (a, b) ∧ L.mult (l, b) = L.mult (a, b) ∧ L.coef (l, b) = L.coef (a, b)) : Halves a b l (some L) := by
  rintro L' hL
  cases hL
  rw [h1.1, h1.2.1, h1.2.2, h2.1, h2.2.1, h2.2.2]
  simp

/-- Of the members of a component that does not count both ends, all are met by the same half. -/
private theorem members_half {d : Data} {g : Graph} {a b l : Nat} (h : Ends g a b l) {ns : List Nat} (hl : l ∉ ns) (hk : d.kind b = .output → ¬(a ∈ ns ∧ b ∈ ns)) :
    (∀ n ∈ ns, meets d g n (l, b) = false ∧ meets d g n (a, l) = meets d g n (a, b)) ∨ (∀ n ∈ ns, meets d g n (a, l) = false ∧ meets d g n (l, b) = meets d g n (a, b)) := by
  by_cases hex : ∃ n ∈ ns, meets d g n (l, b) = true
  · obtain ⟨m, hm, hmm⟩ := hex
    have hml : m ≠ l := by rintro rfl; exact hl hm
    have hb : m = b ∧ d.kind b = .output := by
      rcases meets_halves (d := d) h hml with ⟨-, h2, h3⟩ | ⟨h1, -, -⟩
      · exact h3 (h2 ▸ hmm)
      · rw [h1] at hmm; cases hmm
    have ha : a ∉ ns := fun ha => hk hb.2 ⟨ha, hb.1 ▸ hm⟩
    refine .inr fun n hn => ?_
    have hnl : n ≠ l := by rintro rfl; exact hl hn
    rcases meets_halves (d := d) h hnl with ⟨h1, h2, -⟩ | ⟨h1, h2, h3⟩
    · exact ⟨h1, h2⟩
    · have : meets d g n (a, b) = false := by
        rw [Bool.eq_false_iff]; intro hc; exact ha ((h3 hc).1 ▸ hn)
      exact ⟨by rw [h2, this], by rw [h1, this]⟩
  · refine .inl fun n hn => ?_
    have hnl : n ≠ l := by rintro rfl; exact hl hn
    have h0 : meets d g n (l, b) = false := by rw [Bool.eq_false_iff]; exact fun hc => hex ⟨n, hn, hc⟩
    rcases meets_halves (d := d) h hnl with ⟨h1, h2, -⟩ | ⟨-, h2, -⟩
    · exact ⟨h0, by rw [h1, ← h2, h0]⟩
    · exact ⟨h0, h2⟩

private theorem halves_node {d : Data} {g : Graph} {a b l n : Nat} (h : Ends g a b l) (hn : n ≠ l) : Halves a b l (nodeLineE d g n) := by
  refine halves_limit fun r => ?_
  rintro L hL
  cases hL
  simp only [enters_first h hn, enters_second h, leaves_first h, leaves_second h hn]
  refine ⟨by simp [Bool.or_comm], ?_⟩
  rcases meets_halves (d := d) h hn with ⟨h1, h2, -⟩ | ⟨h1, h2, -⟩
  · rw [h1, h2]; simp [one, term]
  · rw [h1, h2]; simp [one, term]

private theorem halves_balance {g : Graph} {a b l n : Nat} (h : Ends g a b l) (hn : n ≠ l) (hab : a ≠ b) : Halves a b l (some (balanceLine g n)) := by
  rintro L hL
  cases hL
  simp only [balanceLine, enters_first h hn, enters_second h, leaves_first h, leaves_second h hn]
  rw [enters_eq h, leaves_eq h]
  by_cases h1 : b = n
  · have h2 : a ≠ n := fun e => hab (e.trans h1.symm)
    simp [one, term, h1, h2]
  · by_cases h2 : a = n
    · simp [one, term, h1, h2]
    · simp [one, term, h1, h2]

private theorem halves_cross {d : Data} {g : Graph} {a b l : Nat} (h : Ends g a b l) {c : Nat × List (Nat × Rat)} (hc : c.1 ≠ l ∧ ∀ i ∈ c.2, i.1 ≠ l) (he : c.1 = b → ∀ i ∈ c.2, i.1 ≠ a) :
    Halves a b l (crossLineE d g c) := by
  unfold crossLineE
  split
  · exact halves_none _ _ _
  · have hs : ∀ f : Nat × Rat → Rat, (c.2.map fun i => term (leaves g i.1 (l, b)) (f i)).sum = 0 := fun f => sum_map_zero fun i hi => by rw [leaves_second h (hc.2 i hi)]; rfl
    have hm : (c.2.map fun i => one (leaves g i.1 (l, b))).sum = 0 := by
      rw [List.sum_eq_zero_iff_forall_eq_nat]
      intro x hx
      obtain ⟨i, hi, rfl⟩ := List.mem_map.1 hx
      rw [leaves_second h (hc.2 i hi)]; rfl
    rcases meets_halves (d := d) h hc.1 with ⟨h1, h2, h3⟩ | ⟨h1, h2, -⟩
    · by_cases hb : meets d g c.1 (a, b) = true
      · have hz := he (h3 hb).1
        have hl0 : ∀ i ∈ c.2, leaves g i.1 (a, b) = false := fun i hi => by rw [leaves_eq h]; simpa using (hz i hi).symm
        have hs' : ∀ f : Nat × Rat → Rat, (c.2.map fun i => term (leaves g i.1 (a, b)) (f i)).sum = 0 := fun f => sum_map_zero fun i hi => by rw [hl0 i hi]; rfl
        have hm' : (c.2.map fun i => one (leaves g i.1 (a, b))).sum = 0 := by
          rw [List.sum_eq_zero_iff_forall_eq_nat]
          intro x hx
          obtain ⟨i, hi, rfl⟩ := List.mem_map.1 hx
          rw [hl0 i hi]; rfl
        refine halves_second ⟨rfl, ?_, ?_⟩ ⟨rfl, ?_, ?_⟩
        · simp only [h1, leaves_first h, hm']; rfl
        · simp only [h1, leaves_first h, hs']; simp [term]
        · simp only [h2, hm, hm']
        · simp only [h2, hs, hs']
      · rw [Bool.not_eq_true] at hb
        refine halves_first ⟨rfl, ?_, ?_⟩ ⟨rfl, ?_, ?_⟩
        · simp only [h2, hb, hm]; rfl
        · simp only [h2, hb, hs]; simp [term]
        · simp only [h1, hb, leaves_first h]
        · simp only [h1, hb, leaves_first h]
    · refine halves_first ⟨rfl, ?_, ?_⟩ ⟨rfl, ?_, ?_⟩
      · simp only [h1, hm]; rfl
      · simp only [h1, hs]; simp [term]
      · simp only [h2, leaves_first h]
      · simp only [h2, leaves_first h]

private theorem sum_zero_nat {l : List Nat} {f : Nat → Nat} (h : ∀ n ∈ l, f n = 0) : (l.map f).sum = 0 := by
  rw [List.sum_eq_zero_iff_forall_eq_nat]
  intro x hx
  obtain ⟨n, hn, rfl⟩ := List.mem_map.1 hx
  exact h n hn

private theorem halves_storage {d : Data} {g : Graph} {a b l : Nat} (h : Ends g a b l) {s : StorageData} (hs : l ∉ s.inputs ∧ l ∉ s.outputs) (he : ¬(a ∈ s.inputs ∧ b ∈ s.outputs)) :
    Halves a b l (some (storageLineE d g s)) := by
  have i1 : ∀ n ∈ s.inputs, n ≠ l := fun n hn e => hs.1 (e ▸ hn)
  have o1 : ∀ n ∈ s.outputs, n ≠ l := fun n hn e => hs.2 (e ▸ hn)
  have m1 : (s.outputs.map fun n => one (enters g n (a, l))).sum = 0 := sum_zero_nat fun n hn => by rw [enters_first h (o1 n hn)]; rfl
  have c1 : (s.outputs.map fun n => term (enters g n (a, l)) 1).sum = 0 := sum_map_zero fun n hn => by rw [enters_first h (o1 n hn)]; rfl
  have m2 : (s.inputs.map fun n => one (leaves g n (l, b))).sum = 0 := sum_zero_nat fun n hn => by rw [leaves_second h (i1 n hn)]; rfl
  have c2 : (s.inputs.map fun n => term (leaves g n (l, b)) (-1)).sum = 0 := sum_map_zero fun n hn => by rw [leaves_second h (i1 n hn)]; rfl
  by_cases hb : b ∈ s.outputs
  · have ha : a ∉ s.inputs := fun ha => he ⟨ha, hb⟩
    have m3 : (s.inputs.map fun n => one (leaves g n (a, b))).sum = 0 := sum_zero_nat fun n hn => by rw [leaves_eq h, beq_eq_false_iff_ne.2 (by rintro rfl; exact ha hn)]; rfl
    have c3 : (s.inputs.map fun n => term (leaves g n (a, b)) (-1)).sum = 0 := sum_map_zero fun n hn => by rw [leaves_eq h, beq_eq_false_iff_ne.2 (by rintro rfl; exact ha hn)]; rfl
    refine halves_second ⟨rfl, ?_, ?_⟩ ⟨rfl, ?_, ?_⟩
    · simp only [storageLineE, m1, leaves_first h, m3]
    · simp only [storageLineE, c1, leaves_first h, c3]; simp
    · simp only [storageLineE, enters_second h, m2, m3]
    · simp only [storageLineE, enters_second h, c2, c3]
  · have m3 : (s.outputs.map fun n => one (enters g n (a, b))).sum = 0 := sum_zero_nat fun n hn => by rw [enters_eq h, beq_eq_false_iff_ne.2 (by rintro rfl; exact hb hn)]; rfl
    have c3 : (s.outputs.map fun n => term (enters g n (a, b)) 1).sum = 0 := sum_map_zero fun n hn => by rw [enters_eq h, beq_eq_false_iff_ne.2 (by rintro rfl; exact hb hn)]; rfl
    refine halves_first ⟨rfl, ?_, ?_⟩ ⟨rfl, ?_, ?_⟩
    · simp only [storageLineE, enters_second h, m2, m3]
    · simp only [storageLineE, enters_second h, c2, c3]; simp
    · simp only [storageLineE, m1, leaves_first h, m3]
    · simp only [storageLineE, c1, leaves_first h, c3]

private theorem filter_halves (z : List (Nat × Rat)) (p p1 p2 : Nat × Rat → Bool) (h : ∀ q ∈ z, (p1 q = false ∧ p2 q = p q) ∨ (p2 q = false ∧ p1 q = p q)) :
    ((z.filter p).map (·.2) = [] ↔ (z.filter p1).map (·.2) = [] ∧ (z.filter p2).map (·.2) = []) ∧ ((z.filter p).map (·.2)).sum = ((z.filter p1).map (·.2)).sum + ((z.filter p2).map (·.2)).sum := by
  induction z with
  | nil => simp
  | cons q z ih =>
    obtain ⟨i1, i2⟩ := ih fun q hq => h q (List.mem_cons_of_mem _ hq)
    simp only [List.filter_cons]
    rcases h q (by simp) with ⟨h1, h2⟩ | ⟨h1, h2⟩
    · rw [h1, h2]
      cases p q
      · exact ⟨i1, i2⟩
      · simp [i2]; ring
    · rw [h1, h2]
      cases p q
      · exact ⟨i1, i2⟩
      · simp [i2]; ring

private theorem halves_virtual {d : Data} {g : Graph} {a b l : Nat} (h : Ends g a b l) {v : VirtualData} (hv : l ∉ v.nodes) : Halves a b l (some (virtualLineE d g v)) := by
  obtain ⟨k1, k2⟩ := filter_halves (v.nodes.zip v.factors) (fun q => meets d g q.1 (a, b)) (fun q => meets d g q.1 (a, l)) (fun q => meets d g q.1 (l, b)) (by
    intro q hq
    have hq' : q.1 ≠ l := by rintro e; exact hv (e ▸ (List.of_mem_zip hq).1)
    rcases meets_halves (d := d) h hq' with ⟨h1, h2, -⟩ | ⟨h1, h2, -⟩
    · exact .inl ⟨h1, h2⟩
    · exact .inr ⟨h1, h2⟩)
  rintro L hL
  cases hL
  have k1 : edgeWeights d g v (a, b) = [] ↔ edgeWeights d g v (a, l) = [] ∧ edgeWeights d g v (l, b) = [] := k1
  have k2 : (edgeWeights d g v (a, b)).sum = (edgeWeights d g v (a, l)).sum + (edgeWeights d g v (l, b)).sum := k2
  have hone : ∀ c : Bool, one c ≤ 1 := fun c => by cases c <;> decide
  refine ⟨rfl, ?_, ⟨fun _ => ⟨hone _, hone _⟩, fun _ => hone _⟩, ?_⟩
  · simp only [virtualLineE]
    by_cases w1 : edgeWeights d g v (a, l) = [] <;> by_cases w2 : edgeWeights d g v (l, b) = [] <;> simp [one, k1, w1, w2]
  · simp only [virtualLineE, k2]; ring

private theorem lastWeight_congr {g : AggData} {p q : Nat → Bool} (h : ∀ n ∈ g.nodes, p n = q n) : lastWeight g p = lastWeight g q := by
  unfold lastWeight
  congr 2
  exact List.filter_congr fun x hx => h x.1 (List.of_mem_zip hx).1

private theorem halves_agg {d : Data} {g : Graph} {a b l : Nat} (h : Ends g a b l) {ag : AggData} (hl : l ∉ ag.nodes) (hk : d.kind b = .output → ¬(a ∈ ag.nodes ∧ b ∈ ag.nodes)) :
    Halves a b l (aggLineE d g ag) := by
  refine halves_limit fun r => ?_
  rcases members_half h hl hk with hh | hh
  · have e1 : lastWeight ag (fun n => meets d g n (l, b)) = none := lastWeight_none fun n hn => (hh n hn).1
    have e2 : lastWeight ag (fun n => meets d g n (a, l)) = lastWeight ag fun n => meets d g n (a, b) := lastWeight_congr fun n hn => (hh n hn).2
    exact halves_first ⟨rfl, by simp only [e1]; rfl, by simp only [e1]; rfl⟩ ⟨rfl, by simp only [e2], by simp only [e2]⟩
  · have e1 : lastWeight ag (fun n => meets d g n (a, l)) = none := lastWeight_none fun n hn => (hh n hn).1
    have e2 : lastWeight ag (fun n => meets d g n (l, b)) = lastWeight ag fun n => meets d g n (a, b) := lastWeight_congr fun n hn => (hh n hn).2
    exact halves_second ⟨rfl, by simp only [e1]; rfl, by simp only [e1]; rfl⟩ ⟨rfl, by simp only [e2], by simp only [e2]⟩

private theorem halves_factors {d : Data} {g : Graph} {a b l : Nat} (h : Ends g a b l) {ag : AggData} (hl : l ∉ ag.nodes) (hk : d.kind b = .output → ¬(a ∈ ag.nodes ∧ b ∈ ag.nodes)) :
    ∀ o ∈ factorLinesE d g ag, Halves a b l o := by
  intro o ho
  unfold factorLinesE at ho
  split at ho
  · cases ho
  · split at ho
    · rw [List.mem_singleton.1 ho]; exact halves_none _ _ _
    · rename_i n0 rest hn
      split at ho
      · rw [List.mem_singleton.1 ho]; exact halves_none _ _ _
      · split at ho
        · rw [List.mem_singleton.1 ho]; exact halves_none _ _ _
        · obtain ⟨p, hp, rfl⟩ := List.mem_map.1 ho
          rw [hn] at hl hk
          have m0 : n0 ∈ n0 :: rest := by simp
          have m1 : p.1 ∈ n0 :: rest := List.mem_cons_of_mem _ (List.of_mem_zip hp).1
          rcases members_half h hl hk with hh | hh
          · obtain ⟨x1, x2⟩ := hh n0 m0
            obtain ⟨y1, y2⟩ := hh p.1 m1
            exact halves_first ⟨rfl, by simp only [x1, y1]; rfl, by simp only [x1, y1]; simp [term]⟩ ⟨rfl, by simp only [x2, y2], by simp only [x2, y2]⟩
          · obtain ⟨x1, x2⟩ := hh n0 m0
            obtain ⟨y1, y2⟩ := hh p.1 m1
            exact halves_second ⟨rfl, by simp only [x1, y1]; rfl, by simp only [x1, y1]; simp [term]⟩ ⟨rfl, by simp only [x2, y2], by simp only [x2, y2]⟩

private theorem edge_halves {d : Data} {g : Graph} {a b l : Nat} (h : Ends g a b l) (hl : PlainLink d l) (he : EndsApart d a b) : ∀ o ∈ edgeLines d g, Halves a b l o := by
  intro o ho
  unfold edgeLines at ho
  simp only [List.mem_append, List.mem_map, List.mem_flatMap] at ho
  rcases ho with (((((⟨n, hn, rfl⟩ | ⟨c, hc, rfl⟩) | ⟨n, hn, rfl⟩) | ⟨s, hs, rfl⟩) | ⟨v, hv, rfl⟩) | ⟨ag, hag, ho⟩) | ⟨ag, hag, rfl⟩
  · exact halves_node h (by rintro rfl; exact hl.new (mem_nonStorages.1 hn).1)
  · exact halves_cross h (hl.cross c hc) (he.cross c hc)
  · exact halves_balance h (by rintro rfl; exact hl.new (List.mem_filter.1 hn).1) he.ends
  · exact halves_storage h (hl.storages s hs) (he.storages s hs)
  · exact halves_virtual h (hl.virtuals v hv)
  · exact halves_factors h (hl.aggs ag hag) (fun hk => he.aggs hk ag hag) o ho
  · exact halves_agg h (hl.aggs ag hag) (fun hk => he.aggs hk ag hag)

/-- **C122 (a link put into a connection, edge solver).** The feasible flows of the connections are the same ones, with both new connections carrying what the old one carried; at the same cost, and with the same flows of all
other nodes. -/
theorem C122_edge_partial (d : Data) (g : Graph) (hg : Connects d g) (hn : g.edges.Nodup) (a b l : Nat) (hab : (a, b) ∈ g.edges) (ha : g.domain a = g.domain l) (hb : g.domain b = g.domain l) (hl : PlainLink d l)
    (he : EndsApart d a b) :
    (∀ y', EdgeFeasible (withNode d l) (g.split a b l) y' ↔ ∃ y, EdgeFeasible d g y ∧ double a b g.edges y = y') ∧
    ∀ y, y.length = g.edges.length →
      edgeObjective (withNode d l) (g.split a b l) (double a b g.edges y) = edgeObjective d g y ∧
      (EdgeOptimal (withNode d l) (g.split a b l) (double a b g.edges y) ↔ EdgeOptimal d g y) ∧
      (∀ n, n ≠ l → edgeNodeFlow (withNode d l) (g.split a b l) (double a b g.edges y) n = edgeNodeFlow d g y n) ∧
      edgeNodeFlow (withNode d l) (g.split a b l) (double a b g.edges y) l = ((g.edges.zip y).map fun p => if p.1 = (a, b) then p.2 else 0).sum := by
  have hE : Ends g a b l := ⟨ha, hb⟩
  have hes : ∀ e ∈ g.edges, e.1 ≠ l ∧ e.2 ≠ l := fun e hm => by
    obtain ⟨h1, h2, -⟩ := hg e hm
    exact ⟨fun e1 => hl.new (e1 ▸ h1), fun e1 => hl.new (e1 ▸ h2)⟩
  obtain ⟨hal, hbl⟩ := hes _ hab
  simp only at hal hbl
  have hlines : edgeLines (withNode d l) (g.split a b l) = (d.nonStorages ++ [l]).map (nodeLineE d g) ++ d.cross.map (crossLineE d g) ++
      ((d.nodes.filter fun n => d.kind n == .link) ++ [l]).map (fun n => some (balanceLine g n)) ++
      d.storages.map (fun s => some (storageLineE d g s)) ++ d.virtuals.map (fun v => some (virtualLineE d g v)) ++ d.aggs.flatMap (factorLinesE d g) ++ d.aggs.map (aggLineE d g) := by
    unfold edgeLines
    rw [nonStorages_withNode hl.kind]
    have : ((withNode d l).nodes.filter fun n => (withNode d l).kind n == .link) = (d.nodes.filter fun n => d.kind n == .link) ++ [l] := by
      simp [withNode, List.filter_append, hl.kind]
    rw [this]
    rfl
  have hsplit : ∀ es x, AllHold (edgeLines (withNode d l) (g.split a b l)) es x ↔ AllHold (edgeLines d g) es x ∧ AllHold [nodeLineE d g l] es x ∧ AllHold [some (balanceLine g l)] es x := by
    intro es x
    rw [hlines]
    unfold edgeLines
    simp only [allHold_append, List.map_append, List.map_cons, List.map_nil]
    tauto
  have h0 : d.nodes ≠ [] ∧ g.edges ≠ [] ∧ d.nonStorages ≠ [] := by
    obtain ⟨h1, -, h2, -⟩ := hg _ hab
    exact ⟨List.ne_nil_of_mem h1, List.ne_nil_of_mem hab, List.ne_nil_of_mem (mem_nonStorages.2 ⟨h1, h2⟩)⟩
  have h0' : (withNode d l).nodes ≠ [] ∧ (g.split a b l).edges ≠ [] ∧ (withNode d l).nonStorages ≠ [] := by
    rw [nonStorages_withNode hl.kind]
    exact ⟨by simp [withNode], List.ne_nil_of_mem (mem_split.2 (.inr ⟨hab, .inl rfl⟩)), by simp⟩
  have hen : ∀ e ∈ g.edges, enters g l e = false ∧ leaves g l e = false := fun e hm => by
    unfold enters leaves; simp [(hes e hm).1, (hes e hm).2]
  have w1 : enters g l (a, l) = true ∧ leaves g l (a, l) = false := by unfold enters leaves; simp [ha, hal]
  have w2 : enters g l (l, b) = false ∧ leaves g l (l, b) = true := by unfold enters leaves; simp [hb, hbl]
  have hml : ∀ e, meets d g l e = leaves g l e := fun e => by unfold meets; rw [hl.kind]; rfl
  have hfeas : ∀ y, y.length = g.edges.length → (EdgeFeasible (withNode d l) (g.split a b l) (double a b g.edges y) ↔ EdgeFeasible d g y) := by
    intro y hy
    rw [edgeFeasible_iff, edgeFeasible_iff, hsplit]
    have hlen : (double a b g.edges y).length = (g.split a b l).edges.length := double_length _ _ hy
    have hpos : (∀ v ∈ double a b g.edges y, 0 ≤ v) ↔ ∀ v ∈ y, 0 ≤ v := by simp only [mem_double g.edges y hy]
    have hold : AllHold (edgeLines d g) (g.split a b l).edges (double a b g.edges y) ↔ AllHold (edgeLines d g) g.edges y := by
      unfold AllHold
      exact forall₂_congr fun o ho => halves_holds hab (edge_halves hE hl he o ho) hy
    have hnode : (∀ v ∈ y, 0 ≤ v) → AllHold [nodeLineE d g l] (g.split a b l).edges (double a b g.edges y) := by
      intro hx o ho
      rw [List.mem_singleton.1 ho]
      unfold nodeLineE limitLine
      rw [hl.minFlow, hl.maxFlow, plainRow, hl.kind]
      refine ⟨_, rfl, ⟨fun _ _ => rfl, ⟨(l, b), mem_split.2 (.inr ⟨hab, .inr rfl⟩), ?_⟩, fun r _ => ?_⟩, ?_⟩
      · simp only [hml, w2.2]; decide
      · simp only [one]; split <;> decide
      · unfold Line.Holds Row.Admits
        simp only
        exact S_nonneg (hpos.2 hx) fun r _ => by unfold term; split <;> norm_num
    have hbal : AllHold [some (balanceLine g l)] (g.split a b l).edges (double a b g.edges y) := by
      intro o ho
      rw [List.mem_singleton.1 ho]
      refine ⟨_, rfl, ⟨fun _ _ => rfl, ⟨(a, l), mem_split.2 (.inr ⟨hab, .inl rfl⟩), ?_⟩, fun e hm => ?_⟩, ?_⟩
      · simp only [balanceLine, w1.1, w1.2]; decide
      · simp only [balanceLine]
        rcases mem_split.1 hm with ⟨hm, -⟩ | ⟨-, rfl | rfl⟩
        · rw [(hen e hm).1, (hen e hm).2]; decide
        · rw [w1.1, w1.2]; decide
        · rw [w2.1, w2.2]; decide
      · unfold Line.Holds
        have : S (g.split a b l).edges (double a b g.edges y) (balanceLine g l).coef = 0 := by
          unfold Graph.split
          simp only
          rw [S_double hy, ← S_zero g.edges y]
          refine S_congr fun e hm => ?_
          simp only [balanceLine]
          split
          · rw [w1.1, w1.2, w2.1, w2.2]; simp [term]
          · rw [(hen e hm).1, (hen e hm).2]; simp [term]
        rw [this]
        exact rfl
    rw [hold, hpos]
    constructor
    · rintro ⟨-, -, hx, h, -⟩; exact ⟨h0, hy, hx, h⟩
    · rintro ⟨-, -, hx, h⟩; exact ⟨h0', hlen, hx, h, hnode hx, hbal⟩
  have hback : ∀ y', EdgeFeasible (withNode d l) (g.split a b l) y' → ∃ y, y.length = g.edges.length ∧ double a b g.edges y = y' := by
    intro y' hy'
    rw [edgeFeasible_iff, hsplit] at hy'
    obtain ⟨-, hlen, -, -, -, hbal⟩ := hy'
    obtain ⟨L, hL, -, hh⟩ := hbal _ (List.mem_singleton.2 rfl)
    cases hL
    have hz : S (splitEdges a b l g.edges) y' (balanceLine g l).coef = 0 := hh
    rw [S_zip] at hz
    refine double_of_balance g.edges hn hes (balanceLine g l).coef ?_ ?_ ?_ y' hlen hz
    · simp only [balanceLine, w1.1, w1.2]; simp [term]
    · simp only [balanceLine, w2.1, w2.2]; simp [term]
    · intro e hm; simp only [balanceLine, (hen e hm).1, (hen e hm).2]; simp [term]
  have hobj : ∀ y, y.length = g.edges.length → edgeObjective (withNode d l) (g.split a b l) (double a b g.edges y) = edgeObjective d g y := by
    intro y hy
    rw [edgeObjective_S, edgeObjective_S]
    unfold Graph.split
    simp only
    rw [S_double hy]
    have hec : ∀ e, eCost (withNode d l) ⟨splitEdges a b l g.edges, g.domain⟩ e = eCost d g e := by
      intro e
      have : eCost (withNode d l) ⟨splitEdges a b l g.edges, g.domain⟩ e = ((d.nodes ++ [l]).map fun n => (if d.kind n = .link then d.cost n / 2 else d.cost n) * (one (enters g n e) + one (leaves g n e) : Nat)).sum := rfl
      rw [this, List.map_append, List.sum_append]
      simp [hl.kind, hl.cost, eCost]
    refine S_congr fun e hm => ?_
    split
    · rename_i hc
      rw [hec, hec, hc]
      unfold eCost
      rw [← List.sum_map_add]
      congr 1
      apply List.map_congr_left
      intro n hnm
      have hnl : n ≠ l := by rintro rfl; exact hl.new hnm
      rw [enters_first hE hnl, enters_second hE, leaves_first hE, leaves_second hE hnl]
      simp only [one_false]
      push_cast
      ring
    · exact hec e
  refine ⟨fun y' => ⟨fun h => ?_, ?_⟩, fun y hy => ⟨hobj y hy, ?_, fun n hnl => ?_, ?_⟩⟩
  · obtain ⟨y, hy, rfl⟩ := hback y' h
    exact ⟨y, (hfeas y hy).1 h, rfl⟩
  · rintro ⟨y, hy, rfl⟩
    have hlen : y.length = g.edges.length := (edgeFeasible_iff d g y).1 hy |>.2.1
    exact (hfeas y hlen).2 hy
  · unfold EdgeOptimal
    rw [hfeas y hy, hobj y hy]
    refine and_congr_right fun _ => ⟨fun h z hz => ?_, fun h z' hz' => ?_⟩
    · have hlen : z.length = g.edges.length := (edgeFeasible_iff d g z).1 hz |>.2.1
      have := h _ ((hfeas z hlen).2 hz)
      rwa [hobj z hlen] at this
    · obtain ⟨z, hz, rfl⟩ := hback z' hz'
      rw [hobj z hz]
      exact h z ((hfeas z hz).1 hz')
  · rw [edgeNodeFlow_S, edgeNodeFlow_S]
    unfold Graph.split
    simp only
    rw [S_double hy]
    refine S_congr fun e hm => ?_
    have hsh : share (withNode d l) n = share d n := rfl
    split
    · rename_i hc
      rw [hc, hsh]
      simp only [Ne.symm hnl, if_false]
      ring
    · rw [hsh]
  · rw [edgeNodeFlow_S]
    unfold Graph.split
    simp only
    rw [S_double hy, S_zip]
    congr 1
    apply List.map_congr_left
    intro p hp
    have hsh : share (withNode d l) l = 1 / 2 := by unfold share; exact if_pos hl.kind
    have := hes p.1 (List.of_mem_zip hp).1
    rw [hsh]
    split
    · simp only [if_true]; ring
    · simp only [this.1, this.2, if_false]; ring

/-! ## Aggregated nodes over both ends -/

/-- An input connected to an output, and an aggregated node over both with a maximum flow of 10; node 2 is a link that is not part of the model. -/
def overPair : Data where
  kind := fun n => match n with | 0 => .input | 1 => .output | 2 => .link | _ => .other
  nodes := [0, 1]
  minFlow := fun _ => .fin 0
  maxFlow := fun _ => .posInf
  cost := fun _ => 0
  storages := []
  virtuals := []
  aggs := [⟨[0, 1], none, none, .fin 0, .fin 10⟩]
  cross := []
  days := 1

private theorem tenRow : flowRow true (.fin 0) (.fin 10) = .stored ⟨.db, 0, 10⟩ := by decide +kernel

/-- **C122 fails for the edge solver if an aggregated node counts both ends.** On the direct connection the flow counts once against the limit of the aggregated node, with a link in between it counts twice: a flow of 8 under a
limit of 10 is feasible without the link and infeasible with it. (The route solver counts it once in both cases.) -/
theorem C122_edge_fails : PlainLink overPair 2 ∧ Connects overPair ⟨[(0, 1)], fun _ => 0⟩ ∧ EdgeFeasible overPair ⟨[(0, 1)], fun _ => 0⟩ [8] ∧
    ¬EdgeFeasible (withNode overPair 2) ((⟨[(0, 1)], fun _ => 0⟩ : Graph).split 0 1 2) [8, 8] ∧
    RouteFeasible overPair [[0, 1]] [8] ∧ RouteFeasible (withNode overPair 2) [[0, 2, 1]] [8] := by
  have hl : PlainLink overPair 2 := ⟨rfl, by decide, rfl, rfl, rfl, by simp [overPair], by simp [overPair], by simp [overPair], by simp [overPair]⟩
  have hr : RouteFeasible overPair [[0, 1]] [8] := by
    rw [routeFeasible_iff]
    refine ⟨⟨by simp [overPair], by simp, by simp [overPair, Data.nonStorages]⟩, rfl, by simp, ?_⟩
    have hln : routeLines overPair = [nodeLine overPair 0, nodeLine overPair 1, aggLine ⟨[0, 1], none, none, .fin 0, .fin 10⟩] := by simp [routeLines, Data.nonStorages, overPair, factorLines]
    rw [hln]
    intro o ho
    simp only [List.mem_cons, List.not_mem_nil, or_false] at ho
    rcases ho with rfl | rfl | rfl
    · refine ⟨_, by unfold nodeLine limitLine overPair; dsimp only; rw [plainRow], ?_⟩
      simp [Line.Built, Line.Holds, Row.Admits, S, one, term, passes]
    · refine ⟨_, by unfold nodeLine limitLine overPair; dsimp only; rw [plainRow], ?_⟩
      simp [Line.Built, Line.Holds, Row.Admits, S, one, term, passes]
    · refine ⟨_, by unfold aggLine limitLine; dsimp only; rw [tenRow], ?_⟩
      simp [Line.Built, Line.Holds, Row.Admits, S, one, lastWeight, AggData.weightList]
      norm_num
  refine ⟨hl, by simp [Connects, overPair], ?_, ?_, hr, ?_⟩
  · rw [edgeFeasible_iff]
    refine ⟨⟨by simp [overPair], by simp, by simp [overPair, Data.nonStorages]⟩, rfl, by simp, ?_⟩
    have hln : edgeLines overPair ⟨[(0, 1)], fun _ => 0⟩ = [nodeLineE overPair ⟨[(0, 1)], fun _ => 0⟩ 0, nodeLineE overPair ⟨[(0, 1)], fun _ => 0⟩ 1,
        aggLineE overPair ⟨[(0, 1)], fun _ => 0⟩ ⟨[0, 1], none, none, .fin 0, .fin 10⟩] := by simp [edgeLines, Data.nonStorages, overPair, factorLinesE]
    rw [hln]
    intro o ho
    simp only [List.mem_cons, List.not_mem_nil, or_false] at ho
    rcases ho with rfl | rfl | rfl
    · refine ⟨_, by unfold nodeLineE limitLine; rw [show overPair.minFlow 0 = .fin 0 from rfl, show overPair.maxFlow 0 = .posInf from rfl, plainRow], ?_⟩
      simp [Line.Built, Line.Holds, Row.Admits, S, one, term, meets, enters, leaves, overPair]
    · refine ⟨_, by unfold nodeLineE limitLine; rw [show overPair.minFlow 1 = .fin 0 from rfl, show overPair.maxFlow 1 = .posInf from rfl, plainRow], ?_⟩
      simp [Line.Built, Line.Holds, Row.Admits, S, one, term, meets, enters, leaves, overPair]
    · refine ⟨_, by unfold aggLineE limitLine; dsimp only; rw [tenRow], ?_⟩
      simp [Line.Built, Line.Holds, Row.Admits, S, one, lastWeight, AggData.weightList, meets, enters, leaves, overPair]
      norm_num
  · rw [edgeFeasible_iff]
    rintro ⟨-, -, -, h⟩
    obtain ⟨L, hL, -, hh⟩ := h (aggLineE (withNode overPair 2) ((⟨[(0, 1)], fun _ => 0⟩ : Graph).split 0 1 2) ⟨[0, 1], none, none, .fin 0, .fin 10⟩) (by
      unfold edgeLines; simp [withNode, overPair])
    unfold aggLineE limitLine at hL
    dsimp only at hL
    rw [tenRow] at hL
    simp only [Option.some.injEq] at hL
    subst hL
    simp [Line.Holds, Row.Admits, S, lastWeight, AggData.weightList, meets, enters, leaves, overPair, withNode, Graph.split, splitEdges] at hh
    norm_num at hh
  · have hw : WellRouted overPair [[0, 1]] := by
      intro r hr
      rw [List.mem_singleton.1 hr]
      refine ⟨by decide, ⟨0, rfl, rfl⟩, ⟨1, rfl, rfl⟩, by simp [overPair]⟩
    exact (C122_route_partial overPair [[0, 1]] hw 0 1 2 hl ⟨[0, 1], by simp, by decide⟩ [8]).1.2 hr

/-! ## Examples -/

/-- Two inputs, a link and an output: 0 → 2 → 3 and 1 → 3; node 4 is a link to be put between 2 and 3. -/
def besides : Data where
  kind := fun n => match n with | 0 | 1 => .input | 2 | 4 => .link | 3 => .output | _ => .other
  nodes := [0, 1, 2, 3]
  minFlow := fun _ => .fin 0
  maxFlow := fun n => match n with | 0 => .fin 5 | 3 => .fin 7 | _ => .posInf
  cost := fun n => match n with | 1 => 2 | 3 => -10 | _ => 0
  storages := []
  virtuals := []
  aggs := []
  cross := []
  days := 1

example : PlainLink besides 4 ∧ WellRouted besides [[0, 2, 3], [1, 3]] ∧ (∃ r ∈ [[0, 2, 3], [1, 3]], takes 2 3 r = true) ∧ [[0, 2, 3], [1, 3]].map (through 2 3 4) = [[0, 2, 4, 3], [1, 3]] ∧
    Connects besides ⟨[(0, 2), (2, 3), (1, 3)], fun _ => 0⟩ ∧ EndsApart besides 2 3 ∧ double 2 3 [(0, 2), (2, 3), (1, 3)] [5, 5, 2] = [5, 5, 5, 2] ∧
    connectionFlow 2 3 [[0, 2, 3], [1, 3]] [5, 2] = 5 := by
  refine ⟨⟨rfl, by decide, rfl, rfl, rfl, by simp [besides], by simp [besides], by simp [besides], by simp [besides]⟩, ?_, ⟨[0, 2, 3], by simp, by decide⟩, by decide, by simp [Connects, besides],
    ⟨by decide, by simp [besides], by simp [besides], by simp [besides]⟩, by decide +kernel, by decide +kernel⟩
  intro r hr
  simp only [List.mem_cons, List.not_mem_nil, or_false] at hr
  rcases hr with rfl | rfl
  · exact ⟨by decide, ⟨0, rfl, rfl⟩, ⟨3, rfl, rfl⟩, by simp [besides]⟩
  · exact ⟨by decide, ⟨1, rfl, rfl⟩, ⟨3, rfl, rfl⟩, by simp [besides]⟩

/-- A connection no route takes: the one back from 2 to 1 in 0 → 1 → 2 → 3. -/
example : ∀ r ∈ [[0, 1, 2, 3]], takes 2 1 r = false := by decide

example : Digraph.WF ⟨[0, 1, 2, 3], [(0, 2), (2, 3), (1, 3)]⟩ ∧ splitEdges 2 3 4 [(0, 2), (2, 3), (1, 3)] = [(0, 2), (2, 4), (4, 3), (1, 3)] := by
  refine ⟨⟨by decide, by decide, ?_⟩, by decide⟩
  intro u v h
  simp only [Digraph.Edge, List.mem_cons, List.not_mem_nil, or_false, Prod.mk.injEq] at h
  rcases h with ⟨rfl, rfl⟩ | ⟨rfl, rfl⟩ | ⟨rfl, rfl⟩ <;> simp

end Verif.Lp

import Verif.Spec.Priority
import Verif.Proof.Shift
import Verif.Proof.RowValues
import Verif.Proof.Chain
import Mathlib.Data.List.Dedup
/-! # Changing a solution along a route, or from one route to another -/

namespace Verif.Priority

open Verif Verif.Lp Verif.Bounds Verif.Composite

/-- `x` with `ε` more in column `j` and `ε` less in column `i`. -/
def push (x : List Rat) (j i : Option Nat) (ε : Rat) : List Rat :=
  (List.range x.length).map fun c => x.getD c 0 + ((if some c = j then ε else 0) - (if some c = i then ε else 0))

theorem push_length (x : List Rat) (j i : Option Nat) (ε : Rat) : (push x j i ε).length = x.length := by simp [push]

theorem push_getD {x : List Rat} {j i : Option Nat} {c : Nat} {ε : Rat} (hc : c < x.length) :
    (push x j i ε).getD c 0 = x.getD c 0 + ((if some c = j then ε else 0) - (if some c = i then ε else 0)) := by
  unfold push
  rw [List.getD_eq_getElem?_getD, List.getElem?_map, List.getElem?_range hc]
  rfl

theorem S_at {α : Type} (l : List α) (j : Option Nat) (r : Option α) (h : r = j.bind (l[·]?)) (ε : Rat) (f : α → Rat) :
    (l.zipIdx.map fun q => f q.1 * (if some q.2 = j then ε else 0)).sum = ε * (r.map f).getD 0 := by
  rcases j with _ | j
  · simp only [Option.bind_none] at h
    subst h
    simp
  · simp only [Option.bind_some] at h
    simp only [Option.some.injEq]
    by_cases hj : j < l.length
    · rw [S_point l j hj, h, List.getElem?_eq_getElem hj]; rfl
    · rw [h, List.getElem?_eq_none (by omega)]
      have : (l.zipIdx.map fun q => f q.1 * (if q.2 = j then ε else 0)) = l.zipIdx.map fun _ => (0 : Rat) := by
        apply List.map_congr_left
        intro q hq
        have := List.mem_zipIdx' hq
        rw [if_neg (by omega), mul_zero]
      rw [this]; simp

theorem S_push {α : Type} {l : List α} {x : List Rat} (hlen : x.length = l.length) {j i : Option Nat} {a b : Option α} (ha : a = j.bind (l[·]?)) (hb : b = i.bind (l[·]?)) (ε : Rat)
    (f : α → Rat) : S l (push x j i ε) f = S l x f + ε * ((a.map f).getD 0 - (b.map f).getD 0) := by
  have e : (l.zipIdx.map fun q => f q.1 * (push x j i ε).getD q.2 0) =
      l.zipIdx.map fun q => f q.1 * x.getD q.2 0 + (f q.1 * (if some q.2 = j then ε else 0) + -(f q.1 * (if some q.2 = i then ε else 0))) := by
    apply List.map_congr_left
    intro q hq
    have := List.mem_zipIdx' hq
    rw [push_getD (by omega)]; ring
  unfold S
  rw [e, List.sum_map_add, List.sum_map_add, S_at l j a ha, Lp.sum_neg, S_at l i b hb]
  ring

/-! ## Rows -/

/-- The row stops its value from changing in the direction of `δ`. -/
def Tight (r : Row) (u δ : Rat) : Prop :=
  (0 < δ ∧ (r.type = .fx ∨ ((r.type = .up ∨ r.type = .db) ∧ u = r.ub))) ∨ (δ < 0 ∧ (r.type = .fx ∨ ((r.type = .lo ∨ r.type = .db) ∧ u = r.lb)))

theorem room {r : Row} {u δ : Rat} (hu : r.Admits u) (h : ¬ Tight r u δ) : ∃ ε, 0 < ε ∧ ∀ e, 0 ≤ e → e ≤ ε → r.Admits (u + e * δ) := by
  rcases lt_trichotomy δ 0 with hδ | rfl | hδ
  · have h' : ¬ (r.type = .fx ∨ ((r.type = .lo ∨ r.type = .db) ∧ u = r.lb)) := fun hc => h (.inr ⟨hδ, hc⟩)
    push Not at h'
    cases ht : r.type with
    | fr => exact ⟨1, one_pos, fun e _ _ => by simp only [Row.Admits, ht]⟩
    | fx => exact absurd ht h'.1
    | up =>
      refine ⟨1, one_pos, fun e h1 _ => ?_⟩
      simp only [Row.Admits, ht] at hu ⊢
      nlinarith
    | lo =>
      have hne := h'.2 (.inl ht)
      simp only [Row.Admits, ht] at hu ⊢
      have hlt : 0 < u - r.lb := sub_pos.2 (lt_of_le_of_ne hu (Ne.symm hne))
      refine ⟨(u - r.lb) / (-δ), div_pos hlt (by linarith), fun e h1 h2 => ?_⟩
      rw [le_div_iff₀ (by linarith)] at h2
      linarith
    | db =>
      have hne := h'.2 (.inr ht)
      simp only [Row.Admits, ht] at hu ⊢
      have hlt : 0 < u - r.lb := sub_pos.2 (lt_of_le_of_ne hu.1 (Ne.symm hne))
      refine ⟨(u - r.lb) / (-δ), div_pos hlt (by linarith), fun e h1 h2 => ?_⟩
      rw [le_div_iff₀ (by linarith)] at h2
      exact ⟨by linarith, by nlinarith [hu.2]⟩
  · exact ⟨1, one_pos, fun e _ _ => by rw [mul_zero, add_zero]; exact hu⟩
  · have h' : ¬ (r.type = .fx ∨ ((r.type = .up ∨ r.type = .db) ∧ u = r.ub)) := fun hc => h (.inl ⟨hδ, hc⟩)
    push Not at h'
    cases ht : r.type with
    | fr => exact ⟨1, one_pos, fun e _ _ => by simp only [Row.Admits, ht]⟩
    | fx => exact absurd ht h'.1
    | lo =>
      refine ⟨1, one_pos, fun e h1 _ => ?_⟩
      simp only [Row.Admits, ht] at hu ⊢
      nlinarith
    | up =>
      have hne := h'.2 (.inl ht)
      simp only [Row.Admits, ht] at hu ⊢
      have hlt : 0 < r.ub - u := sub_pos.2 (lt_of_le_of_ne hu hne)
      refine ⟨(r.ub - u) / δ, div_pos hlt hδ, fun e h1 h2 => ?_⟩
      rw [le_div_iff₀ hδ] at h2
      linarith
    | db =>
      have hne := h'.2 (.inr ht)
      simp only [Row.Admits, ht] at hu ⊢
      have hlt : 0 < r.ub - u := sub_pos.2 (lt_of_le_of_ne hu.2 hne)
      refine ⟨(r.ub - u) / δ, div_pos hlt hδ, fun e h1 h2 => ?_⟩
      rw [le_div_iff₀ hδ] at h2
      exact ⟨by nlinarith [hu.1], by linarith⟩

theorem common {α : Type} (l : List α) (P : α → Rat → Prop) (h : ∀ a ∈ l, ∃ ε, 0 < ε ∧ ∀ e, 0 ≤ e → e ≤ ε → P a e) :
    ∃ ε, 0 < ε ∧ ∀ e, 0 ≤ e → e ≤ ε → ∀ a ∈ l, P a e := by
  induction l with
  | nil => exact ⟨1, one_pos, fun _ _ _ _ h => by cases h⟩
  | cons a l ih =>
    obtain ⟨ε, h1, h2⟩ := h a (by simp)
    obtain ⟨ε', h3, h4⟩ := ih fun b hb => h b (by simp [hb])
    refine ⟨min ε ε', lt_min h1 h3, fun e h5 h6 b hb => ?_⟩
    rcases List.mem_cons.1 hb with rfl | hb
    · exact h2 e h5 (h6.trans (min_le_left _ _))
    · exact h4 e h5 (h6.trans (min_le_right _ _)) b hb

/-- If a change would be cheaper, some row stops it. -/
theorem stopped {d : Data} {routes : List (List Nat)} {x : List Rat} (hx : Optimal d routes x) (c : Change)
    (hmore : ∀ r, c.more = some r → r ∈ routes) (hless : ∀ r, c.less = some r → ∃ i : Nat, routes[i]? = some r ∧ 0 < x.getD i 0)
    (hcost : c.of (fun r => roundCost (routeCost d r)) < 0) (rows : List LpRow) (hrows : routeRows d routes = .ok rows)
    (w : LpRow → List Nat → Rat) (hw : ∀ row ∈ rows, ∀ x, rowVal x row.entries = S routes x (w row)) :
    ∃ row ∈ rows, Tight row.bounds (rowVal x row.entries) (c.of (w row)) := by
  by_contra hno
  push Not at hno
  obtain ⟨⟨rows', hrows', hlen, hx0, hsat⟩, hopt⟩ := hx
  rw [hrows] at hrows'
  cases hrows'
  obtain ⟨j, hj⟩ : ∃ j : Option Nat, c.more = j.bind (routes[·]?) := by
    cases hm : c.more with
    | none => exact ⟨none, rfl⟩
    | some r =>
      obtain ⟨j, hj, e⟩ := List.getElem_of_mem (hmore r hm)
      exact ⟨some j, by rw [Option.bind_some, List.getElem?_eq_getElem hj, e]⟩
  obtain ⟨i, hi, hpos⟩ : ∃ i : Option Nat, c.less = i.bind (routes[·]?) ∧ ∀ k, i = some k → 0 < x.getD k 0 := by
    cases hm : c.less with
    | none => exact ⟨none, rfl, fun k h => by cases h⟩
    | some r =>
      obtain ⟨i, hi, e⟩ := hless r hm
      exact ⟨some i, by rw [Option.bind_some, hi], fun k hk => by cases hk; exact e⟩
  obtain ⟨ε, h1, h2⟩ := common rows (fun row e => row.bounds.Admits (rowVal x row.entries + e * c.of (w row))) fun row hrow => room (hsat row hrow) (hno row hrow)
  obtain ⟨η, h3, h4⟩ : ∃ η : Rat, 0 < η ∧ ∀ k, i = some k → η ≤ x.getD k 0 := by
    rcases i with _ | k
    · exact ⟨1, one_pos, fun k h => by cases h⟩
    · exact ⟨x.getD k 0, hpos k rfl, fun k' h => by cases h; exact le_refl _⟩
  set e := min ε η with he
  have he0 : 0 < e := lt_min h1 h3
  have hf : RouteFeasible d routes (push x j i e) := by
    refine ⟨rows, hrows, by rw [push_length, hlen], ?_, ?_⟩
    · intro v hv
      obtain ⟨k, hk, rfl⟩ := List.getElem_of_mem hv
      rw [push_length] at hk
      have e1 : (push x j i e)[k]'(by rw [push_length]; exact hk) = (push x j i e).getD k 0 := by
        rw [List.getD_eq_getElem?_getD, List.getElem?_eq_getElem (by rw [push_length]; exact hk)]; rfl
      rw [e1, push_getD hk]
      have hp := getD_nonneg hx0 k
      by_cases hki : some k = i
      · have := h4 k hki.symm
        have h5 : e ≤ η := min_le_right _ _
        rw [if_pos hki]
        split_ifs <;> linarith
      · rw [if_neg hki]
        split_ifs <;> linarith
    · intro row hrow
      have := h2 e he0.le (min_le_left _ _) row hrow
      rw [hw row hrow, S_push hlen hj hi]
      rw [hw row hrow] at this
      exact this
  have := hopt _ hf
  rw [objective_S, objective_S, S_push hlen hj hi] at this
  have h6 : e * c.of (fun r => roundCost (routeCost d r)) < 0 := mul_neg_of_pos_of_neg he0 hcost
  unfold Change.of at h6
  linarith

/-! ## What a tight row says -/

theorem tight_ne {r : Row} {u δ : Rat} (h : Tight r u δ) : δ ≠ 0 := by
  rcases h with ⟨h, -⟩ | ⟨h, -⟩
  · exact ne_of_gt h
  · exact ne_of_lt h

theorem of_ite {c : Change} {p : List Nat → Prop} [DecidablePred p] (h : ¬ c.Differ p) (k : Rat) : c.of (fun r => if p r then k else 0) = 0 := by
  unfold Change.Differ at h
  rw [not_not] at h
  have e : ∀ o : Option (List Nat), (o.map fun r => if p r then k else 0).getD 0 = if ∃ r, o = some r ∧ p r then k else 0 := by
    intro o
    rcases o with _ | r
    · simp
    · simp
  unfold Change.of
  rw [e, e, if_congr h rfl rfl, sub_self]

theorem of_add (c : Change) (f g : List Nat → Rat) : c.of (fun r => f r + g r) = c.of f + c.of g := by
  unfold Change.of
  cases c.more <;> cases c.less <;> simp <;> ring

theorem of_sum {β : Type} (c : Change) (l : List β) (f : β → List Nat → Rat) : c.of (fun r => (l.map fun b => f b r).sum) = (l.map fun b => c.of (f b)).sum := by
  induction l with
  | nil => unfold Change.of; cases c.more <;> cases c.less <;> simp
  | cons b l ih =>
    simp only [List.map_cons, List.sum_cons]
    rw [of_add, ih]

theorem of_sum_ite {β : Type} {c : Change} (l : List β) (p : β → List Nat → Prop) [∀ b, DecidablePred (p b)] (k : β → Rat) (h : ∀ b ∈ l, ¬ c.Differ (p b)) :
    c.of (fun r => (l.map fun b => if p b r then k b else 0).sum) = 0 := by
  rw [of_sum c l fun b r => if p b r then k b else 0]
  apply List.sum_eq_zero
  intro v hv
  obtain ⟨b, hb, rfl⟩ := List.mem_map.1 hv
  exact of_ite (h b hb) (k b)

theorem routeFactors_members (v : VirtualData) {r : List Nat} (hr : r.Nodup) :
    (routeFactors v r).sum = (v.nodes.dedup.map fun m => if m ∈ r then (((v.nodes.idxOf? m).bind fun i => v.factors[i]?).getD 0) else 0).sum := by
  unfold routeFactors
  rw [sum_filterMap]
  set h : Nat → Rat := fun n => ((v.nodes.idxOf? n).bind fun i => v.factors[i]?).getD 0 with hh
  have h0 : ∀ n, n ∉ v.nodes → h n = 0 := by
    intro n hn
    have : v.nodes.idxOf? n = none := by rw [List.idxOf?_eq_none_iff]; exact hn
    simp only [hh, this]; rfl
  have e1 : (r.map fun n => h n) = r.map fun n => (v.nodes.dedup.map fun m => if n = m then h m else 0).sum := by
    apply List.map_congr_left
    intro n _
    have : (v.nodes.dedup.map fun m => if n = m then h m else 0) = v.nodes.dedup.map fun m => if n = m then h n else 0 := by
      apply List.map_congr_left
      intro m _
      split_ifs with e
      · rw [e]
      · rfl
    rw [this, sum_eq_ite (List.nodup_dedup _)]
    split_ifs with hm
    · rfl
    · exact h0 n fun hn => hm (List.mem_dedup.2 hn)
  rw [e1, sum_swap]
  congr 1
  apply List.map_congr_left
  intro m _
  have : (r.map fun n => if n = m then h m else 0) = r.map fun n => if m = n then h m else 0 := by
    apply List.map_congr_left
    intro n _
    exact if_congr eq_comm rfl rfl
  rw [this, sum_eq_ite hr]

theorem lastWeight_of {c : Change} (a : AggData) (h : ∀ n ∈ a.nodes, ¬ c.Differ (n ∈ ·)) : c.of (fun r => (lastWeight a fun n => r.contains n).getD 0) = 0 := by
  set f : List Nat → Rat := fun r => (lastWeight a fun n => r.contains n).getD 0 with hf
  have hcongr : ∀ r r' : List Nat, (∀ n ∈ a.nodes, n ∈ r ↔ n ∈ r') → f r = f r' := by
    intro r r' h
    simp only [hf, lastWeight]
    congr 3
    apply List.filter_congr
    intro p hp
    have := h p.1 (List.of_mem_zip hp).1
    simp [this]
  have hnil : f [] = 0 := by
    have : ((a.nodes.zip a.weightList).filter fun p => ([] : List Nat).contains p.1) = [] := by
      rw [List.filter_eq_nil_iff]; simp
    simp only [hf, lastWeight, this]; rfl
  have e : ∀ o : Option (List Nat), (o.map f).getD 0 = f (o.getD []) := by
    intro o
    rcases o with _ | r
    · exact hnil.symm
    · rfl
  unfold Change.of
  rw [e, e, hcongr (c.more.getD []) (c.less.getD []), sub_self]
  intro n hn
  have := h n hn
  unfold Change.Differ at this
  rw [not_not] at this
  have e' : ∀ o : Option (List Nat), n ∈ o.getD [] ↔ ∃ r, o = some r ∧ n ∈ r := by
    intro o
    rcases o with _ | r <;> simp
  rw [e', e']
  exact this

theorem of_congr {c : Change} {routes : List (List Nat)} (hmore : ∀ r, c.more = some r → r ∈ routes) (hless : ∀ r, c.less = some r → r ∈ routes) {f g : List Nat → Rat}
    (h : ∀ r ∈ routes, f r = g r) : c.of f = c.of g := by
  unfold Change.of
  congr 1
  · cases hm : c.more with
    | none => rfl
    | some r => exact h r (hmore r hm)
  · cases hm : c.less with
    | none => rfl
    | some r => exact h r (hless r hm)

theorem of_neg (c : Change) (f : List Nat → Rat) : c.of (fun r => -f r) = -c.of f := by
  unfold Change.of
  cases c.more <;> cases c.less <;> simp; ring

/-- A tight row of flow limits. -/
theorem tight_limits {a b : F} {r : Row} {u δ : Rat} (ha : LowerLimit a) (hb : UpperLimit b) (hr : flowRow true a b = .stored r) (h : Tight r u δ) :
    (0 < δ ∧ NoMore a b u) ∨ (δ < 0 ∧ NoLess a b u) := by
  have hD := dblMax_gt
  have he := e8_lt_one
  have rnd_ord : ∀ q, OrdinaryDouble q → ∃ q', roundTiny (.fin q) = .fin q' ∧ F.effective (.fin q) = .fin q' ∧ OrdinaryDouble q' := by
    intro q hq
    by_cases h : |q| < e8
    · exact ⟨0, by simp only [roundTiny, h, if_true], by simp only [F.effective, h, if_true], by
        unfold OrdinaryDouble; constructor <;> linarith⟩
    · exact ⟨q, by simp only [roundTiny, h, if_false], by simp only [F.effective, h, if_false], hq⟩
  have hbig : ¬ |dblMax| < e8 := by rw [abs_of_pos (by linarith)]; linarith
  have hbig' : ¬ |-dblMax| < e8 := by rw [abs_neg]; exact hbig
  have hM : roundTiny (.fin dblMax) = .fin dblMax := by simp only [roundTiny, hbig, if_false]
  have hM' : roundTiny (.fin (-dblMax)) = .fin (-dblMax) := by simp only [roundTiny, hbig', if_false]
  rcases ha with rfl | ⟨p, rfl, hp⟩ <;> rcases hb with rfl | ⟨q, rfl, hq⟩
  · simp only [flowRow, infToDblMax, hM, hM', setRowBnds] at hr
    rw [← Outcome.stored.inj hr] at h
    have hc : ¬ |-dblMax - dblMax| < e8 := by rw [abs_of_neg (by linarith)]; linarith
    simp [Tight, constraintType, hc] at h
  · obtain ⟨q', h1, h2, h3⟩ := rnd_ord q hq
    simp only [flowRow, infToDblMax, h1, hM', setRowBnds] at hr
    rw [← Outcome.stored.inj hr] at h
    unfold OrdinaryDouble at h3
    have hc : ¬ |-dblMax - q'| < e8 := by rw [abs_of_neg (by linarith)]; linarith
    have hne : q' ≠ dblMax := by intro h; linarith
    simp only [Tight, constraintType, hc, if_false, hne, if_true] at h
    rcases h with ⟨h4, h5⟩ | ⟨h4, h5⟩
    · simp at h5
      exact .inl ⟨h4, .inr (by rw [h2, h5])⟩
    · simp at h5
  · obtain ⟨p', h1, h2, h3⟩ := rnd_ord p hp
    simp only [flowRow, infToDblMax, h1, hM, setRowBnds] at hr
    rw [← Outcome.stored.inj hr] at h
    unfold OrdinaryDouble at h3
    have hc : ¬ |p' - dblMax| < e8 := by rw [abs_of_neg (by linarith)]; linarith
    have hne : p' ≠ -dblMax := by intro h; linarith
    simp only [Tight, constraintType, hc, if_false, hne, if_true] at h
    rcases h with ⟨h4, h5⟩ | ⟨h4, h5⟩
    · simp at h5
    · simp at h5
      exact .inr ⟨h4, .inr (by rw [h2, h5])⟩
  · obtain ⟨p', h1, h2, h3⟩ := rnd_ord p hp
    obtain ⟨q', h4, h5, h6⟩ := rnd_ord q hq
    simp only [flowRow, infToDblMax, h1, h4, setRowBnds] at hr
    rw [← Outcome.stored.inj hr] at h
    unfold OrdinaryDouble at h3 h6
    by_cases hc : |p' - q'| < e8
    · have hcl : Close (F.effective (.fin p)) (F.effective (.fin q)) := by rw [h2, h5]; exact hc
      rcases h with ⟨h7, -⟩ | ⟨h7, -⟩
      · exact .inl ⟨h7, .inl hcl⟩
      · exact .inr ⟨h7, .inl hcl⟩
    · have hne : p' ≠ -dblMax := by intro h; linarith
      have hne' : q' ≠ dblMax := by intro h; linarith
      simp only [Tight, constraintType, hc, if_false, hne, hne'] at h
      rcases h with ⟨h7, h8⟩ | ⟨h7, h8⟩
      · simp at h8
        exact .inl ⟨h7, .inr (by rw [h5, h8])⟩
      · simp at h8
        exact .inr ⟨h7, .inr (by rw [h2, h8])⟩

/-- A tight row of a storage. -/
theorem tight_storage {volume mx mn days u δ : Rat} (hd : 0 < days) (hu : (Storage.storageRow volume mx mn days).Admits u) (h : Tight (Storage.storageRow volume mx mn days) u δ) :
    (0 < δ ∧ Full volume mx mn u days) ∨ (δ < 0 ∧ Empty volume mx mn u days) := by
  by_cases hm : mx = mn
  · rcases h with ⟨h1, -⟩ | ⟨h1, -⟩
    · exact .inl ⟨h1, .inl hm⟩
    · exact .inr ⟨h1, .inl hm⟩
  · have h8 : e8 = 1 / 100000000 := rfl
    unfold Storage.storageRow at h hu
    rw [if_neg hm] at h hu
    simp only at h hu
    set lb := (if |-max (volume - mn) 0 / days| < e8 then 0 else -max (volume - mn) 0 / days) with hlb
    set ub := (if |max (mx - volume) 0 / days| < e8 then 0 else max (mx - volume) 0 / days) with hub
    have a1 : max (mx - volume) 0 / days - e8 ≤ ub := by
      rw [hub]
      split_ifs with hc
      · have := le_abs_self (max (mx - volume) 0 / days); linarith
      · rw [h8]; norm_num
    have a2 : lb ≤ -max (volume - mn) 0 / days + e8 := by
      rw [hlb]
      split_ifs with hc
      · have := neg_abs_le (-max (volume - mn) 0 / days); linarith
      · rw [h8]; norm_num
    have b1 : mx - volume ≤ max (mx - volume) 0 / days * days := by
      rw [div_mul_cancel₀ _ (ne_of_gt hd)]; exact le_max_left _ _
    have b2 : -max (volume - mn) 0 / days * days ≤ mn - volume := by
      rw [div_mul_cancel₀ _ (ne_of_gt hd)]
      have := le_max_left (volume - mn) 0
      linarith
    have full : ub - e8 ≤ u → Full volume mx mn u days := by
      intro h1
      right
      have : max (mx - volume) 0 / days * days ≤ (u + 2 / 100000000) * days := by
        apply mul_le_mul_of_nonneg_right _ hd.le
        rw [h8] at a1 h1
        linarith
      linarith
    have empty : u ≤ lb + e8 → Empty volume mx mn u days := by
      intro h1
      right
      have : (u - 2 / 100000000) * days ≤ -max (volume - mn) 0 / days * days := by
        apply mul_le_mul_of_nonneg_right _ hd.le
        rw [h8] at a2 h1
        linarith
      linarith
    by_cases hc : |lb - ub| < e8
    · have ht : constraintType lb ub = .fx := by simp only [constraintType, hc, if_true]
      simp only [Row.Admits, ht] at hu
      have := abs_lt.1 hc
      have h8' : (0 : Rat) < e8 := by rw [h8]; norm_num
      rcases h with ⟨h1, -⟩ | ⟨h1, -⟩
      · exact .inl ⟨h1, full (by linarith)⟩
      · exact .inr ⟨h1, empty (by linarith)⟩
    · have h8' : (0 : Rat) < e8 := by rw [h8]; norm_num
      have hnf : constraintType lb ub ≠ .fx := by
        simp only [constraintType, hc, if_false]
        split_ifs <;> simp
      rcases h with ⟨h1, h2⟩ | ⟨h1, h2⟩
      · rcases h2 with h2 | ⟨-, h2⟩
        · exact absurd h2 hnf
        · exact .inl ⟨h1, full (by simp only at h2; linarith)⟩
      · rcases h2 with h2 | ⟨-, h2⟩
        · exact absurd h2 hnf
        · exact .inr ⟨h1, empty (by simp only at h2; linarith)⟩

end Verif.Priority

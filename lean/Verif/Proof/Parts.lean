import Verif.Proof.EdgeLines
import Verif.Spec.Parts
import Mathlib.Data.List.Perm.Basic
import Mathlib.Data.List.GetD
/-! # Lemmas on models made of parts -/

namespace Verif.Lp

open Verif Verif.Bounds

/-! ## Sums over columns -/

theorem S_zip {α : Type} (l : List α) (x : List Rat) (f : α → Rat) : S l x f = ((l.zip x).map fun p => f p.1 * p.2).sum := by
  have key : ∀ (k : Nat) (x : List Rat), ((l.zipIdx k).map fun q => f q.1 * x.getD q.2 0).sum = ((l.zip (x.drop k)).map fun p => f p.1 * p.2).sum := by
    induction l with
    | nil => intro k x; simp
    | cons a l ih =>
      intro k x
      rw [List.zipIdx_cons, List.map_cons, List.sum_cons, ih]
      by_cases hk : k < x.length
      · rw [List.drop_eq_getElem_cons hk, List.zip_cons_cons, List.map_cons, List.sum_cons, List.getD_eq_getElem _ _ hk]
      · rw [List.drop_eq_nil_of_le (by omega), List.drop_eq_nil_of_le (by omega)]
        simp [List.getElem?_eq_none (show x.length ≤ k by omega)]
  have := key 0 x
  simpa [S] using this

theorem zip_filter {α : Type} (q : α → Bool) (l : List α) (x : List Rat) (h : x.length = l.length) : (l.filter q).zip (pick q l x) = (l.zip x).filter fun p => q p.1 := by
  induction l generalizing x with
  | nil => simp [pick]
  | cons a l ih =>
    cases x with
    | nil => cases h
    | cons v x =>
      have := ih x (by simpa using h)
      unfold pick at this ⊢
      by_cases hq : q a = true
      · simp [hq, this]
      · simp [hq, this]

theorem pick_length {α : Type} (q : α → Bool) (l : List α) (x : List Rat) (h : x.length = l.length) : (pick q l x).length = (l.filter q).length := by
  have h1 : ((l.zip x).filter fun p => q p.1).length = (l.filter q).length := by
    have : l.filter q = ((l.zip x).filter fun p => q p.1).map (·.1) := by
      have e : l = (l.zip x).map (·.1) := (List.map_fst_zip (by omega)).symm
      conv_lhs => rw [e]
      rw [List.filter_map]; rfl
    rw [this, List.length_map]
  unfold pick
  rw [List.length_map, h1]

theorem S_pick {α : Type} (q : α → Bool) (l : List α) (x : List Rat) (h : x.length = l.length) (f : α → Rat) (hf : ∀ a ∈ l, q a = false → f a = 0) :
    S (l.filter q) (pick q l x) f = S l x f := by
  rw [S_zip, S_zip, zip_filter q l x h]
  induction l generalizing x with
  | nil => simp
  | cons a l ih =>
    cases x with
    | nil => cases h
    | cons v x =>
      have := ih x (by simpa using h) fun b hb => hf b (by simp [hb])
      by_cases hq : q a = true
      · simp [hq, this]
      · simp [hq, this, hf a (by simp) (by simpa using hq)]

theorem S_both {α : Type} (q q' : α → Bool) (l : List α) (x : List Rat) (h : x.length = l.length) (f : α → Rat) (hq : ∀ a ∈ l, q' a = !q a) :
    S l x f = S (l.filter q) (pick q l x) f + S (l.filter q') (pick q' l x) f := by
  rw [S_zip, S_zip, S_zip, zip_filter q l x h, zip_filter q' l x h]
  induction l generalizing x with
  | nil => simp
  | cons a l ih =>
    cases x with
    | nil => cases h
    | cons v x =>
      have := ih x (by simpa using h) fun b hb => hq b (by simp [hb])
      have ha := hq a (by simp)
      by_cases hqa : q a = true
      · simp [hqa, ha, this]; ring
      · simp [hqa, ha, this]; ring

theorem pick_nonneg {α : Type} (q q' : α → Bool) (l : List α) (x : List Rat) (h : x.length = l.length) (hq : ∀ a ∈ l, q' a = !q a) :
    (∀ v ∈ x, 0 ≤ v) ↔ (∀ v ∈ pick q l x, 0 ≤ v) ∧ ∀ v ∈ pick q' l x, 0 ≤ v := by
  unfold pick
  constructor
  · intro hx
    refine ⟨fun v hv => ?_, fun v hv => ?_⟩ <;>
    · obtain ⟨p, hp, rfl⟩ := List.mem_map.1 hv
      exact hx _ (List.of_mem_zip (List.mem_filter.1 hp).1).2
  · rintro ⟨h1, h2⟩ v hv
    have e : x = (l.zip x).map (·.2) := (List.map_snd_zip (by omega)).symm
    rw [e] at hv
    obtain ⟨p, hp, rfl⟩ := List.mem_map.1 hv
    by_cases hqp : q p.1 = true
    · exact h1 _ (List.mem_map_of_mem (List.mem_filter.2 ⟨hp, hqp⟩))
    · exact h2 _ (List.mem_map_of_mem (List.mem_filter.2 ⟨hp, by rw [hq p.1 (List.of_mem_zip hp).1]; simpa using hqp⟩))

/-- Values of both sides together. -/
theorem merge {α : Type} (q q' : α → Bool) (l : List α) (hq : ∀ a ∈ l, q' a = !q a) (z z' : List Rat) (hz : z.length = (l.filter q).length)
    (hz' : z'.length = (l.filter q').length) : ∃ x : List Rat, x.length = l.length ∧ pick q l x = z ∧ pick q' l x = z' := by
  induction l generalizing z z' with
  | nil =>
    refine ⟨[], rfl, ?_, ?_⟩
    · rw [List.length_eq_zero_iff.1 (show z.length = 0 by simpa using hz)]; rfl
    · rw [List.length_eq_zero_iff.1 (show z'.length = 0 by simpa using hz')]; rfl
  | cons a l ih =>
    have ha := hq a (by simp)
    have hq' : ∀ b ∈ l, q' b = !q b := fun b hb => hq b (by simp [hb])
    by_cases hqa : q a = true
    · cases z with
      | nil => simp [hqa] at hz
      | cons v z =>
        obtain ⟨x, h1, h2, h3⟩ := ih hq' z z' (by simpa [hqa] using hz) (by simpa [hqa, ha] using hz')
        refine ⟨v :: x, by simp [h1], ?_, ?_⟩
        · rw [← h2]; simp [pick, hqa]
        · rw [← h3]; simp [pick, hqa, ha]
    · cases z' with
      | nil => simp [hqa, ha] at hz'
      | cons v z' =>
        obtain ⟨x, h1, h2, h3⟩ := ih hq' z z' (by simpa [hqa] using hz) (by simpa [hqa, ha] using hz')
        refine ⟨v :: x, by simp [h1], ?_, ?_⟩
        · rw [← h2]; simp [pick, hqa]
        · rw [← h3]; simp [pick, hqa, ha]

/-! ## Rows -/

/-- A row without entries in the columns outside `q`. -/
def Local {α : Type} (q : α → Bool) (l : List α) (o : Option (Line α)) : Prop :=
  ∀ L, o = some L → ∀ a ∈ l, q a = false → L.bad a = false ∧ L.mult a = 0 ∧ L.coef a = 0

theorem allHold_pick {α : Type} (q : α → Bool) (l : List α) (x : List Rat) (h : x.length = l.length) (lines : List (Option (Line α))) (hl : ∀ o ∈ lines, Local q l o) :
    AllHold lines l x ↔ AllHold lines (l.filter q) (pick q l x) := by
  unfold AllHold
  refine forall₂_congr fun o ho => exists_congr fun L => and_congr_right fun hL => ?_
  have hloc := hl o ho L hL
  unfold Line.Built Line.Holds
  rw [S_pick q l x h L.coef fun a ha hq => (hloc a ha hq).2.2]
  refine and_congr (and_congr ?_ (and_congr ?_ ?_)) Iff.rfl
  · constructor
    · intro hb a ha; exact hb a (List.mem_filter.1 ha).1
    · intro hb a ha
      by_cases hq : q a = true
      · exact hb a (List.mem_filter.2 ⟨ha, hq⟩)
      · exact (hloc a ha (by simpa using hq)).1
  · constructor
    · rintro ⟨a, ha, hm⟩
      refine ⟨a, List.mem_filter.2 ⟨ha, ?_⟩, hm⟩
      by_contra hq
      exact hm (hloc a ha (by simpa using hq)).2.1
    · rintro ⟨a, ha, hm⟩; exact ⟨a, (List.mem_filter.1 ha).1, hm⟩
  · constructor
    · intro hb a ha; exact hb a (List.mem_filter.1 ha).1
    · intro hb a ha
      by_cases hq : q a = true
      · exact hb a (List.mem_filter.2 ⟨ha, hq⟩)
      · rw [(hloc a ha (by simpa using hq)).2.1]; omega

theorem S_perm {α : Type} {l l' : List α} {x x' : List Rat} (h : (l.zip x).Perm (l'.zip x')) (f : α → Rat) : S l x f = S l' x' f := by
  rw [S_zip, S_zip]
  exact (h.map _).sum_eq

theorem mem_of_zip_perm {α : Type} {l l' : List α} {x x' : List Rat} (hl : x.length = l.length) (h : (l.zip x).Perm (l'.zip x')) {a : α} (ha : a ∈ l) : a ∈ l' := by
  have e : l = (l.zip x).map (·.1) := (List.map_fst_zip (by omega)).symm
  rw [e] at ha
  obtain ⟨p, hp, rfl⟩ := List.mem_map.1 ha
  exact (List.of_mem_zip (h.mem_iff.1 hp)).1

theorem nonneg_of_zip_perm {α : Type} {l l' : List α} {x x' : List Rat} (hl : x.length = l.length) (h : (l.zip x).Perm (l'.zip x')) (hx' : ∀ v ∈ x', 0 ≤ v) : ∀ v ∈ x, 0 ≤ v := by
  intro v hv
  have e : x = (l.zip x).map (·.2) := (List.map_snd_zip (by omega)).symm
  rw [e] at hv
  obtain ⟨p, hp, rfl⟩ := List.mem_map.1 hv
  exact hx' _ (List.of_mem_zip (h.mem_iff.1 hp)).2

theorem allHold_perm {α : Type} {l l' : List α} {x x' : List Rat} (hl : x.length = l.length) (hl' : x'.length = l'.length) (h : (l.zip x).Perm (l'.zip x'))
    {lines lines' : List (Option (Line α))} (hlines : ∀ o, o ∈ lines ↔ o ∈ lines') : AllHold lines l x ↔ AllHold lines' l' x' := by
  have hm : ∀ a, a ∈ l ↔ a ∈ l' := fun a => ⟨mem_of_zip_perm hl h, mem_of_zip_perm hl' h.symm⟩
  unfold AllHold Line.Built Line.Holds
  simp only [hlines, hm, S_perm h]

/-! ## Costs and flows -/

theorem routeObjective_S (d : Data) (routes : List (List Nat)) (x : List Rat) : routeObjective d routes x = S routes x fun r => roundCost (routeCost d r) := rfl

/-- Cost of an edge. -/
def eCost (d : Data) (g : Graph) (e : Nat × Nat) : Rat :=
  (d.nodes.map fun n => (if d.kind n = .link then d.cost n / 2 else d.cost n) * (one (enters g n e) + one (leaves g n e) : Nat)).sum

theorem sum_filter_eq {α : Type} (p : α → Bool) (l : List α) (c : Nat) (a : α) (h : l[c]? = some a) (v : Rat) :
    (((colsOf p l).filter fun k => k == c).map fun _ => v).sum = v * (one (p a) : Nat) := by
  have : ((colsOf p l).filter fun k => k == c) = List.replicate ((colsOf p l).count c) c := List.filter_beq _
  rw [this, count_colsOf, h]
  by_cases hp : p a = true <;> simp [hp, one]

theorem edgeCost_S (d : Data) (g : Graph) (c : Nat) (e : Nat × Nat) (h : g.edges[c]? = some e) : edgeCost d g c = eCost d g e := by
  unfold edgeCost eCost
  congr 1
  apply List.map_congr_left
  intro n _
  simp only
  have h1 := sum_filter_eq (enters g n) g.edges c e h (if d.kind n = .link then d.cost n / 2 else d.cost n)
  have h2 := sum_filter_eq (leaves g n) g.edges c e h (if d.kind n = .link then d.cost n / 2 else d.cost n)
  unfold inEdges outEdges
  refine (congrArg₂ (· + ·) h1 h2).trans ?_
  push_cast
  ring

theorem edgeObjective_S (d : Data) (g : Graph) (y : List Rat) : edgeObjective d g y = S g.edges y (eCost d g) := by
  unfold edgeObjective S
  have e : List.range g.edges.length = g.edges.zipIdx.map (·.2) := by
    rw [List.zipIdx_eq_zip_range', List.map_snd_zip (by simp), List.range_eq_range']
  rw [e, List.map_map]
  congr 1
  apply List.map_congr_left
  rintro ⟨a, c⟩ hq
  have := List.mem_zipIdx' hq
  simp only [Function.comp]
  rw [edgeCost_S d g c a (by rw [List.getElem?_eq_getElem this.1]; simp [this.2])]

theorem edgeNodeFlow_S (d : Data) (g : Graph) (y : List Rat) (n : Nat) :
    edgeNodeFlow d g y n = S g.edges y fun e => share d n * ((if e.1 = n then 1 else 0) + (if e.2 = n then 1 else 0)) := by
  rw [edgeNodeFlow_eq]
  unfold outFlow inFlow
  rw [← S_add, ← S_mul]

/-! ## Parts of the route problem -/

theorem onSide_iff {side : Nat → Bool} {b : Bool} {l : List Nat} : onSide side b l = true ↔ ∀ n ∈ l, side n = b := by
  simp [onSide]

/-- Nodes on different sides are different. -/
theorem not_mem_of_sides {side : Nat → Bool} {b : Bool} {r : List Nat} (hr : ∀ n ∈ r, side n = !b) {n : Nat} (hn : side n = b) : n ∉ r := by
  intro h
  have := hr n h
  rw [hn] at this
  cases b <;> cases this

theorem other_side {side : Nat → Bool} {routes : List (List Nat)} (h : RoutesApart side routes) {r : List Nat} (hr : r ∈ routes) {b : Bool} (hb : onSide side b r = false) :
    ∀ n ∈ r, side n = !b := by
  obtain ⟨-, b', hb'⟩ := h r hr
  have : b' ≠ b := by
    rintro rfl
    rw [onSide_iff.2 hb'] at hb
    cases hb
  intro n hn
  rw [hb' n hn]
  cases b <;> cases b' <;> simp_all

theorem sides_split {side : Nat → Bool} {routes : List (List Nat)} (h : RoutesApart side routes) : ∀ r ∈ routes, onSide side false r = !onSide side true r := by
  intro r hr
  obtain ⟨hne, b, hb⟩ := h r hr
  obtain ⟨n, hn⟩ := List.exists_mem_of_ne_nil r hne
  have h1 : onSide side b r = true := onSide_iff.2 hb
  have h2 : onSide side (!b) r = false := by
    rw [Bool.eq_false_iff]
    intro hc
    have := onSide_iff.1 hc n hn
    rw [hb n hn] at this
    cases b <;> cases this
  cases b
  · rw [h1]; rw [show onSide side true r = false from h2]; rfl
  · rw [h1]; exact h2

theorem passes_mem {k : Kind} {n : Nat} {r : List Nat} (h : passes k n r = true) : n ∈ r := by
  unfold passes at h
  cases k with
  | input => exact mem_of_head? (by simpa using h)
  | output => exact List.mem_of_getLast? (by simpa using h)
  | link => simpa using h
  | other => simpa using h

theorem passes_false {k : Kind} {n : Nat} {r : List Nat} (h : n ∉ r) : passes k n r = false := by
  rw [Bool.eq_false_iff]; exact fun hc => h (passes_mem hc)

theorem inList_false {o : Option Nat} {l : List Nat} (h : ∀ n, o = some n → n ∉ l) : inList o l = false := by
  unfold inList
  cases o with
  | none => rfl
  | some n => simpa using h n rfl

theorem one_false : one false = 0 := rfl

theorem term_false (v : Rat) : term false v = 0 := rfl

theorem local_limit {α : Type} {q : α → Bool} {l : List α} {bad : α → Bool} {m : α → Nat} {w : α → Rat} {mn mx : F} (h : ∀ a ∈ l, q a = false → bad a = false ∧ m a = 0 ∧ w a = 0) :
    Local q l (limitLine bad m w mn mx) := by
  intro L hL a ha hq
  unfold limitLine at hL
  cases hf : flowRow true mn mx with
  | stored r =>
    rw [hf] at hL
    simp only [Option.some.injEq] at hL
    subst hL
    exact h a ha hq
  | glpkError => rw [hf] at hL; cases hL
  | storedNan => rw [hf] at hL; cases hL

theorem local_none {α : Type} {q : α → Bool} {l : List α} : Local q l (none : Option (Line α)) := by
  intro L hL; cases hL

theorem local_some {α : Type} {q : α → Bool} {l : List α} {L : Line α} (h : ∀ a ∈ l, q a = false → L.bad a = false ∧ L.mult a = 0 ∧ L.coef a = 0) : Local q l (some L) := by
  intro L' hL'
  cases hL'
  exact h

theorem routeFactors_nil {v : VirtualData} {r : List Nat} (h : ∀ n ∈ v.nodes, n ∉ r) : routeFactors v r = [] := by
  unfold routeFactors
  rw [List.filterMap_eq_nil_iff]
  intro n hn
  have : v.nodes.idxOf? n = none := by
    rw [List.idxOf?_eq_none_iff]
    exact fun hc => h n hc hn
  rw [this]; rfl

theorem lastWeight_none {a : AggData} {present : Nat → Bool} (h : ∀ n ∈ a.nodes, present n = false) : lastWeight a present = none := by
  unfold lastWeight
  rw [List.filter_eq_nil_iff.2 (by
    intro p hp
    rw [h p.1 (List.of_mem_zip hp).1]; simp)]
  rfl

theorem routes_local {side : Nat → Bool} {d : Data} {routes : List (List Nat)} (hs : Separate side d) (hr : RoutesApart side routes) (b : Bool) :
    ∀ o ∈ routeLines (part side b d), Local (onSide side b) routes o := by
  intro o ho
  unfold routeLines at ho
  simp only [List.mem_append, List.mem_map, List.mem_flatMap] at ho
  rcases ho with ((((⟨n, hn, rfl⟩ | ⟨c, hc, rfl⟩) | ⟨s, hs', rfl⟩) | ⟨v, hv, rfl⟩) | ⟨a, ha, ho⟩) | ⟨a, ha, rfl⟩
  · have hn' : side n = b := by
      have := (mem_nonStorages.1 hn).1
      simpa using (List.mem_filter.1 this).2
    refine local_limit fun r hrm hb => ?_
    have := passes_false (k := (part side b d).kind n) (not_mem_of_sides (other_side hr hrm hb) hn')
    exact ⟨rfl, by rw [this]; rfl, by rw [this]; rfl⟩
  · obtain ⟨hc1, hc2⟩ := List.mem_filter.1 hc
    have hc2 : side c.1 = b := by simpa using hc2
    unfold crossLine
    split
    · exact local_none
    · refine local_some fun r hrm hb => ?_
      have hoth := other_side hr hrm hb
      have h1 := passes_false (k := (part side b d).kind c.1) (not_mem_of_sides hoth hc2)
      have h2 : ∀ i ∈ c.2, (r.head? == some i.1) = false := by
        intro i hi
        rw [Bool.eq_false_iff]
        intro hh
        exact not_mem_of_sides hoth ((hs.cross c hc1 i hi).trans hc2) (mem_of_head? (by simpa using hh))
      refine ⟨rfl, ?_, ?_⟩
      · dsimp only
        rw [h1]
        have : (c.2.map fun i => one (r.head? == some i.1)) = c.2.map fun _ => 0 := List.map_congr_left fun i hi => by rw [h2 i hi]; rfl
        rw [this]; simp [one]
      · dsimp only
        rw [h1]
        have : (c.2.map fun i => term (r.head? == some i.1) (1 / i.2)) = c.2.map fun _ => 0 := List.map_congr_left fun i hi => by rw [h2 i hi]; rfl
        rw [this]; simp [term]
  · have hs2 := onSide_iff.1 (List.mem_filter.1 hs').2
    refine local_some fun r hrm hb => ?_
    have hoth := other_side hr hrm hb
    have h1 : inList r.getLast? s.outputs = false := inList_false fun n hn hm => not_mem_of_sides hoth (hs2 n (by simp [hm])) (List.mem_of_getLast? hn)
    have h2 : inList r.head? s.inputs = false := inList_false fun n hn hm => not_mem_of_sides hoth (hs2 n (by simp [hm])) (mem_of_head? hn)
    refine ⟨rfl, ?_, ?_⟩
    · simp [storageLine, h1, h2, one]
    · simp [storageLine, h1, h2, term]
  · have hv2 := onSide_iff.1 (List.mem_filter.1 hv).2
    refine local_some fun r hrm hb => ?_
    have hoth := other_side hr hrm hb
    have h1 : routeFactors v r = [] := routeFactors_nil fun n hn => not_mem_of_sides hoth (hv2 n hn)
    refine ⟨rfl, ?_, ?_⟩
    · simp [virtualLine, h1, one]
    · simp [virtualLine, h1]
  · have ha2 := onSide_iff.1 (List.mem_filter.1 ha).2
    unfold factorLines at ho
    cases hf : a.factors with
    | none => rw [hf] at ho; cases ho
    | some fs =>
      rw [hf] at ho
      cases hn : a.nodes with
      | nil =>
        rw [hn] at ho
        simp only [List.mem_singleton] at ho
        rw [ho]; exact local_none
      | cons n0 rest =>
        rw [hn] at ho ha2
        simp only at ho
        split at ho
        · simp only [List.mem_singleton] at ho
          rw [ho]; exact local_none
        · split at ho
          · simp only [List.mem_singleton] at ho
            rw [ho]; exact local_none
          · obtain ⟨p, hp, rfl⟩ := List.mem_map.1 ho
            refine local_some fun r hrm hb => ?_
            have hoth := other_side hr hrm hb
            have h1 : r.contains n0 = false := by simpa using not_mem_of_sides hoth (ha2 n0 (by simp))
            have h2 : r.contains p.1 = false := by simpa using not_mem_of_sides hoth (ha2 p.1 (by simp [(List.of_mem_zip hp).1]))
            simp only [h1, h2]
            refine ⟨trivial, ?_, ?_⟩
            · simp [one]
            · simp [term]
  · have ha2 := onSide_iff.1 (List.mem_filter.1 ha).2
    refine local_limit fun r hrm hb => ?_
    have hoth := other_side hr hrm hb
    have h1 : lastWeight a (fun n => r.contains n) = none := lastWeight_none fun n hn => by simpa using not_mem_of_sides hoth (ha2 n hn)
    refine ⟨rfl, ?_, ?_⟩
    · rw [h1]; rfl
    · rw [h1]; rfl

theorem mem_part_nonStorages {side : Nat → Bool} {b : Bool} {d : Data} {n : Nat} : n ∈ (part side b d).nonStorages ↔ n ∈ d.nonStorages ∧ side n = b := by
  rw [mem_nonStorages, mem_nonStorages]
  simp only [part, List.mem_filter, beq_iff_eq]
  tauto

/-- The rows of a model are those of its parts. -/
theorem routeLines_part {side : Nat → Bool} {d : Data} (hs : Separate side d) (o : Option (Line (List Nat))) :
    o ∈ routeLines d ↔ ∃ b, o ∈ routeLines (part side b d) := by
  unfold routeLines
  simp only [List.mem_append, List.mem_map, List.mem_flatMap]
  constructor
  · rintro (((((⟨n, hn, rfl⟩ | ⟨c, hc, rfl⟩) | ⟨s, hs', rfl⟩) | ⟨v, hv, rfl⟩) | ⟨a, ha, ho⟩) | ⟨a, ha, rfl⟩)
    · exact ⟨side n, .inl (.inl (.inl (.inl (.inl ⟨n, mem_part_nonStorages.2 ⟨hn, rfl⟩, rfl⟩))))⟩
    · exact ⟨side c.1, .inl (.inl (.inl (.inl (.inr ⟨c, List.mem_filter.2 ⟨hc, by simp⟩, rfl⟩))))⟩
    · obtain ⟨b, hb⟩ := hs.storages s hs'
      exact ⟨b, .inl (.inl (.inl (.inr ⟨s, List.mem_filter.2 ⟨hs', onSide_iff.2 hb⟩, rfl⟩)))⟩
    · obtain ⟨b, hb⟩ := hs.virtuals v hv
      exact ⟨b, .inl (.inl (.inr ⟨v, List.mem_filter.2 ⟨hv, onSide_iff.2 hb⟩, rfl⟩))⟩
    · obtain ⟨b, hb⟩ := hs.aggs a ha
      exact ⟨b, .inl (.inr ⟨a, List.mem_filter.2 ⟨ha, onSide_iff.2 hb⟩, ho⟩)⟩
    · obtain ⟨b, hb⟩ := hs.aggs a ha
      exact ⟨b, .inr ⟨a, List.mem_filter.2 ⟨ha, onSide_iff.2 hb⟩, rfl⟩⟩
  · rintro ⟨b, ((((⟨n, hn, rfl⟩ | ⟨c, hc, rfl⟩) | ⟨s, hs', rfl⟩) | ⟨v, hv, rfl⟩) | ⟨a, ha, ho⟩) | ⟨a, ha, rfl⟩⟩
    · exact .inl (.inl (.inl (.inl (.inl ⟨n, (mem_part_nonStorages.1 hn).1, rfl⟩))))
    · exact .inl (.inl (.inl (.inl (.inr ⟨c, (List.mem_filter.1 hc).1, rfl⟩))))
    · exact .inl (.inl (.inl (.inr ⟨s, (List.mem_filter.1 hs').1, rfl⟩)))
    · exact .inl (.inl (.inr ⟨v, (List.mem_filter.1 hv).1, rfl⟩))
    · exact .inl (.inr ⟨a, (List.mem_filter.1 ha).1, ho⟩)
    · exact .inr ⟨a, (List.mem_filter.1 ha).1, rfl⟩

/-! ## Parts of the edge problem -/

theorem enters_mem {g : Graph} {n : Nat} {e : Nat × Nat} (h : enters g n e = true) : e.2 = n := by
  unfold enters at h
  simp only [Bool.and_eq_true, beq_iff_eq] at h
  exact h.1

theorem leaves_mem {g : Graph} {n : Nat} {e : Nat × Nat} (h : leaves g n e = true) : e.1 = n := by
  unfold leaves at h
  simp only [Bool.and_eq_true, beq_iff_eq] at h
  exact h.1

theorem off_side {side : Nat → Bool} {edges : List (Nat × Nat)} (h : EdgesApart side edges) {e : Nat × Nat} (he : e ∈ edges) {b : Bool} (hb : (side e.1 == b) = false) {n : Nat}
    (hn : side n = b) : e.1 ≠ n ∧ e.2 ≠ n := by
  have h1 : side e.1 ≠ b := by simpa using hb
  have h2 := h e he
  refine ⟨?_, ?_⟩
  · rintro rfl; exact h1 hn
  · rintro rfl; exact h1 (h2.trans hn)

theorem enters_false {g : Graph} {n : Nat} {e : Nat × Nat} (h : e.2 ≠ n) : enters g n e = false := by
  rw [Bool.eq_false_iff]; exact fun hc => h (enters_mem hc)

theorem leaves_false {g : Graph} {n : Nat} {e : Nat × Nat} (h : e.1 ≠ n) : leaves g n e = false := by
  rw [Bool.eq_false_iff]; exact fun hc => h (leaves_mem hc)

theorem meets_false {d : Data} {g : Graph} {n : Nat} {e : Nat × Nat} (h : e.1 ≠ n ∧ e.2 ≠ n) : meets d g n e = false := by
  unfold meets
  split
  · exact enters_false h.2
  · exact leaves_false h.1

theorem sum_map_zero {β : Type} {l : List β} {f : β → Rat} (h : ∀ b ∈ l, f b = 0) : (l.map f).sum = 0 := by
  rw [List.map_congr_left (g := fun _ => 0) h]; simp

theorem sum_map_zeroN {β : Type} {l : List β} {f : β → Nat} (h : ∀ b ∈ l, f b = 0) : (l.map f).sum = 0 := by
  rw [List.map_congr_left (g := fun _ => 0) h]; simp

theorem edges_local {side : Nat → Bool} {d : Data} {g : Graph} (hs : Separate side d) (hr : EdgesApart side g.edges) (b : Bool) :
    ∀ o ∈ edgeLines (part side b d) g, Local (fun e => side e.1 == b) g.edges o := by
  intro o ho
  unfold edgeLines at ho
  simp only [List.mem_append, List.mem_map, List.mem_flatMap] at ho
  rcases ho with (((((⟨n, hn, rfl⟩ | ⟨c, hc, rfl⟩) | ⟨n, hn, rfl⟩) | ⟨s, hs', rfl⟩) | ⟨v, hv, rfl⟩) | ⟨a, ha, ho⟩) | ⟨a, ha, rfl⟩
  · have hn' : side n = b := by
      have := (mem_nonStorages.1 hn).1
      simpa using (List.mem_filter.1 this).2
    refine local_limit fun e he hb => ?_
    have hoff := off_side hr he hb hn'
    have h1 : meets (part side b d) g n e = false := meets_false hoff
    exact ⟨by rw [enters_false hoff.2, leaves_false hoff.1]; simp, by rw [h1]; rfl, by rw [h1]; rfl⟩
  · obtain ⟨hc1, hc2⟩ := List.mem_filter.1 hc
    have hc2 : side c.1 = b := by simpa using hc2
    unfold crossLineE
    split
    · exact local_none
    · refine local_some fun e he hb => ?_
      have h1 : meets (part side b d) g c.1 e = false := meets_false (off_side hr he hb hc2)
      have h2 : ∀ i ∈ c.2, leaves g i.1 e = false := fun i hi => leaves_false (off_side hr he hb ((hs.cross c hc1 i hi).trans hc2)).1
      refine ⟨rfl, ?_, ?_⟩
      · dsimp only
        rw [h1, sum_map_zeroN fun i hi => by rw [h2 i hi]; rfl]; rfl
      · dsimp only
        rw [h1, sum_map_zero fun i hi => by rw [h2 i hi]; rfl]; simp [term]
  · have hn' : side n = b := by
      have := (List.mem_filter.1 hn).1
      simpa using (List.mem_filter.1 this).2
    refine local_some fun e he hb => ?_
    have hoff := off_side hr he hb hn'
    refine ⟨rfl, ?_, ?_⟩
    · simp [balanceLine, enters_false hoff.2, leaves_false hoff.1, one]
    · simp [balanceLine, enters_false hoff.2, leaves_false hoff.1, term]
  · have hs2 := onSide_iff.1 (List.mem_filter.1 hs').2
    refine local_some fun e he hb => ?_
    have h1 : ∀ n ∈ s.outputs, enters g n e = false := fun n hn => enters_false (off_side hr he hb (hs2 n (by simp [hn]))).2
    have h2 : ∀ n ∈ s.inputs, leaves g n e = false := fun n hn => leaves_false (off_side hr he hb (hs2 n (by simp [hn]))).1
    refine ⟨rfl, ?_, ?_⟩
    · unfold storageLineE
      simp only
      rw [sum_map_zeroN fun n hn => by rw [h1 n hn]; rfl, sum_map_zeroN fun n hn => by rw [h2 n hn]; rfl]
    · unfold storageLineE
      simp only
      rw [sum_map_zero fun n hn => by rw [h1 n hn]; rfl, sum_map_zero fun n hn => by rw [h2 n hn]; rfl]; ring
  · have hv2 := onSide_iff.1 (List.mem_filter.1 hv).2
    refine local_some fun e he hb => ?_
    have h1 : edgeWeights (part side b d) g v e = [] := by
      unfold edgeWeights
      rw [List.filter_eq_nil_iff.2, List.map_nil]
      intro p hp
      rw [meets_false (off_side hr he hb (hv2 p.1 (List.of_mem_zip hp).1))]; simp
    refine ⟨rfl, ?_, ?_⟩
    · simp [virtualLineE, h1, one]
    · simp [virtualLineE, h1]
  · have ha2 := onSide_iff.1 (List.mem_filter.1 ha).2
    unfold factorLinesE at ho
    cases hf : a.factors with
    | none => rw [hf] at ho; cases ho
    | some fs =>
      rw [hf] at ho
      cases hn : a.nodes with
      | nil =>
        rw [hn] at ho
        simp only [List.mem_singleton] at ho
        rw [ho]; exact local_none
      | cons n0 rest =>
        rw [hn] at ho ha2
        simp only at ho
        split at ho
        · simp only [List.mem_singleton] at ho
          rw [ho]; exact local_none
        · split at ho
          · simp only [List.mem_singleton] at ho
            rw [ho]; exact local_none
          · obtain ⟨p, hp, rfl⟩ := List.mem_map.1 ho
            refine local_some fun e he hb => ?_
            have h1 : meets (part side b d) g n0 e = false := meets_false (off_side hr he hb (ha2 n0 (by simp)))
            have h2 : meets (part side b d) g p.1 e = false := meets_false (off_side hr he hb (ha2 p.1 (by simp [(List.of_mem_zip hp).1])))
            simp only [h1, h2]
            refine ⟨trivial, ?_, ?_⟩
            · simp [one]
            · simp [term]
  · have ha2 := onSide_iff.1 (List.mem_filter.1 ha).2
    refine local_limit fun e he hb => ?_
    have h1 : lastWeight a (fun n => meets (part side b d) g n e) = none := lastWeight_none fun n hn => meets_false (off_side hr he hb (ha2 n hn))
    refine ⟨rfl, ?_, ?_⟩
    · rw [h1]; rfl
    · rw [h1]; rfl

theorem edgeLines_part {side : Nat → Bool} {d : Data} {g : Graph} (hs : Separate side d) (o : Option (Line (Nat × Nat))) :
    o ∈ edgeLines d g ↔ ∃ b, o ∈ edgeLines (part side b d) g := by
  unfold edgeLines
  simp only [List.mem_append, List.mem_map, List.mem_flatMap]
  constructor
  · rintro ((((((⟨n, hn, rfl⟩ | ⟨c, hc, rfl⟩) | ⟨n, hn, rfl⟩) | ⟨s, hs', rfl⟩) | ⟨v, hv, rfl⟩) | ⟨a, ha, ho⟩) | ⟨a, ha, rfl⟩)
    · exact ⟨side n, .inl (.inl (.inl (.inl (.inl (.inl ⟨n, mem_part_nonStorages.2 ⟨hn, rfl⟩, rfl⟩)))))⟩
    · exact ⟨side c.1, .inl (.inl (.inl (.inl (.inl (.inr ⟨c, List.mem_filter.2 ⟨hc, by simp⟩, rfl⟩)))))⟩
    · have := List.mem_filter.1 hn
      exact ⟨side n, .inl (.inl (.inl (.inl (.inr ⟨n, List.mem_filter.2 ⟨List.mem_filter.2 ⟨this.1, by simp⟩, this.2⟩, rfl⟩))))⟩
    · obtain ⟨b, hb⟩ := hs.storages s hs'
      exact ⟨b, .inl (.inl (.inl (.inr ⟨s, List.mem_filter.2 ⟨hs', onSide_iff.2 hb⟩, rfl⟩)))⟩
    · obtain ⟨b, hb⟩ := hs.virtuals v hv
      exact ⟨b, .inl (.inl (.inr ⟨v, List.mem_filter.2 ⟨hv, onSide_iff.2 hb⟩, rfl⟩))⟩
    · obtain ⟨b, hb⟩ := hs.aggs a ha
      exact ⟨b, .inl (.inr ⟨a, List.mem_filter.2 ⟨ha, onSide_iff.2 hb⟩, ho⟩)⟩
    · obtain ⟨b, hb⟩ := hs.aggs a ha
      exact ⟨b, .inr ⟨a, List.mem_filter.2 ⟨ha, onSide_iff.2 hb⟩, rfl⟩⟩
  · rintro ⟨b, (((((⟨n, hn, rfl⟩ | ⟨c, hc, rfl⟩) | ⟨n, hn, rfl⟩) | ⟨s, hs', rfl⟩) | ⟨v, hv, rfl⟩) | ⟨a, ha, ho⟩) | ⟨a, ha, rfl⟩⟩
    · exact .inl (.inl (.inl (.inl (.inl (.inl ⟨n, (mem_part_nonStorages.1 hn).1, rfl⟩)))))
    · exact .inl (.inl (.inl (.inl (.inl (.inr ⟨c, (List.mem_filter.1 hc).1, rfl⟩)))))
    · have := List.mem_filter.1 hn
      exact .inl (.inl (.inl (.inl (.inr ⟨n, List.mem_filter.2 ⟨(List.mem_filter.1 this.1).1, this.2⟩, rfl⟩))))
    · exact .inl (.inl (.inl (.inr ⟨s, (List.mem_filter.1 hs').1, rfl⟩)))
    · exact .inl (.inl (.inr ⟨v, (List.mem_filter.1 hv).1, rfl⟩))
    · exact .inl (.inr ⟨a, (List.mem_filter.1 ha).1, ho⟩)
    · exact .inr ⟨a, (List.mem_filter.1 ha).1, rfl⟩

end Verif.Lp

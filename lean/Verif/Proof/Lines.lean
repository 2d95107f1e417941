import Verif.Proof.RowValues
import Verif.Spec.Composite
import Mathlib.Data.List.Count
/-!
# The linear programmes without the numbers of their columns

A row of the route or the edge problem depends on its columns only through the route (or edge) of each column: how often that occurs in the row and with which coefficients. -/

namespace Verif.Lp

open Verif Verif.Bounds

/-- A row without the numbers of the columns: which elements must not exist, how often an element occurs in the row and with which sum of coefficients, and the bounds. -/
structure Line (α : Type) where
  bad : α → Bool
  mult : α → Nat
  coef : α → Rat
  bounds : Row

/-- The row can be built from these columns. -/
def Line.Built {α : Type} (L : Line α) (l : List α) : Prop := (∀ a ∈ l, L.bad a = false) ∧ (∃ a ∈ l, L.mult a ≠ 0) ∧ ∀ a ∈ l, L.mult a ≤ 1

/-- The bounds and the value of the row are related by `P`. -/
def Line.Fits {α : Type} (P : Row → Rat → Prop) (L : Line α) (l : List α) (x : List Rat) : Prop := P L.bounds (S l x L.coef)

/-- The row is satisfied. -/
def Line.Holds {α : Type} (L : Line α) (l : List α) (x : List Rat) : Prop := L.bounds.Admits (S l x L.coef)

/-- Entries made of the columns of `l`. -/
def Draws {α : Type} (l : List α) (e : Entries) (mult : α → Nat) (coef : α → Rat) : Prop :=
  (∀ c, (e.map (·.1)).count c = (l[c]?.map mult).getD 0) ∧ ∀ x, rowVal x e = S l x coef

theorem count_colsOf {α : Type} (p : α → Bool) (l : List α) (c : Nat) : (colsOf p l).count c = (l[c]?.map fun a => if p a then 1 else 0).getD 0 := by
  have key : ∀ (k : Nat), ((l.zipIdx k).filterMap fun q => if p q.1 then some q.2 else none).count c = if k ≤ c then (l[c - k]?.map fun a => if p a then 1 else 0).getD 0 else 0 := by
    induction l with
    | nil => intro k; simp
    | cons a l ih =>
      intro k
      have ih := ih (k + 1)
      have hhead : (((a :: l).zipIdx k).filterMap fun q => if p q.1 then some q.2 else none).count c =
          ((l.zipIdx (k + 1)).filterMap fun q => if p q.1 then some q.2 else none).count c + if p a = true ∧ k = c then 1 else 0 := by
        rw [List.zipIdx_cons]
        by_cases hp : p a = true
        · rw [List.filterMap_cons_some (b := k) (by simp [hp]), List.count_cons]; simp [hp]
        · rw [List.filterMap_cons_none (by simp [hp])]; simp [hp]
      refine hhead.trans ?_
      rw [ih]
      rcases Nat.lt_trichotomy c k with h | h | h
      · have h1 : ¬k + 1 ≤ c := by omega
        have h2 : ¬k ≤ c := by omega
        have h3 : ¬(p a = true ∧ k = c) := by rintro ⟨-, h⟩; omega
        rw [if_neg h1, if_neg h2, if_neg h3]
      · subst h
        have h1 : ¬c + 1 ≤ c := by omega
        rw [if_neg h1, if_pos (le_refl c), Nat.sub_self]
        simp
      · have h1 : k + 1 ≤ c := by omega
        have h2 : k ≤ c := by omega
        have h3 : ¬(p a = true ∧ k = c) := by rintro ⟨-, h⟩; omega
        rw [if_pos h1, if_pos h2, if_neg h3, show c - k = (c - (k + 1)) + 1 by omega, List.getElem?_cons_succ, Nat.add_zero]
  have := key 0
  simpa [colsOf] using this

theorem draws_const {α : Type} (v : Rat) (p : α → Bool) (l : List α) : Draws l (const v (colsOf p l)) (fun a => if p a then 1 else 0) (fun a => if p a then v else 0) := by
  refine ⟨fun c => ?_, fun x => rowVal_const x l p v⟩
  unfold const
  rw [List.map_map]
  have : ((fun p : Nat × Rat => p.1) ∘ fun c => (c, v)) = id := rfl
  rw [this, List.map_id, count_colsOf]

theorem draws_append {α : Type} {l : List α} {e e' : Entries} {m m' : α → Nat} {w w' : α → Rat} (h : Draws l e m w) (h' : Draws l e' m' w') :
    Draws l (e ++ e') (fun a => m a + m' a) (fun a => w a + w' a) := by
  refine ⟨fun c => ?_, fun x => ?_⟩
  · rw [List.map_append, List.count_append, h.1, h'.1]
    cases l[c]? <;> simp
  · rw [rowVal_append, h.2, h'.2, S_add]

theorem draws_nil {α : Type} (l : List α) : Draws l [] (fun _ => 0) (fun _ => 0) :=
  ⟨fun c => by cases l[c]? <;> simp, fun x => by rw [rowVal_nil, S_zero]⟩

theorem draws_flatMap {α β : Type} {l : List α} (bs : List β) (f : β → Entries) (m : β → α → Nat) (w : β → α → Rat) (h : ∀ b ∈ bs, Draws l (f b) (m b) (w b)) :
    Draws l (bs.flatMap f) (fun a => (bs.map fun b => m b a).sum) (fun a => (bs.map fun b => w b a).sum) := by
  induction bs with
  | nil => exact draws_nil l
  | cons b bs ih =>
    rw [List.flatMap_cons]
    exact draws_append (h b (by simp)) (ih fun b hb => h b (by simp [hb]))

theorem map_filterMap_zipIdx {α : Type} (l : List α) (g : α → Option Rat) (k : Nat) :
    ((l.zipIdx k).filterMap fun q => (g q.1).map fun w => (q.2, w)).map (·.1) = (l.zipIdx k).filterMap fun q => if (g q.1).isSome then some q.2 else none := by
  induction l generalizing k with
  | nil => rfl
  | cons a l ih =>
    rw [List.zipIdx_cons, List.filterMap_cons, List.filterMap_cons]
    cases g a with
    | none => simpa using ih (k + 1)
    | some w => simpa using ih (k + 1)

theorem draws_filterMap {α : Type} (l : List α) (g : α → Option Rat) :
    Draws l (l.zipIdx.filterMap fun q => (g q.1).map fun w => (q.2, w)) (fun a => if (g a).isSome then 1 else 0) (fun a => (g a).getD 0) := by
  refine ⟨fun c => ?_, fun x => rowVal_zipIdx x l g⟩
  rw [map_filterMap_zipIdx]
  exact count_colsOf (fun a => (g a).isSome) l c

theorem draws_congr {α : Type} {l : List α} {e : Entries} {m m' : α → Nat} {w w' : α → Rat} (h : Draws l e m w) (hm : ∀ a, m a = m' a) (hw : ∀ a, w a = w' a) : Draws l e m' w' := by
  have e1 : m = m' := funext hm
  have e2 : w = w' := funext hw
  rw [← e1, ← e2]; exact h

/-- When GLPK accepts the entries. -/
theorem setMatRow_draws {α : Type} {l : List α} {e : Entries} {m : α → Nat} {w : α → Rat} (h : Draws l e m w) :
    setMatRow e = .ok e ↔ (∃ a ∈ l, m a ≠ 0) ∧ ∀ a ∈ l, m a ≤ 1 := by
  have h1 : e = [] ↔ ¬∃ a ∈ l, m a ≠ 0 := by
    constructor
    · rintro rfl ⟨a, ha, hm⟩
      obtain ⟨c, hc, rfl⟩ := List.mem_iff_getElem.1 ha
      have := h.1 c
      rw [List.getElem?_eq_getElem hc] at this
      exact hm (by simpa using this.symm)
    · intro hn
      by_contra hne
      obtain ⟨p, hp⟩ := List.exists_mem_of_ne_nil e hne
      have hc := h.1 p.1
      have : 0 < (e.map (·.1)).count p.1 := List.count_pos_iff.2 (List.mem_map_of_mem hp)
      rw [hc] at this
      cases hl : l[p.1]? with
      | none => rw [hl] at this; simp at this
      | some a =>
        rw [hl] at this
        exact hn ⟨a, List.mem_of_getElem? hl, by simpa [Nat.pos_iff_ne_zero] using this⟩
  have h2 : (e.map (·.1)).Nodup ↔ ∀ a ∈ l, m a ≤ 1 := by
    rw [List.nodup_iff_count_le_one]
    constructor
    · intro hn a ha
      obtain ⟨c, hc, rfl⟩ := List.mem_iff_getElem.1 ha
      have := hn c
      rw [h.1 c, List.getElem?_eq_getElem hc] at this
      simpa using this
    · intro hn c
      rw [h.1 c]
      cases hl : l[c]? with
      | none => simp
      | some a => simpa using hn a (List.mem_of_getElem? hl)
  unfold setMatRow
  by_cases he : e = []
  · rw [if_pos he]
    constructor
    · intro hc; cases hc
    · rintro ⟨hx, -⟩; exact absurd hx (h1.1 he)
  · rw [if_neg he]
    have hx : ∃ a ∈ l, m a ≠ 0 := by by_contra hc; exact he (h1.2 hc)
    by_cases hn : (e.map (·.1)).Nodup
    · rw [if_pos hn]; exact ⟨fun _ => ⟨hx, h2.1 hn⟩, fun _ => rfl⟩
    · rw [if_neg hn]
      constructor
      · intro hc; cases hc
      · rintro ⟨-, hy⟩; exact absurd (h2.2 hy) hn

theorem setMatRow_error {e : Entries} (h : setMatRow e ≠ .ok e) : ∃ x, setMatRow e = .error x := by
  unfold setMatRow at h ⊢
  split
  · exact ⟨_, rfl⟩
  · rename_i h1
    rw [if_neg h1] at h
    split
    · rename_i h2; rw [if_pos h2] at h; exact absurd rfl h
    · exact ⟨_, rfl⟩

/-- A row with given bounds. -/
theorem boundRow_line {α : Type} (P : Row → Rat → Prop) {l : List α} {e : Entries} {m : α → Nat} {w : α → Rat} (h : Draws l e m w) (r : Row) (x : List Rat) :
    (∃ row, boundRow e r = .ok row ∧ P row.bounds (rowVal x row.entries)) ↔
      ((⟨fun _ => false, m, w, r⟩ : Line α).Built l ∧ (⟨fun _ => false, m, w, r⟩ : Line α).Fits P l x) := by
  unfold boundRow Line.Built Line.Fits
  by_cases hm : setMatRow e = .ok e
  · rw [hm]
    have := (setMatRow_draws h).1 hm
    simp only [Except.ok.injEq, exists_eq_left', h.2, implies_true, true_and]
    exact ⟨fun hr => ⟨this, hr⟩, fun hr => hr.2⟩
  · obtain ⟨err, he⟩ := setMatRow_error hm
    rw [he]
    constructor
    · rintro ⟨row, hr, -⟩; cases hr
    · rintro ⟨⟨-, hb⟩, -⟩; exact absurd ((setMatRow_draws h).2 hb) hm

/-- A row from flow limits. -/
def limitLine {α : Type} (bad : α → Bool) (m : α → Nat) (w : α → Rat) (mn mx : F) : Option (Line α) :=
  match flowRow true mn mx with
  | .stored r => some ⟨bad, m, w, r⟩
  | _ => none

theorem limitRow_line {α : Type} (P : Row → Rat → Prop) {l : List α} {e : Entries} {m : α → Nat} {w : α → Rat} (h : Draws l e m w) (mn mx : F) (x : List Rat) :
    (∃ row, limitRow e mn mx = .ok row ∧ P row.bounds (rowVal x row.entries)) ↔ ∃ L, limitLine (fun _ => false) m w mn mx = some L ∧ L.Built l ∧ L.Fits P l x := by
  unfold limitRow limitLine
  cases hf : flowRow true mn mx with
  | stored r =>
    have := boundRow_line P h r x
    unfold boundRow at this
    simp only [Option.some.injEq, exists_eq_left']
    rw [← this]
    cases setMatRow e <;> simp
  | glpkError =>
    cases setMatRow e <;> simp
  | storedNan =>
    cases setMatRow e <;> simp

theorem collect_iff {α β : Type} (f : α → Except Err β) (Q : β → Prop) (l : List α) : (∃ bs, collect f l = .ok bs ∧ ∀ b ∈ bs, Q b) ↔ ∀ a ∈ l, ∃ b, f a = .ok b ∧ Q b := by
  constructor
  · rintro ⟨bs, h, hq⟩ a ha
    obtain ⟨b, hb, he⟩ := collect_ok h a ha
    exact ⟨b, he, hq b hb⟩
  · intro h
    obtain ⟨bs, hbs⟩ := collect_total (f := f) (l := l) fun a ha => (h a ha).imp fun b hb => hb.1
    refine ⟨bs, hbs, fun b hb => ?_⟩
    obtain ⟨a, ha, he⟩ := collect_mem hbs b hb
    obtain ⟨b', he', hq⟩ := h a ha
    rw [he] at he'
    cases he'
    exact hq

theorem concat_iff (Q : LpRow → Prop) (rs : List (Except Err (List LpRow))) : (∃ ls, concat rs = .ok ls ∧ ∀ r ∈ ls, Q r) ↔ ∀ r ∈ rs, ∃ l, r = .ok l ∧ ∀ row ∈ l, Q row := by
  constructor
  · rintro ⟨ls, h, hq⟩ r hr
    obtain ⟨l, he, hl⟩ := concat_ok h r hr
    exact ⟨l, he, fun row hrow => hq row (hl row hrow)⟩
  · intro h
    obtain ⟨ls, hls⟩ := concat_total fun r hr => (h r hr).imp fun l hl => hl.1
    refine ⟨ls, hls, fun row hrow => ?_⟩
    obtain ⟨l, hl, hmem⟩ := concat_mem hls row hrow
    obtain ⟨l', he, hq⟩ := h _ hl
    cases he
    exact hq row hmem

/-! ## The route problem -/

/-- Whether a route counts in the flow row of a node. -/
def passes (k : Kind) (n : Nat) (r : List Nat) : Bool :=
  match k with
  | .input => r.head? == some n
  | .output => r.getLast? == some n
  | _ => r.contains n

theorem nodeCols_eq (k : Kind) (n : Nat) (routes : List (List Nat)) : nodeCols k n routes = colsOf (passes k n) routes := by
  unfold nodeCols passes
  cases k <;> rfl

/-- `1` or `0`. -/
def one (b : Bool) : Nat := if b then 1 else 0

/-- A coefficient or `0`. -/
def term (b : Bool) (v : Rat) : Rat := if b then v else 0

def nodeLine (d : Data) (n : Nat) : Option (Line (List Nat)) :=
  limitLine (fun _ => false) (fun r => one (passes (d.kind n) n r)) (fun r => term (passes (d.kind n) n r) 1) (d.minFlow n) (d.maxFlow n)

def crossLine (d : Data) (c : Nat × List (Nat × Rat)) : Option (Line (List Nat)) :=
  if c.2.any (fun i => i.2 == 0) then none
  else some ⟨fun _ => false, fun r => one (passes (d.kind c.1) c.1 r) + (c.2.map fun i => one (r.head? == some i.1)).sum,
    fun r => term (passes (d.kind c.1) c.1 r) (-1) + (c.2.map fun i => term (r.head? == some i.1) (1 / i.2)).sum, ⟨.fx, 0, 0⟩⟩

def storageLine (d : Data) (s : StorageData) : Line (List Nat) :=
  ⟨fun _ => false, fun r => one (inList r.getLast? s.outputs && !inList r.head? s.inputs) + one (inList r.head? s.inputs && !inList r.getLast? s.outputs),
    fun r => term (inList r.getLast? s.outputs && !inList r.head? s.inputs) 1 + term (inList r.head? s.inputs && !inList r.getLast? s.outputs) (-1),
    Storage.storageRow s.volume s.mx s.mn d.days⟩

def virtualLine (d : Data) (v : VirtualData) : Line (List Nat) :=
  ⟨fun _ => false, fun r => one (!decide (routeFactors v r = [])), fun r => -(routeFactors v r).sum, VirtualStorage.vRow v.active v.volume v.mx v.mn d.days⟩

def factorLines (a : AggData) : List (Option (Line (List Nat))) :=
  match a.factors with
  | none => []
  | some fs => match a.nodes with
    | [] => [none]
    | n0 :: rest =>
      if rest = [] then [none]
      else if fs.any (fun f => f == 0) then [none]
      else (rest.zip (fs.map fun f => fs.headD 0 / f).tail).map fun p =>
        some ⟨fun _ => false, fun r => one (r.contains n0) + one (r.contains p.1), fun r => term (r.contains n0) 1 + term (r.contains p.1) (-p.2), ⟨.fx, 0, 0⟩⟩

def aggLine (a : AggData) : Option (Line (List Nat)) :=
  limitLine (fun _ => false) (fun r => one (lastWeight a fun n => r.contains n).isSome) (fun r => (lastWeight a fun n => r.contains n).getD 0) a.minFlow a.maxFlow

/-- All rows of the route problem. -/
def routeLines (d : Data) : List (Option (Line (List Nat))) :=
  d.nonStorages.map (nodeLine d) ++ d.cross.map (crossLine d) ++ d.storages.map (fun s => some (storageLine d s)) ++ d.virtuals.map (fun v => some (virtualLine d v)) ++
    d.aggs.flatMap factorLines ++ d.aggs.map aggLine

/-- All rows can be built and are satisfied. -/
def AllHold {α : Type} (lines : List (Option (Line α))) (l : List α) (x : List Rat) : Prop := ∀ o ∈ lines, ∃ L, o = some L ∧ L.Built l ∧ L.Holds l x

/-- All rows can be built. -/
def AllBuilt {α : Type} (lines : List (Option (Line α))) (l : List α) : Prop := ∀ o ∈ lines, ∃ L, o = some L ∧ L.Built l

/-- All rows can be built, and bounds and values are related by `P`. -/
def AllFit {α : Type} (P : Row → Rat → Prop) (lines : List (Option (Line α))) (l : List α) (x : List Rat) : Prop := ∀ o ∈ lines, ∃ L, o = some L ∧ L.Built l ∧ L.Fits P l x

theorem nodeRow_line (P : Row → Rat → Prop) (d : Data) (routes : List (List Nat)) (n : Nat) (x : List Rat) :
    (∃ row, nodeRow d routes n = .ok row ∧ P row.bounds (rowVal x row.entries)) ↔ ∃ L, nodeLine d n = some L ∧ L.Built routes ∧ L.Fits P routes x := by
  have hd := draws_const 1 (passes (d.kind n) n) routes
  have := limitRow_line P hd (d.minFlow n) (d.maxFlow n) x
  unfold nodeRow nodeLine
  rw [nodeCols_eq]
  simp only
  by_cases hc : colsOf (passes (d.kind n) n) routes = []
  · rw [if_pos hc]
    constructor
    · rintro ⟨row, hr, -⟩; cases hr
    · intro hL
      obtain ⟨row, hr, -⟩ := this.2 hL
      exact absurd (by rw [hc]; rfl) (limitRow_ne hr)
  · rw [if_neg hc]; exact this

theorem crossRow_line (P : Row → Rat → Prop) (d : Data) (routes : List (List Nat)) (c : Nat × List (Nat × Rat)) (x : List Rat) :
    (∃ row, crossRow d routes c = .ok row ∧ P row.bounds (rowVal x row.entries)) ↔ ∃ L, crossLine d c = some L ∧ L.Built routes ∧ L.Fits P routes x := by
  unfold crossRow crossLine
  split
  · simp
  · have h1 := draws_const (-1) (passes (d.kind c.1) c.1) routes
    have h2 := draws_flatMap (l := routes) c.2 (fun i => const (1 / i.2) (colsOf (fun r => r.head? == some i.1) routes)) (fun i r => one (r.head? == some i.1))
      (fun i r => term (r.head? == some i.1) (1 / i.2)) fun i _ => draws_const _ _ _
    rw [nodeCols_eq]
    simp only [Option.some.injEq, exists_eq_left']
    exact boundRow_line P (draws_append h1 h2) ⟨.fx, 0, 0⟩ x

theorem storageRow_line (P : Row → Rat → Prop) (d : Data) (routes : List (List Nat)) (s : StorageData) (x : List Rat) :
    (∃ row, storageRowR d routes s = .ok row ∧ P row.bounds (rowVal x row.entries)) ↔ (storageLine d s).Built routes ∧ (storageLine d s).Fits P routes x :=
   boundRow_line P (draws_append (draws_const _ _ _) (draws_const _ _ _)) _ x

theorem virtualRow_line (P : Row → Rat → Prop) (d : Data) (routes : List (List Nat)) (v : VirtualData) (x : List Rat) :
    (∃ row, virtualRowR d routes v = .ok row ∧ P row.bounds (rowVal x row.entries)) ↔ (virtualLine d v).Built routes ∧ (virtualLine d v).Fits P routes x := by
  have h := draws_filterMap routes fun r => if routeFactors v r = [] then none else some (-(routeFactors v r).sum)
  have h' : Draws routes (routes.zipIdx.filterMap fun q => if routeFactors v q.1 = [] then none else some (q.2, -(routeFactors v q.1).sum))
      (fun r => one (!decide (routeFactors v r = []))) (fun r => -(routeFactors v r).sum) := by
    have e : (fun q : List Nat × Nat => if routeFactors v q.1 = [] then none else some (q.2, -(routeFactors v q.1).sum)) =
        fun q => (if routeFactors v q.1 = [] then none else some (-(routeFactors v q.1).sum)).map fun w => (q.2, w) := by
      funext q; split <;> rfl
    rw [e]
    refine draws_congr h (fun r => ?_) fun r => ?_
    · by_cases hr : routeFactors v r = [] <;> simp [hr, one]
    · by_cases hr : routeFactors v r = [] <;> simp [hr]
  exact boundRow_line P h' _ x

theorem aggRow_line (P : Row → Rat → Prop) (routes : List (List Nat)) (a : AggData) (x : List Rat) :
    (∃ row, aggRowR routes a = .ok row ∧ P row.bounds (rowVal x row.entries)) ↔ ∃ L, aggLine a = some L ∧ L.Built routes ∧ L.Fits P routes x :=
   limitRow_line P (draws_filterMap routes fun r => lastWeight a fun n => r.contains n) a.minFlow a.maxFlow x

theorem factorRows_line (P : Row → Rat → Prop) (routes : List (List Nat)) (a : AggData) (x : List Rat) :
    (∃ l, factorRowsR routes a = .ok l ∧ ∀ row ∈ l, P row.bounds (rowVal x row.entries)) ↔ ∀ o ∈ factorLines a, ∃ L, o = some L ∧ L.Built routes ∧ L.Fits P routes x := by
  unfold factorRowsR factorLines
  cases hf : a.factors with
  | none => simp
  | some fs =>
    cases hn : a.nodes with
    | nil => simp
    | cons n0 rest =>
      by_cases hr : rest = []
      · simp [hr]
      · simp only [hr, if_false]
        unfold factorsNorm
        by_cases hz : fs.any (fun f => f == 0) = true
        · simp [hz]
        · simp only [hz]
          simp only [Bool.false_eq_true, if_false]
          rw [collect_iff]
          simp only [List.mem_map, forall_exists_index, and_imp, forall_apply_eq_imp_iff₂, Option.some.injEq, exists_eq_left']
          refine forall₂_congr fun p _ => ?_
          exact boundRow_line P (draws_append (draws_const _ _ _) (draws_const _ _ _)) _ x

/-- **The route problem without the numbers of its columns.** -/
theorem routeRows_fit (P : Row → Rat → Prop) (d : Data) (routes : List (List Nat)) (x : List Rat) :
    (∃ rows, routeRows d routes = .ok rows ∧ ∀ row ∈ rows, P row.bounds (rowVal x row.entries)) ↔ (d.nodes ≠ [] ∧ routes ≠ [] ∧ d.nonStorages ≠ []) ∧ AllFit P (routeLines d) routes x := by
  unfold routeRows
  by_cases h0 : d.nodes = [] ∨ routes = [] ∨ d.nonStorages = []
  · rw [if_pos h0]
    constructor
    · rintro ⟨rows, hr, -⟩; cases hr
    · rintro ⟨⟨h1, h2, h3⟩, -⟩; tauto
  · rw [if_neg h0]
    have h0' : d.nodes ≠ [] ∧ routes ≠ [] ∧ d.nonStorages ≠ [] := by tauto
    have key := concat_iff (fun row => P row.bounds (rowVal x row.entries))
      ([collect (nodeRow d routes) d.nonStorages, collect (crossRow d routes) d.cross, collect (storageRowR d routes) d.storages, collect (virtualRowR d routes) d.virtuals] ++
        d.aggs.map (factorRowsR routes) ++ [collect (aggRowR routes) d.aggs])
    have key2 : (∀ r ∈ [collect (nodeRow d routes) d.nonStorages, collect (crossRow d routes) d.cross, collect (storageRowR d routes) d.storages, collect (virtualRowR d routes) d.virtuals] ++
        d.aggs.map (factorRowsR routes) ++ [collect (aggRowR routes) d.aggs], ∃ l, r = .ok l ∧ ∀ row ∈ l, P row.bounds (rowVal x row.entries)) ↔ AllFit P (routeLines d) routes x := by
      unfold AllFit routeLines
      simp only [List.mem_append, List.mem_cons, List.not_mem_nil, or_false, List.mem_map, List.mem_flatMap, or_imp, forall_and, forall_eq, forall_exists_index, and_imp,
        forall_apply_eq_imp_iff₂, collect_iff, nodeRow_line P, crossRow_line P, storageRow_line P, virtualRow_line P, factorRows_line P, aggRow_line P, Option.some.injEq, exists_eq_left']
      constructor
      · rintro ⟨⟨⟨h1, h2, h3, h4⟩, h5⟩, h6⟩
        exact ⟨⟨⟨⟨⟨h1, h2⟩, h3⟩, h4⟩, fun o a ha ho => h5 a ha o ho⟩, h6⟩
      · rintro ⟨⟨⟨⟨⟨h1, h2⟩, h3⟩, h4⟩, h5⟩, h6⟩
        exact ⟨⟨⟨h1, h2, h3, h4⟩, fun a ha o ho => h5 o a ha ho⟩, h6⟩
    rw [← key2, ← key]
    exact ⟨fun h => ⟨h0', h⟩, fun h => h.2⟩

theorem routeFeasible_iff (d : Data) (routes : List (List Nat)) (x : List Rat) :
    RouteFeasible d routes x ↔ (d.nodes ≠ [] ∧ routes ≠ [] ∧ d.nonStorages ≠ []) ∧ x.length = routes.length ∧ (∀ v ∈ x, 0 ≤ v) ∧ AllHold (routeLines d) routes x := by
  have key := routeRows_fit Row.Admits d routes x
  unfold RouteFeasible Satisfies
  constructor
  · rintro ⟨rows, hr, hl, hx, hrow⟩
    have := key.1 ⟨rows, hr, hrow⟩
    exact ⟨this.1, hl, hx, this.2⟩
  · rintro ⟨h0, hl, hx, h⟩
    obtain ⟨rows, hr, hrow⟩ := key.2 ⟨h0, h⟩
    exact ⟨rows, hr, hl, hx, hrow⟩

theorem routeRows_ok (d : Data) (routes : List (List Nat)) :
    (∃ rows, routeRows d routes = .ok rows) ↔ (d.nodes ≠ [] ∧ routes ≠ [] ∧ d.nonStorages ≠ []) ∧ AllBuilt (routeLines d) routes := by
  have key := routeRows_fit (fun _ _ => True) d routes []
  have e : AllFit (fun _ _ => True) (routeLines d) routes [] ↔ AllBuilt (routeLines d) routes := by
    unfold AllFit AllBuilt Line.Fits
    simp
  rw [← e, ← key]
  simp

end Verif.Lp

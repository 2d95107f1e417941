import Verif.Spec.Lp
import Verif.Props.Bounds
import Verif.Props.Routes
import Mathlib.Tactic.Ring
import Mathlib.Tactic.Linarith
import Mathlib.Algebra.BigOperators.Group.List.Lemmas
import Mathlib.Algebra.BigOperators.Ring.List
import Mathlib.Algebra.Order.BigOperators.Group.List
/-! # Lemmas on the linear programmes -/

namespace Verif.Lp

open Verif Verif.Bounds

/-- Weighted sum of the columns. -/
def S {α : Type} (l : List α) (x : List Rat) (f : α → Rat) : Rat := (l.zipIdx.map fun q => f q.1 * x.getD q.2 0).sum

theorem S_congr {α : Type} {l : List α} {x : List Rat} {f g : α → Rat} (h : ∀ a ∈ l, f a = g a) : S l x f = S l x g := by
  unfold S
  congr 1
  apply List.map_congr_left
  intro q hq
  have := List.mem_zipIdx' hq
  rw [h q.1 (by rw [this.2]; exact List.getElem_mem _)]

theorem S_add {α : Type} (l : List α) (x : List Rat) (f g : α → Rat) :
    S l x (fun a => f a + g a) = S l x f + S l x g := by
  unfold S
  rw [← List.sum_map_add]
  congr 1; apply List.map_congr_left; intro q _; ring

theorem S_mul {α : Type} (l : List α) (x : List Rat) (c : Rat) (f : α → Rat) :
    S l x (fun a => c * f a) = c * S l x f := by
  unfold S
  rw [← List.sum_map_mul_left]
  congr 1; apply List.map_congr_left; intro q _; ring

theorem S_zero {α : Type} (l : List α) (x : List Rat) : S l x (fun _ => 0) = 0 := by
  unfold S
  induction l.zipIdx <;> simp_all

theorem S_neg {α : Type} (l : List α) (x : List Rat) (f : α → Rat) :
    S l x (fun a => - f a) = - S l x f := by
  have := S_mul l x (-1) f
  simp only [neg_mul, one_mul] at this; exact this

theorem S_sub {α : Type} (l : List α) (x : List Rat) (f g : α → Rat) :
    S l x (fun a => f a - g a) = S l x f - S l x g := by
  have h1 := S_add l x f (fun a => - g a)
  rw [S_neg] at h1
  simp only [sub_eq_add_neg]; exact h1

theorem S_sum {α β : Type} (l : List α) (x : List Rat) (bs : List β) (f : β → α → Rat) :
    S l x (fun a => (bs.map fun b => f b a).sum) = (bs.map fun b => S l x (f b)).sum := by
  induction bs with
  | nil => simpa using S_zero l x
  | cons b bs ih => simp only [List.map_cons, List.sum_cons, S_add, ih]

theorem getD_nonneg {x : List Rat} (hx : ∀ v ∈ x, 0 ≤ v) (c : Nat) : 0 ≤ x.getD c 0 := by
  rw [List.getD_eq_getElem?_getD]
  cases h : x[c]? with
  | none => simp
  | some v => simpa using hx v (List.mem_of_getElem? h)

theorem S_le {α : Type} {l : List α} {x : List Rat} (hx : ∀ v ∈ x, 0 ≤ v) {f g : α → Rat} (h : ∀ a ∈ l, f a ≤ g a) :
    S l x f ≤ S l x g := by
  unfold S
  apply List.sum_le_sum
  intro q hq
  have := List.mem_zipIdx' hq
  exact mul_le_mul_of_nonneg_right (h q.1 (by rw [this.2]; exact List.getElem_mem _)) (getD_nonneg hx _)

theorem S_nonneg {α : Type} {l : List α} {x : List Rat} (hx : ∀ v ∈ x, 0 ≤ v) {f : α → Rat} (h : ∀ a ∈ l, 0 ≤ f a) :
    0 ≤ S l x f := by
  have := S_le hx (f := fun _ => 0) (g := f) h
  rwa [S_zero] at this

theorem S_one {α : Type} (l : List α) (x : List Rat) (h : x.length = l.length) : S l x (fun _ => 1) = x.sum := by
  unfold S
  have : (l.zipIdx.map fun q => (1 : Rat) * x.getD q.2 0) = x := by
    apply List.ext_getElem
    · simp [h]
    · intro i h1 h2
      simp [List.getElem?_eq_getElem h2]
  rw [this]

theorem rowVal_append (x : List Rat) (a b : Entries) : rowVal x (a ++ b) = rowVal x a + rowVal x b := by
  simp [rowVal]

theorem rowVal_nil (x : List Rat) : rowVal x [] = 0 := rfl

theorem rowVal_flatMap {α : Type} (x : List Rat) (l : List α) (f : α → Entries) :
    rowVal x (l.flatMap f) = (l.map fun a => rowVal x (f a)).sum := by
  induction l with
  | nil => rfl
  | cons a l ih => rw [List.flatMap_cons, rowVal_append, ih]; simp

theorem rowVal_zipIdx {α : Type} (x : List Rat) (l : List α) (g : α → Option Rat) :
    rowVal x (l.zipIdx.filterMap fun q => (g q.1).map fun w => (q.2, w)) = S l x (fun a => (g a).getD 0) := by
  unfold S
  induction l.zipIdx with
  | nil => rfl
  | cons q qs ih =>
    simp only [List.filterMap_cons, List.map_cons, List.sum_cons]
    cases h : g q.1 with
    | none => simp only [Option.map_none, ih]; simp
    | some w => 
      simp only [Option.map_some]
      rw [← ih]; simp [rowVal]

theorem rowVal_const {α : Type} (x : List Rat) (l : List α) (p : α → Bool) (v : Rat) :
    rowVal x (const v (colsOf p l)) = S l x (fun a => if p a then v else 0) := by
  unfold S const colsOf
  induction l.zipIdx with
  | nil => rfl
  | cons q qs ih =>
    simp only [List.filterMap_cons, List.map_cons, List.sum_cons]
    rw [← ih]
    by_cases h : p q.1 <;> simp [h, rowVal]

theorem collect_ok {α β : Type} {f : α → Except Err β} {l : List α} {bs : List β} (h : collect f l = .ok bs) :
    ∀ a ∈ l, ∃ b ∈ bs, f a = .ok b := by
  induction l generalizing bs with
  | nil => simp
  | cons a l ih =>
    unfold collect at h
    split at h
    · cases h
    · rename_i b hb
      split at h
      · cases h
      · rename_i bs' hbs
        cases h
        intro a' ha'
        rcases List.mem_cons.1 ha' with rfl | ha'
        · exact ⟨b, by simp, hb⟩
        · obtain ⟨b', h1, h2⟩ := ih hbs a' ha'
          exact ⟨b', by simp [h1], h2⟩

theorem collect_mem {α β : Type} {f : α → Except Err β} {l : List α} {bs : List β} (h : collect f l = .ok bs) :
    ∀ b ∈ bs, ∃ a ∈ l, f a = .ok b := by
  induction l generalizing bs with
  | nil => cases h; simp
  | cons a l ih =>
    unfold collect at h
    split at h
    · cases h
    · rename_i b hb
      split at h
      · cases h
      · rename_i bs' hbs
        cases h
        intro b' hb'
        rcases List.mem_cons.1 hb' with rfl | hb'
        · exact ⟨a, by simp, hb⟩
        · obtain ⟨a', h1, h2⟩ := ih hbs b' hb'
          exact ⟨a', by simp [h1], h2⟩

theorem collect_total {α β : Type} {f : α → Except Err β} {l : List α} (h : ∀ a ∈ l, ∃ b, f a = .ok b) :
    ∃ bs, collect f l = .ok bs := by
  induction l with
  | nil => exact ⟨[], rfl⟩
  | cons a l ih =>
    obtain ⟨b, hb⟩ := h a (by simp)
    obtain ⟨bs, hbs⟩ := ih fun a' ha' => h a' (by simp [ha'])
    exact ⟨b :: bs, by simp [collect, hb, hbs]⟩

theorem concat_ok {rs : List (Except Err (List LpRow))} {ls : List LpRow} (h : concat rs = .ok ls) :
    ∀ r ∈ rs, ∃ l, r = .ok l ∧ ∀ row ∈ l, row ∈ ls := by
  induction rs generalizing ls with
  | nil => simp
  | cons r rs ih =>
    unfold concat at h
    split at h
    · cases h
    · rename_i l
      split at h
      · cases h
      · rename_i ls' hls
        cases h
        intro r' hr'
        rcases List.mem_cons.1 hr' with rfl | hr'
        · exact ⟨l, rfl, fun row hrow => by simp [hrow]⟩
        · obtain ⟨l', h1, h2⟩ := ih hls r' hr'
          exact ⟨l', h1, fun row hrow => by simp [h2 row hrow]⟩

theorem concat_mem {rs : List (Except Err (List LpRow))} {ls : List LpRow} (h : concat rs = .ok ls) :
    ∀ row ∈ ls, ∃ l, .ok l ∈ rs ∧ row ∈ l := by
  induction rs generalizing ls with
  | nil => cases h; simp
  | cons r rs ih =>
    unfold concat at h
    split at h
    · cases h
    · rename_i l
      split at h
      · cases h
      · rename_i ls' hls
        cases h
        intro row hrow
        rcases List.mem_append.1 hrow with hrow | hrow
        · exact ⟨l, by simp, hrow⟩
        · obtain ⟨l', h1, h2⟩ := ih hls row hrow
          exact ⟨l', by simp [h1], h2⟩

theorem concat_total {rs : List (Except Err (List LpRow))} (h : ∀ r ∈ rs, ∃ l, r = .ok l) : ∃ ls, concat rs = .ok ls := by
  induction rs with
  | nil => exact ⟨[], rfl⟩
  | cons r rs ih =>
    obtain ⟨l, rfl⟩ := h r (by simp)
    obtain ⟨ls, hls⟩ := ih fun r' hr' => h r' (by simp [hr'])
    exact ⟨l ++ ls, by simp [concat, hls]⟩

theorem setMatRow_ok {e e' : Entries} (h : setMatRow e = .ok e') : (e.map (·.1)).Nodup ∧ e' = e ∧ e ≠ [] := by
  unfold setMatRow at h
  split at h
  · cases h
  · next hne =>
    split at h
    · next hn => cases h; exact ⟨hn, rfl, hne⟩
    · cases h

theorem setMatRow_of {e : Entries} (h : (e.map (·.1)).Nodup) (hne : e ≠ []) : setMatRow e = .ok e := by
  unfold setMatRow
  rw [if_neg hne, if_pos h]

theorem limitRow_ok {e : Entries} {a b : F} {row : LpRow} (h : limitRow e a b = .ok row) :
    (e.map (·.1)).Nodup ∧ row.entries = e ∧ flowRow true a b = .stored row.bounds := by
  unfold limitRow at h
  cases hm : setMatRow e with
  | error x => rw [hm] at h; cases h
  | ok e' =>
    obtain ⟨hn, rfl, -⟩ := setMatRow_ok hm
    rw [hm] at h
    cases hf : flowRow true a b <;> simp only [hf] at h
    · cases h
    · cases h; exact ⟨hn, rfl, rfl⟩
    · cases h

theorem boundRow_ok {e : Entries} {r : Row} {row : LpRow} (h : boundRow e r = .ok row) :
    (e.map (·.1)).Nodup ∧ row.entries = e ∧ row.bounds = r := by
  unfold boundRow at h
  cases hm : setMatRow e with
  | error x => rw [hm] at h; cases h
  | ok e' =>
    obtain ⟨hn, rfl, -⟩ := setMatRow_ok hm
    rw [hm] at h
    cases h; exact ⟨hn, rfl, rfl⟩

theorem boundRow_ne {e : Entries} {r : Row} {row : LpRow} (h : boundRow e r = .ok row) : e ≠ [] := by
  unfold boundRow at h
  cases hm : setMatRow e with
  | error x => rw [hm] at h; cases h
  | ok e' => exact (setMatRow_ok hm).2.2

theorem limitRow_ne {e : Entries} {a b : F} {row : LpRow} (h : limitRow e a b = .ok row) : e ≠ [] := by
  unfold limitRow at h
  cases hm : setMatRow e with
  | error x => rw [hm] at h; cases h
  | ok e' => exact (setMatRow_ok hm).2.2

theorem boundRow_of {e : Entries} (r : Row) (h : (e.map (·.1)).Nodup) (hne : e ≠ []) : boundRow e r = .ok ⟨e, r⟩ := by
  unfold boundRow
  rw [setMatRow_of h hne]

theorem zeroRow_ok {e : Entries} {row : LpRow} (h : zeroRow e = .ok row) :
    (e.map (·.1)).Nodup ∧ row.entries = e ∧ row.bounds = ⟨.fx, 0, 0⟩ := boundRow_ok h

/-- What an admitted row value says about the limits. -/
theorem limited_of_admits {a b : F} {r : Row} {x : Rat} (ha : LowerLimit a) (hb : UpperLimit b)
    (hr : flowRow true a b = .stored r) (h : r.Admits x) : Limited a b x := by
  have hD := dblMax_gt
  have he := e8_lt_one
  have rnd_ord : ∀ q, OrdinaryDouble q → ∃ q', roundTiny (.fin q) = .fin q' ∧ F.effective (.fin q) = .fin q' ∧ OrdinaryDouble q' := by
    intro q hq
    by_cases h : |q| < e8
    · exact ⟨0, by simp only [roundTiny, h, if_true], by simp only [F.effective, h, if_true], by
        unfold OrdinaryDouble; constructor <;> linarith⟩
    · exact ⟨q, by simp only [roundTiny, h, if_false], by simp only [F.effective, h, if_false], hq⟩
  have hbig : ¬ |dblMax| < e8 := by rw [abs_of_pos (by linarith)]; linarith
  have hbig' : ¬ |-dblMax| < e8 := by rw [abs_neg]; exact hbig
  have hM : roundTiny (.fin dblMax) = .fin dblMax := by simp only [roundTiny, hbig, if_false]
  have hM' : roundTiny (.fin (-dblMax)) = .fin (-dblMax) := by simp only [roundTiny, hbig', if_false]
  rcases ha with rfl | ⟨p, rfl, hp⟩ <;> rcases hb with rfl | ⟨q, rfl, hq⟩
  · left; exact ⟨trivial, trivial⟩
  · obtain ⟨q', h1, h2, h3⟩ := rnd_ord q hq
    left
    rw [h2]
    refine ⟨trivial, ?_⟩
    simp only [flowRow, infToDblMax, h1, hM', setRowBnds] at hr
    rw [← Outcome.stored.inj hr] at h
    unfold OrdinaryDouble at h3
    have hc : ¬ |-dblMax - q'| < e8 := by
      rw [abs_of_neg (by linarith)]; linarith
    have hne : q' ≠ dblMax := by intro h; linarith
    simp only [Row.Admits, constraintType, hc, if_false, hne, if_true] at h
    exact h
  · obtain ⟨p', h1, h2, h3⟩ := rnd_ord p hp
    left
    rw [h2]
    refine ⟨?_, trivial⟩
    simp only [flowRow, infToDblMax, h1, hM, setRowBnds] at hr
    rw [← Outcome.stored.inj hr] at h
    unfold OrdinaryDouble at h3
    have hc : ¬ |p' - dblMax| < e8 := by
      rw [abs_of_neg (by linarith)]; linarith
    have hne : p' ≠ -dblMax := by intro h; linarith
    simp only [Row.Admits, constraintType, hc, if_false, hne, if_true] at h
    exact h
  · obtain ⟨p', h1, h2, h3⟩ := rnd_ord p hp
    obtain ⟨q', h4, h5, h6⟩ := rnd_ord q hq
    unfold Limited
    rw [h2, h5]
    simp only [flowRow, infToDblMax, h1, h4, setRowBnds] at hr
    rw [← Outcome.stored.inj hr] at h
    unfold OrdinaryDouble at h3 h6
    by_cases hc : |p' - q'| < e8
    · right
      simp only [Row.Admits, constraintType, hc, if_true] at h
      exact ⟨hc, by rw [h]⟩
    · left
      have hne : p' ≠ -dblMax := by intro h; linarith
      have hne' : q' ≠ dblMax := by intro h; linarith
      simp only [Row.Admits, constraintType, hc, if_false, hne, hne'] at h
      exact h

/-! ## Routes -/

theorem sum_map_single {β : Type} {l : List β} (hnd : l.Nodup) {a : β} (ha : a ∈ l) {c : β → Rat}
    (h : ∀ b ∈ l, b ≠ a → c b = 0) : (l.map c).sum = c a := by
  induction l with
  | nil => cases ha
  | cons b l ih =>
    rw [List.nodup_cons] at hnd
    rw [List.map_cons, List.sum_cons]
    rcases List.mem_cons.1 ha with rfl | ha
    · rw [List.sum_eq_zero, add_zero]
      intro v hv
      obtain ⟨p, hp, rfl⟩ := List.mem_map.1 hv
      exact h p (by simp [hp]) fun he => hnd.1 (he ▸ hp)
    · rw [ih hnd.2 ha fun p hp => h p (by simp [hp]), h b (by simp) fun he => hnd.1 (he ▸ ha), zero_add]

theorem mem_of_head? {r : List Nat} {n : Nat} (h : r.head? = some n) : n ∈ r := by
  cases r with
  | nil => cases h
  | cons a r => simp at h; simp [h]

/-- Number of positions at which the code adds a route's flow to a node. -/
def nodeCoef (d : Data) (r : List Nat) (n : Nat) : Rat :=
  (r.zipIdx.map fun p => if p.1 = n ∧ (p.2 = 0 ∨ p.2 = r.length - 1 ∨ d.kind p.1 = .link) then (1 : Rat) else 0).sum

theorem routeNodeFlow_eq_S (d : Data) (routes : List (List Nat)) (x : List Rat) (n : Nat) :
    routeNodeFlow d routes x n = S routes x (fun r => nodeCoef d r n) := by
  unfold routeNodeFlow S
  congr 1
  apply List.map_congr_left
  intro q _
  simp only
  split_ifs with h
  · rw [h]; ring
  · unfold nodeCoef
    rw [← List.sum_map_mul_right]
    congr 1
    apply List.map_congr_left
    intro p _
    split_ifs <;> simp

theorem nodeCoef_eq {d : Data} {routes : List (List Nat)} (hw : WellRouted d routes) {r : List Nat} (hr : r ∈ routes) (n : Nat) :
    nodeCoef d r n = if Carries d r n then 1 else 0 := by
  obtain ⟨hnd, ⟨s, hs, hsk⟩, ⟨t, ht, htk⟩, hk⟩ := hw r hr
  unfold nodeCoef
  by_cases hn : n ∈ r
  · obtain ⟨i, hi, rfl⟩ := List.getElem_of_mem hn
    have hsum : ∀ (c : Nat × Nat → Rat), (∀ p ∈ r.zipIdx, p.2 ≠ i → c p = 0) →
        (r.zipIdx.map c).sum = c (r[i], i) := by
      intro c hc
      have hnd2 : (r.zipIdx).Nodup := by
        refine List.Nodup.of_map Prod.snd ?_
        simpa [List.zipIdx_map_snd] using List.nodup_range'
      have hmem : (r[i], i) ∈ r.zipIdx := by
        rw [List.mem_iff_getElem]
        exact ⟨i, by simpa using hi, by simp⟩
      refine sum_map_single hnd2 hmem fun p hpm hp => hc p hpm fun h2 => hp ?_
      have := List.mem_zipIdx' hpm
      ext
      · rw [this.2]; simp [h2]
      · exact h2
    rw [hsum]
    · simp only [true_and]
      have hzero : i = 0 ↔ r.head? = some r[i] := by
        rw [List.head?_eq_getElem?, List.getElem?_eq_getElem (by omega)]
        constructor
        · intro h; simp [h]
        · intro h
          have := Option.some.inj h
          exact ((List.Nodup.getElem_inj_iff hnd).1 this).symm
      have hlast : i = r.length - 1 ↔ r.getLast? = some r[i] := by
        rw [List.getLast?_eq_getElem?, List.getElem?_eq_getElem (by omega)]
        constructor
        · intro h; simp [h]
        · intro h
          have := Option.some.inj h
          exact ((List.Nodup.getElem_inj_iff hnd).1 this).symm
      simp only [hzero, hlast]
      have hne := (hk r[i] (List.getElem_mem _)).1
      refine if_congr ?_ rfl rfl
      unfold Carries
      cases hkk : d.kind r[i] with
      | input =>
        simp only [reduceCtorEq, or_false]
        constructor
        · rintro (h | h)
          · exact h
          · rw [ht] at h; injection h with h; rw [← h, htk] at hkk; cases hkk
        · exact fun h => .inl h
      | output =>
        simp only [reduceCtorEq, or_false]
        constructor
        · rintro (h | h)
          · rw [hs] at h; injection h with h; rw [← h, hsk] at hkk; cases hkk
          · exact h
        · exact fun h => .inr h
      | link => simp
      | other => exact absurd hkk hne
    · intro p hp hne
      have := List.mem_zipIdx' hp
      rw [if_neg]
      rintro ⟨h1, _⟩
      rw [this.2] at h1
      exact hne ((List.Nodup.getElem_inj_iff hnd).1 h1)
  · have h0 : ¬ Carries d r n := by
      unfold Carries
      cases d.kind n <;> simp only [not_false_eq_true]
      · exact fun h => hn (mem_of_head? h)
      · exact hn
      · exact fun h => hn (List.mem_of_getLast? h)
    rw [if_neg h0]
    apply List.sum_eq_zero
    intro v hv
    obtain ⟨p, hp, rfl⟩ := List.mem_map.1 hv
    have := List.mem_zipIdx' hp
    rw [if_neg]
    rintro ⟨h1, _⟩
    exact hn (by rw [← h1, this.2]; exact List.getElem_mem _)

theorem routeNodeFlow_eq {d : Data} {routes : List (List Nat)} (hw : WellRouted d routes) (x : List Rat) (n : Nat) :
    routeNodeFlow d routes x n = S routes x (fun r => if Carries d r n then 1 else 0) := by
  rw [routeNodeFlow_eq_S]
  exact S_congr fun r hr => nodeCoef_eq hw hr n

theorem rowVal_nodeCols {d : Data} {n : Nat} (hn : d.kind n ≠ .other) (routes : List (List Nat)) (x : List Rat) (v : Rat) :
    rowVal x (const v (nodeCols (d.kind n) n routes)) = S routes x (fun r => if Carries d r n then v else 0) := by
  unfold nodeCols
  cases hk : d.kind n with
  | input => simp only [rowVal_const]; apply S_congr; intro r _; simp [Carries, hk]
  | output => simp only [rowVal_const]; apply S_congr; intro r _; simp [Carries, hk]
  | link => simp only [rowVal_const]; apply S_congr; intro r _; simp [Carries, hk]
  | other => exact absurd hk hn

theorem sum_map_filter {β : Type} (l : List β) (p : β → Bool) (f : β → Rat) :
    ((l.filter p).map f).sum = (l.map fun a => if p a then f a else 0).sum := by
  induction l with
  | nil => rfl
  | cons a l ih =>
    rw [List.filter_cons]
    by_cases h : p a <;> simp [h, ih]

/-- Summing an indicator-weighted function over a duplicate-free superset. -/
theorem sum_indicator {nodes r : List Nat} (hn : nodes.Nodup) (hr : r.Nodup) (hsub : ∀ n ∈ r, n ∈ nodes) (p : Nat → Bool)
    (hp : ∀ n, p n = true → n ∈ r) (f : Nat → Rat) :
    (nodes.map fun n => if p n then f n else 0).sum = ((r.filter p).map f).sum := by
  rw [← sum_map_filter]
  apply List.Perm.sum_eq
  apply List.Perm.map
  rw [List.perm_ext_iff_of_nodup (hn.filter _) (hr.filter _)]
  intro a
  simp only [List.mem_filter]
  constructor
  · rintro ⟨_, h⟩; exact ⟨hp a h, h⟩
  · rintro ⟨h1, h⟩; exact ⟨hsub a h1, h⟩

theorem carries_mem {d : Data} {r : List Nat} {n : Nat} (h : Carries d r n) : n ∈ r := by
  unfold Carries at h
  cases hk : d.kind n <;> simp only [hk] at h
  · exact mem_of_head? h
  · exact h
  · exact List.mem_of_getLast? h

theorem carries_kind {d : Data} {r : List Nat} {n : Nat} (h : Carries d r n) : d.kind n ≠ .other := by
  intro hk; simp only [Carries, hk] at h

/-- The shape of a route. -/
theorem route_shape {d : Data} {routes : List (List Nat)} (hw : WellRouted d routes) {r : List Nat} (hr : r ∈ routes) :
    ∃ s mid t, r = s :: (mid ++ [t]) ∧ d.kind s = .input ∧ d.kind t = .output := by
  obtain ⟨hnd, ⟨s, hs, hsk⟩, ⟨t, ht, htk⟩, hk⟩ := hw r hr
  cases r with
  | nil => cases hs
  | cons a r =>
    simp only [List.head?_cons, Option.some.injEq] at hs
    subst hs
    have hrne : r ≠ [] := by
      rintro rfl
      simp only [List.getLast?_singleton, Option.some.injEq] at ht
      rw [ht, htk] at hsk; cases hsk
    refine ⟨a, r.dropLast, t, ?_, hsk, htk⟩
    rw [List.getLast?_cons] at ht
    injection ht with ht
    rw [List.getLast?_eq_getLast_of_ne_nil hrne] at ht
    simp only [Option.getD_some] at ht
    rw [← ht, List.dropLast_append_getLast hrne]

theorem filter_carries {d : Data} {routes : List (List Nat)} (hw : WellRouted d routes) {r : List Nat} (hr : r ∈ routes) :
    r.filter (fun n => decide (Carries d r n)) =
      r.head?.toList ++ (r.tail.dropLast.filter fun n => d.kind n == .link) ++ r.getLast?.toList := by
  obtain ⟨hnd, -, -, hk⟩ := hw r hr
  obtain ⟨s, mid, t, rfl, hs, ht⟩ := route_shape hw hr
  have e1 : (s :: (mid ++ [t])).head? = some s := rfl
  have e2 : (s :: (mid ++ [t])).getLast? = some t := by
    rw [← List.cons_append, List.getLast?_append]; simp
  have e3 : (s :: (mid ++ [t])).tail.dropLast = mid := by simp
  rw [e1, e2, e3]
  have hsmid : s ∉ mid ++ [t] := (List.nodup_cons.1 hnd).1
  have hnd2 := (List.nodup_cons.1 hnd).2
  have htmid : t ∉ mid := by
    intro h
    have := List.nodup_append.1 hnd2
    exact this.2.2 t h t (by simp) rfl
  rw [List.filter_cons_of_pos (by simp [Carries, hs])]
  rw [List.filter_append, List.filter_cons_of_pos (by simp only [Carries, ht, e2, decide_true])]
  have : mid.filter (fun n => decide (Carries d (s :: (mid ++ [t])) n)) = mid.filter fun n => d.kind n == .link := by
    apply List.filter_congr
    intro n hn
    have hns : n ≠ s := fun h => hsmid (by rw [← h]; simp [hn])
    have hnt : n ≠ t := fun h => htmid (by rw [← h]; exact hn)
    cases hkn : d.kind n with
    | input => simp [Carries, hkn, hns.symm]
    | output => simp only [Carries, hkn, e2]; simp [hnt.symm]
    | link => simp [Carries, hkn, hn]
    | other => simp [Carries, hkn]
  rw [this]
  simp

/-- Summed over all nodes, each weighted by what a route carries of it. -/
theorem sum_carries {d : Data} (hn : d.nodes.Nodup) {routes : List (List Nat)} (hw : WellRouted d routes) {r : List Nat}
    (hr : r ∈ routes) (f : Nat → Rat) :
    (d.nodes.map fun n => if Carries d r n then f n else 0).sum =
      ((r.head?.toList ++ (r.tail.dropLast.filter fun n => d.kind n == .link) ++ r.getLast?.toList).map f).sum := by
  have := sum_indicator hn (hw r hr).1 (fun n h => ((hw r hr).2.2.2 n h).2) (fun n => decide (Carries d r n))
    (fun n h => carries_mem (of_decide_eq_true h)) f
  simp only [decide_eq_true_eq] at this
  rw [this, filter_carries hw hr]

/-! ## Parts of the route problem -/

theorem routeRows_parts {d : Data} {routes : List (List Nat)} {rows : List LpRow} (h : routeRows d routes = .ok rows) :
    (∀ n ∈ d.nonStorages, ∃ row ∈ rows, nodeRow d routes n = .ok row) ∧
    (∀ c ∈ d.cross, ∃ row ∈ rows, crossRow d routes c = .ok row) ∧
    (∀ s ∈ d.storages, ∃ row ∈ rows, storageRowR d routes s = .ok row) ∧
    (∀ v ∈ d.virtuals, ∃ row ∈ rows, virtualRowR d routes v = .ok row) ∧
    (∀ a ∈ d.aggs, ∃ l, factorRowsR routes a = .ok l ∧ ∀ row ∈ l, row ∈ rows) ∧
    (∀ a ∈ d.aggs, ∃ row ∈ rows, aggRowR routes a = .ok row) := by
  unfold routeRows at h
  split at h
  · cases h
  · have hc := concat_ok h
    have key : ∀ {α : Type} (f : α → Except Err LpRow) (l : List α), (∃ bs, collect f l = .ok bs ∧ ∀ row ∈ bs, row ∈ rows) →
        ∀ a ∈ l, ∃ row ∈ rows, f a = .ok row := by
      rintro α f l ⟨bs, h1, h2⟩ a ha
      obtain ⟨b, hb, hf⟩ := collect_ok h1 a ha
      exact ⟨b, h2 b hb, hf⟩
    refine ⟨key _ _ (hc _ (by simp)), key _ _ (hc _ (by simp)), key _ _ (hc _ (by simp)), key _ _ (hc _ (by simp)), ?_,
      key _ _ (hc _ (by simp))⟩
    intro a ha
    exact hc _ (by simp only [List.mem_append, List.mem_map]; exact .inl (.inr ⟨a, ha, rfl⟩))

theorem nodeRow_ok {d : Data} {routes : List (List Nat)} {n : Nat} {row : LpRow} (h : nodeRow d routes n = .ok row) :
    row.entries = const 1 (nodeCols (d.kind n) n routes) ∧ flowRow true (d.minFlow n) (d.maxFlow n) = .stored row.bounds ∧
      nodeCols (d.kind n) n routes ≠ [] := by
  unfold nodeRow at h
  simp only at h
  split at h
  · cases h
  · obtain ⟨_, h1, h2⟩ := limitRow_ok h
    exact ⟨h1, h2, by assumption⟩

theorem mem_nonStorages {d : Data} {n : Nat} : n ∈ d.nonStorages ↔ n ∈ d.nodes ∧ d.kind n ≠ .other := by
  simp [Data.nonStorages, bne_iff_ne]

theorem admits_zero {row : LpRow} (hb : row.bounds = ⟨.fx, 0, 0⟩) {x : Rat} (h : row.bounds.Admits x) : x = 0 := by
  rw [hb] at h; exact h

/-! ## Virtual storages -/

/-- The factor of the first member equal to `n`. -/
theorem sum_idxOf {nodes : List Nat} (hn : nodes.Nodup) (fs : List Rat) (n : Nat) :
    ((nodes.idxOf? n).bind fun i => fs[i]?).getD 0 = ((nodes.zip fs).map fun p => if p.1 = n then p.2 else 0).sum := by
  induction nodes generalizing fs with
  | nil => simp
  | cons m nodes ih =>
    rw [List.nodup_cons] at hn
    rw [List.idxOf?_cons]
    cases fs with
    | nil => by_cases h : (m == n) <;> simp [h]
    | cons f fs =>
      by_cases h : m = n
      · subst h
        simp only [beq_self_eq_true, if_true, Option.bind_some, List.getElem?_cons_zero, Option.getD_some, List.zip_cons_cons,
          List.map_cons, List.sum_cons]
        rw [List.sum_eq_zero, add_zero]
        intro v hv
        obtain ⟨p, hp, rfl⟩ := List.mem_map.1 hv
        rw [if_neg]
        intro hpm
        exact hn.1 (hpm ▸ (List.of_mem_zip hp).1)
      · have hb : (m == n) = false := by simp [h]
        simp only [hb, Bool.false_eq_true, if_false, List.zip_cons_cons, List.map_cons, List.sum_cons, h, zero_add]
        rw [← ih hn.2 fs]
        cases nodes.idxOf? n <;> simp

theorem sum_filterMap {β : Type} (l : List β) (f : β → Option Rat) :
    (l.filterMap f).sum = (l.map fun b => (f b).getD 0).sum := by
  induction l with
  | nil => rfl
  | cons b l ih =>
    rw [List.filterMap_cons]
    cases h : f b <;> simp [h, ih]

theorem sum_swap {β γ : Type} (l : List β) (m : List γ) (f : β → γ → Rat) :
    (l.map fun b => (m.map fun c => f b c).sum).sum = (m.map fun c => (l.map fun b => f b c).sum).sum := by
  induction l with
  | nil => simp
  | cons b l ih => simp only [List.map_cons, List.sum_cons, ih, List.sum_map_add]

theorem sum_eq_ite {r : List Nat} (hr : r.Nodup) (m : Nat) (v : Rat) :
    (r.map fun n => if m = n then v else 0).sum = if m ∈ r then v else 0 := by
  induction r with
  | nil => simp
  | cons a r ih =>
    rw [List.nodup_cons] at hr
    rw [List.map_cons, List.sum_cons, ih hr.2]
    by_cases h : m = a
    · subst h; simp [hr.1]
    · simp [h]

theorem routeFactors_sum {v : VirtualData} (hn : v.nodes.Nodup) {r : List Nat} (hr : r.Nodup) :
    (routeFactors v r).sum = ((v.nodes.zip v.factors).map fun p => if p.1 ∈ r then p.2 else 0).sum := by
  unfold routeFactors
  rw [sum_filterMap]
  simp only [sum_idxOf hn]
  rw [sum_swap]
  congr 1
  apply List.map_congr_left
  intro p _
  exact sum_eq_ite hr p.1 p.2

theorem rowVal_virtual (v : VirtualData) (routes : List (List Nat)) (x : List Rat) :
    rowVal x (routes.zipIdx.filterMap fun q => if routeFactors v q.1 = [] then none else some (q.2, -(routeFactors v q.1).sum)) =
      S routes x (fun r => -(routeFactors v r).sum) := by
  have := rowVal_zipIdx x routes (fun r => if routeFactors v r = [] then none else some (-(routeFactors v r).sum))
  have e : ∀ q : List Nat × Nat, ((if routeFactors v q.1 = [] then none else some (-(routeFactors v q.1).sum)).map fun w => (q.2, w)) =
      if routeFactors v q.1 = [] then none else some (q.2, -(routeFactors v q.1).sum) := by
    intro q; split_ifs <;> rfl
  simp only [e] at this
  rw [this]
  apply S_congr
  intro r _
  split_ifs with h
  · rw [h]; simp
  · rfl

/-! ## Aggregated nodes -/

theorem lastWeight_sum (a : AggData) (present : Nat → Bool)
    (h : ((a.nodes.zip a.weightList).filter fun p => present p.1).length ≤ 1) :
    (lastWeight a present).getD 0 = ((a.nodes.zip a.weightList).map fun p => if present p.1 then p.2 else 0).sum := by
  rw [← sum_map_filter (a.nodes.zip a.weightList) (fun p : Nat × Rat => present p.1) (fun p => p.2)]
  unfold lastWeight
  generalize ((a.nodes.zip a.weightList).filter fun p => present p.1) = l at h ⊢
  match l, h with
  | [], _ => simp
  | [p], _ => simp
  | p :: q :: l, h => simp at h

end Verif.Lp

import Verif.Model.DurationCurves
import Verif.Spec.DurationCurves
import Verif.Props.Recorders
import Verif.Props.Aggregate
import Verif.Props.ScenarioTables
import Mathlib.Tactic.Linarith
import Mathlib.Tactic.Ring
import Mathlib.Tactic.FieldSimp
import Mathlib.Tactic.NormNum
import Mathlib.Tactic.IntervalCases
import Mathlib.Data.Rat.Floor
import Mathlib.Algebra.Order.Floor.Ring
/-! # C75: duration curves -/

namespace Verif.DurationCurves

open Verif.Run Verif.Recorders Verif.Scenarios Verif.ScenarioTables Verif.DataFrame

/-! ## Percentiles -/

private theorem sort_sorted (l : List Rat) : (l.mergeSort fun a b => decide (a ≤ b)).Pairwise (· ≤ ·) := by
  have t : ∀ a b c : Rat, decide (a ≤ b) = true → decide (b ≤ c) = true → decide (a ≤ c) = true := by
    intro a b c; simp only [decide_eq_true_eq]; exact le_trans
  have tot : ∀ a b : Rat, (decide (a ≤ b) || decide (b ≤ a)) = true := by
    intro a b; simp only [Bool.or_eq_true, decide_eq_true_eq]; exact le_total a b
  simpa using List.pairwise_mergeSort t tot l

private theorem sorted_unique {s s' : List Rat} (h : s.Perm s') (h1 : s.Pairwise (· ≤ ·)) (h2 : s'.Pairwise (· ≤ ·)) : s = s' :=
  h.eq_of_pairwise (le := (· ≤ ·)) (fun _ _ _ _ h1 h2 => le_antisymm h1 h2) h1 h2

/-- The shape of a percentile: between the entries `k` and `k + 1` of the sorted values. -/
private theorem percentile_some {l : List Rat} {q v : Rat} (h : percentile l q = some v) :
    0 ≤ q ∧ q ≤ 100 ∧ ∃ s : List Rat, s.Perm l ∧ s.Pairwise (· ≤ ·) ∧ ∃ (k : Nat) (x y : Rat), s[k]? = some x ∧ s[min (k + 1) (l.length - 1)]? = some y ∧ x ≤ y ∧
      (k : Rat) ≤ q * ((l.length : Rat) - 1) / 100 ∧ q * ((l.length : Rat) - 1) / 100 < k + 1 ∧
      v = x + (y - x) * (q * ((l.length : Rat) - 1) / 100 - k) := by
  unfold percentile at h
  split at h
  · cases h
  rename_i hq
  rw [not_or, not_lt, not_lt] at hq
  split at h
  · cases h
  rename_i hne
  have hpos : 0 < l.length := List.length_pos_iff.2 hne
  have hs := sort_sorted l
  have hp := List.mergeSort_perm l (fun a b => decide (a ≤ b))
  simp only [Option.some.injEq] at h
  generalize l.mergeSort (fun a b => decide (a ≤ b)) = s at hs hp h
  have hc : ((l.length - 1 : Nat) : Rat) = (l.length : Rat) - 1 := by rw [Nat.cast_sub hpos]; simp
  have hn : (0 : Rat) ≤ (l.length : Rat) - 1 := by rw [← hc]; exact Nat.cast_nonneg _
  have hp0 : 0 ≤ q * ((l.length : Rat) - 1) / 100 := by have := mul_nonneg hq.1 hn; linarith
  have hp1 : q * ((l.length : Rat) - 1) / 100 ≤ (l.length : Rat) - 1 := by
    have := mul_le_mul_of_nonneg_right hq.2 hn; linarith
  rw [hc, show ((l.length : Rat) - 1) * q / 100 = q * ((l.length : Rat) - 1) / 100 by ring] at h
  set p : Rat := q * ((l.length : Rat) - 1) / 100 with hpd
  have hf0 : 0 ≤ p.floor := Int.floor_nonneg.2 hp0
  have hkc : ((p.floor.toNat : Nat) : Rat) = ((p.floor : Int) : Rat) := by
    have : ((p.floor.toNat : Nat) : Int) = p.floor := Int.toNat_of_nonneg hf0
    exact_mod_cast this
  have hk1 : ((p.floor.toNat : Nat) : Rat) ≤ p := by rw [hkc]; exact Int.floor_le p
  have hk2 : p < ((p.floor.toNat : Nat) : Rat) + 1 := by rw [hkc]; exact Int.lt_floor_add_one p
  set k := p.floor.toNat with hkd
  have hkl : k < s.length := by
    have : (k : Rat) ≤ ((l.length - 1 : Nat) : Rat) := by rw [hc]; linarith
    have : k ≤ l.length - 1 := by exact_mod_cast this
    rw [hp.length_eq]; omega
  have hml : min (k + 1) (l.length - 1) < s.length := by rw [hp.length_eq]; omega
  refine ⟨hq.1, hq.2, s, hp, hs, k, s[k], s[min (k + 1) (l.length - 1)], List.getElem?_eq_getElem hkl, List.getElem?_eq_getElem hml, ?_, hk1, hk2, ?_⟩
  · by_cases he : k = min (k + 1) (l.length - 1)
    · have : s[k]? = s[min (k + 1) (l.length - 1)]? := by rw [← he]
      rw [List.getElem?_eq_getElem hkl, List.getElem?_eq_getElem hml] at this
      exact le_of_eq (Option.some.inj this)
    · refine List.pairwise_iff_getElem.1 hs _ _ hkl hml ?_
      rw [hp.length_eq] at hkl; omega
  · rw [← h]
    simp only [List.getD_eq_getElem?_getD, List.getElem?_eq_getElem hkl, List.getElem?_eq_getElem hml, Option.getD_some]

private theorem percentile_exists {l : List Rat} (hl : l ≠ []) {q : Rat} (h0 : 0 ≤ q) (h1 : q ≤ 100) : ∃ v, percentile l q = some v := by
  unfold percentile
  rw [if_neg (by rw [not_or, not_lt, not_lt]; exact ⟨h0, h1⟩), if_neg hl]
  exact ⟨_, rfl⟩

private theorem percentile_is {l : List Rat} {q v : Rat} (h : percentile l q = some v) : IsPercentile l q v := by
  obtain ⟨-, -, s, hp, hs, k, x, y, hx, hy, hxy, hk1, hk2, hv⟩ := percentile_some h
  intro s' hp' hs' j a ha
  obtain rfl := sorted_unique (hp'.trans hp.symm) hs' hs
  set p : Rat := q * ((l.length : Rat) - 1) / 100 with hpd
  have hq : q * ((l.length : Rat) - 1) = 100 * p := by rw [hpd]; ring
  rw [hq]
  constructor
  · intro he
    have he' : (j : Rat) = p := by linarith
    have hjk : j = k := by
      have h1 : (k : Rat) ≤ (j : Rat) := by linarith
      have h2 : (j : Rat) < ((k + 1 : Nat) : Rat) := by push_cast; linarith
      have h1' : k ≤ j := by exact_mod_cast h1
      have h2' : j < k + 1 := by exact_mod_cast h2
      omega
    subst hjk
    rw [hx] at ha
    obtain rfl := Option.some.inj ha
    rw [hv, ← he', sub_self, mul_zero, add_zero]
  · intro b hb hb1 hb2
    obtain ⟨hjl, -⟩ := List.getElem?_eq_some_iff.1 hb
    rw [hp.length_eq] at hjl
    have hj1 : (j : Rat) ≤ p := by linarith
    have hj2 : p ≤ (j : Rat) + 1 := by linarith
    by_cases hjk : j = k
    · subst hjk
      rw [show min (j + 1) (l.length - 1) = j + 1 by omega] at hy
      rw [hx] at ha
      rw [hy] at hb
      obtain rfl := Option.some.inj ha
      obtain rfl := Option.some.inj hb
      rw [hv]; ring
    · have hkj : k = j + 1 := by
        have h1 : (j : Rat) < ((k + 1 : Nat) : Rat) := by push_cast; linarith
        have h2 : (k : Rat) ≤ ((j + 1 : Nat) : Rat) := by push_cast; linarith
        have h1' : j < k + 1 := by exact_mod_cast h1
        have h2' : k ≤ j + 1 := by exact_mod_cast h2
        omega
      subst hkj
      rw [hx] at hb
      obtain rfl := Option.some.inj hb
      have he : p = (j : Rat) + 1 := by push_cast at hk1; linarith
      rw [hv, he]; push_cast; ring

/-- **C75 (percentiles determined).** Percentiles exist for every non-empty list of values and `q` between 0 and 100, and the description determines them: they do not
depend on the order of the values. -/
theorem C75_unique (l l' : List Rat) (hl : l ≠ []) (hp : l.Perm l') (q : Rat) (h0 : 0 ≤ q) (h1 : q ≤ 100) :
    ∃ v, percentile l q = some v ∧ IsPercentile l q v ∧ (∀ v', IsPercentile l q v' → v' = v) ∧ percentile l' q = some v := by
  obtain ⟨v, hv⟩ := percentile_exists hl h0 h1
  have uniq : ∀ v', IsPercentile l q v' → v' = v := by
    intro v' h'
    obtain ⟨-, -, s, hps, hs, k, x, y, hx, hy, -, hk1, hk2, e⟩ := percentile_some hv
    obtain ⟨a1, a2⟩ := h' s hps hs k x hx
    by_cases hkl : k + 1 < l.length
    · rw [show min (k + 1) (l.length - 1) = k + 1 by omega] at hy
      have := a2 y hy (by linarith) (by linarith)
      rw [e]; linarith
    · have hkl' : k < l.length := by rw [← hps.length_eq]; exact (List.getElem?_eq_some_iff.1 hx).1
      have hke : (k : Rat) = (l.length : Rat) - 1 := by
        have : k + 1 = l.length := by omega
        rw [← this]; push_cast; ring
      rw [show min (k + 1) (l.length - 1) = k by omega, hx] at hy
      obtain rfl := Option.some.inj hy
      rw [e, sub_self, zero_mul, add_zero]
      refine a1 ?_
      have hn : (0 : Rat) ≤ (l.length : Rat) - 1 := by rw [← hke]; exact Nat.cast_nonneg _
      have := mul_le_mul_of_nonneg_right h1 hn
      linarith
  refine ⟨v, hv, percentile_is hv, uniq, ?_⟩
  obtain ⟨v', hv'⟩ := percentile_exists (l := l') (fun h => hl (by rw [h] at hp; exact List.Perm.eq_nil hp)) h0 h1
  have := percentile_is hv'
  rw [hv', uniq v' ?_]
  intro s hs hs2 k x hx
  have h3 := this s (hs.trans hp) hs2 k x hx
  rw [← hp.length_eq] at h3
  exact h3

/-- **C75 (order of the curve).** A curve does not fall with the percentile; the 0th is the least and the 100th the greatest value. -/
theorem C75_monotone (l : List Rat) (q q' v v' : Rat) (h : percentile l q = some v) (h' : percentile l q' = some v') (hq : q ≤ q') :
    v ≤ v' ∧ (q = 0 → v ∈ l ∧ ∀ x ∈ l, v ≤ x) ∧ (q' = 100 → v' ∈ l ∧ ∀ x ∈ l, x ≤ v') := by
  obtain ⟨h0, h1, s, hp, hs, k, x, y, hx, hy, hxy, hk1, hk2, hv⟩ := percentile_some h
  obtain ⟨h0', h1', s', hp', hs', k', x', y', hx', hy', hxy', hk1', hk2', hv'⟩ := percentile_some h'
  obtain rfl := sorted_unique (hp.trans hp'.symm) hs hs'
  obtain ⟨hkl, hxe⟩ := List.getElem?_eq_some_iff.1 hx
  obtain ⟨hkl', hxe'⟩ := List.getElem?_eq_some_iff.1 hx'
  have hll := hp.length_eq
  have hn : (0 : Rat) ≤ (l.length : Rat) - 1 := by
    have : 1 ≤ l.length := by omega
    have : (1 : Rat) ≤ (l.length : Rat) := by exact_mod_cast this
    linarith
  have hpp := mul_le_mul_of_nonneg_right hq hn
  set p : Rat := q * ((l.length : Rat) - 1) / 100 with hpd
  set p' : Rat := q' * ((l.length : Rat) - 1) / 100 with hpd'
  have hle : p ≤ p' := by rw [hpd, hpd']; linarith
  have hkk : k ≤ k' := by
    have : (k : Rat) < ((k' + 1 : Nat) : Rat) := by push_cast; linarith
    have : k < k' + 1 := by exact_mod_cast this
    omega
  have mono := List.pairwise_iff_getElem.1 hs
  have g0 : 0 ≤ (y - x) := by linarith
  have g0' : 0 ≤ (y' - x') := by linarith
  refine ⟨?_, ?_, ?_⟩
  · by_cases he : k = k'
    · subst he
      rw [hx] at hx'
      rw [hy] at hy'
      obtain rfl := Option.some.inj hx'
      obtain rfl := Option.some.inj hy'
      rw [hv, hv']
      have := mul_le_mul_of_nonneg_left (show p - (k : Rat) ≤ p' - k by linarith) g0
      linarith
    · have hyx : y ≤ x' := by
        rw [show min (k + 1) (l.length - 1) = k + 1 by omega] at hy
        obtain ⟨hyl, hye⟩ := List.getElem?_eq_some_iff.1 hy
        rw [← hye, ← hxe']
        by_cases he2 : k + 1 = k'
        · subst he2; exact le_refl _
        · exact mono _ _ hyl hkl' (by omega)
      have m1 := mul_le_mul_of_nonneg_left (show p - (k : Rat) ≤ 1 by linarith) g0
      have m2 := mul_nonneg g0' (show 0 ≤ p' - (k' : Rat) by linarith)
      rw [hv, hv']; linarith
  · intro hq0
    have hp0 : p = 0 := by rw [hpd, hq0]; ring
    have hk0 : k = 0 := by
      have : (k : Rat) ≤ 0 := by rw [← hp0]; exact hk1
      have : k ≤ 0 := by exact_mod_cast this
      omega
    subst hk0
    have hvx : v = x := by rw [hv, hp0]; simp
    rw [hvx]
    refine ⟨hp.mem_iff.1 (List.mem_of_getElem? hx), fun z hz => ?_⟩
    obtain ⟨j, hj, rfl⟩ := List.mem_iff_getElem.1 (hp.mem_iff.2 hz)
    rw [← hxe]
    by_cases hj0 : j = 0
    · subst hj0; exact le_refl _
    · exact mono _ _ hkl hj (by omega)
  · intro hq1
    have hp1 : p' = (l.length : Rat) - 1 := by rw [hpd', hq1]; ring
    have hk1e : k' = l.length - 1 := by
      have : (l.length : Rat) < ((k' + 2 : Nat) : Rat) := by push_cast; linarith
      have : l.length < k' + 2 := by exact_mod_cast this
      omega
    have hvx : v' = x' := by
      rw [show min (k' + 1) (l.length - 1) = k' by omega, hx'] at hy'
      obtain rfl := Option.some.inj hy'
      rw [hv']; ring
    rw [hvx]
    refine ⟨hp.mem_iff.1 (List.mem_of_getElem? hx'), fun z hz => ?_⟩
    obtain ⟨j, hj, rfl⟩ := List.mem_iff_getElem.1 (hp.mem_iff.2 hz)
    rw [← hxe']
    by_cases hj0 : j = k'
    · subst hj0; exact le_refl _
    · exact mono _ _ hj hkl' (by omega)

/-- **C75 (exceedance).** More than `q (n - 1)` hundredths of the values are at most, and more than `(100 - q) (n - 1)` hundredths at least the `q`-th percentile. -/
theorem C75_exceedance (l : List Rat) (q v : Rat) (h : percentile l q = some v) :
    q * ((l.length : Rat) - 1) < 100 * ((l.filter fun x => decide (x ≤ v)).length : Rat) ∧
    (100 - q) * ((l.length : Rat) - 1) < 100 * ((l.filter fun x => decide (v ≤ x)).length : Rat) := by
  obtain ⟨h0, h1, s, hp, hs, k, x, y, hx, hy, hxy, hk1, hk2, hv⟩ := percentile_some h
  obtain ⟨hkl, hxe⟩ := List.getElem?_eq_some_iff.1 hx
  obtain ⟨hyl, hye⟩ := List.getElem?_eq_some_iff.1 hy
  have hll := hp.length_eq
  rw [((hp.filter _).length_eq).symm, ((hp.filter _).length_eq).symm]
  set p : Rat := q * ((l.length : Rat) - 1) / 100 with hpd
  have hq : q * ((l.length : Rat) - 1) = 100 * p := by rw [hpd]; ring
  have g0 : 0 ≤ (y - x) := by linarith
  have hxv : x ≤ v := by
    have := mul_nonneg g0 (show 0 ≤ p - (k : Rat) by linarith)
    rw [hv]; linarith
  constructor
  · have c1 := (Aggregate.sorted_counts s hs k hkl v).1 (by rw [hxe]; exact hxv)
    have c1' : ((k + 1 : Nat) : Rat) ≤ ((s.filter fun x => decide (x ≤ v)).length : Rat) := by exact_mod_cast c1
    push_cast at c1'
    linarith
  · rw [sub_mul, hq]
    by_cases he : p = k
    · have hvx : v = x := by rw [hv, he]; ring
      have c2 := (Aggregate.sorted_counts s hs k hkl v).2 (by rw [hxe, hvx])
      have : s.length ≤ (s.filter fun x => decide (v ≤ x)).length + k := by omega
      have : (s.length : Rat) ≤ ((s.filter fun x => decide (v ≤ x)).length : Rat) + k := by exact_mod_cast this
      rw [hll] at this
      linarith
    · have hkn : k + 1 < l.length := by
        by_contra hc
        have hke : k = l.length - 1 := by omega
        have hn : (0 : Rat) ≤ (l.length : Rat) - 1 := by
          have : 1 ≤ l.length := by omega
          have : (1 : Rat) ≤ (l.length : Rat) := by exact_mod_cast this
          linarith
        have hke' : (k : Rat) = (l.length : Rat) - 1 := by
          have : k + 1 = l.length := by omega
          rw [← this]; push_cast; ring
        have := mul_le_mul_of_nonneg_right h1 hn
        exact he (le_antisymm (by rw [hke']; linarith) hk1)
      have hyv : v ≤ y := by
        have := mul_le_mul_of_nonneg_left (show p - (k : Rat) ≤ 1 by linarith) g0
        rw [hv]; linarith
      have c2 := (Aggregate.sorted_counts s hs _ hyl v).2 (by rw [hye]; exact hyv)
      rw [show min (k + 1) (l.length - 1) = k + 1 by omega] at c2
      have : s.length ≤ (s.filter fun x => decide (v ≤ x)).length + (k + 1) := by omega
      have : (s.length : Rat) ≤ ((s.filter fun x => decide (v ≤ x)).length : Rat) + (k + 1) := by exact_mod_cast this
      rw [hll] at this
      have hlt : (k : Rat) < p := lt_of_le_of_ne hk1 (fun e => he e.symm)
      linarith

/-! ## The recorders -/

private theorem mapM_ok {α β : Type} (f : α → Option β) (l : List α) (h : ∀ a ∈ l, ∃ b, f a = some b) :
    ∃ r, l.mapM f = some r ∧ r.length = l.length ∧ ∀ (k : Nat) (a : α), l[k]? = some a → ∃ b, r[k]? = some b ∧ f a = some b := by
  induction l with
  | nil => exact ⟨[], rfl, rfl, fun k a hk => by simp at hk⟩
  | cons x l ih =>
    obtain ⟨b, hb⟩ := h x List.mem_cons_self
    obtain ⟨r, h1, h2, h3⟩ := ih fun a ha => h a (List.mem_cons_of_mem _ ha)
    refine ⟨b :: r, by rw [List.mapM_cons, hb, h1]; rfl, by simp [h2], fun k a hk => ?_⟩
    cases k with
    | zero => obtain rfl := Option.some.inj (by simpa using hk : some x = some a); exact ⟨b, rfl, hb⟩
    | succ k => exact h3 k a (by simpa using hk)

/-- A curve over every column of a non-empty table. -/
private theorem curve_ok (ncomb : Nat) (qs : List Rat) (hq : ∀ q ∈ qs, 0 ≤ q ∧ q ≤ 100) (data : List (List Rat)) (hd : data ≠ []) :
    ∃ c, curve ncomb qs data = some c ∧ c.length = qs.length ∧ ∀ (k : Nat) (q : Rat), qs[k]? = some q → ∃ r, c[k]? = some r ∧ r.length = ncomb ∧
      ∀ (i : Nat) (v : Rat), r[i]? = some v → IsPercentile (column data i) q v := by
  have hcol : ∀ i, column data i ≠ [] := fun i => by unfold column; simpa using hd
  obtain ⟨c, h1, h2, h3⟩ := mapM_ok (fun q => (List.range ncomb).mapM fun i => percentile (column data i) q) qs (by
    intro q hq'
    obtain ⟨r, hr, -⟩ := mapM_ok (fun i => percentile (column data i) q) (List.range ncomb)
      (fun i _ => percentile_exists (hcol i) (hq q hq').1 (hq q hq').2)
    exact ⟨r, hr⟩)
  refine ⟨c, h1, h2, fun k q hk => ?_⟩
  obtain ⟨r, hr1, hr2⟩ := h3 k q hk
  have hq' := hq q (List.mem_of_getElem? hk)
  obtain ⟨r', e1, e2, e3⟩ := mapM_ok (fun i => percentile (column data i) q) (List.range ncomb)
      (fun i _ => percentile_exists (hcol i) hq'.1 hq'.2)
  rw [e1] at hr2
  obtain rfl := Option.some.inj hr2
  refine ⟨r', hr1, by simpa using e2, fun i v hv => ?_⟩
  have hi : i < ncomb := by
    have := (List.getElem?_eq_some_iff.1 hv).1
    rw [e2] at this; simpa using this
  obtain ⟨v', hv1, hv2⟩ := e3 i i (by rw [List.getElem?_range hi])
  rw [hv] at hv1
  obtain rfl := Option.some.inj hv1
  exact percentile_is hv2

private theorem fold_recorder {O : Type} (row : O → List Rat) (pick : List (List Rat) → List (List Rat)) (nts ncomb : Nat) (qs : List Rat) :
    ∀ (os : List O) (k : Nat) (s : St), (recorder row pick nts ncomb qs).fold k os s =
      ((arrayRecorder 0 row nts ncomb).fold k os s.data).map fun d => { s with data := d } := by
  intro os
  induction os with
  | nil => intro k s; rfl
  | cons o os ih =>
    intro k s
    simp only [Rec.fold, recorder, arrayRecorder]
    by_cases hk : k < s.data.length
    · rw [if_pos hk, if_pos hk, Option.bind_some, Option.bind_some]
      exact ih (k + 1) { s with data := s.data.set k (row o) }
    · rw [if_neg hk, if_neg hk]; rfl

/-- A complete run: the data are what was observed, row by row. -/
private theorem result_recorder {O : Type} (row : O → List Rat) (pick : List (List Rat) → List (List Rat)) (nts ncomb : Nat) (qs : List Rat) (os : List O)
    (hl : os.length = nts) (cur : Option Nat) :
    (recorder row pick nts ncomb qs).result os cur = (curve ncomb qs (pick (os.map row))).map fun c => ⟨os.map row, some c⟩ := by
  obtain ⟨v, h1, h2, h3, -⟩ := C40_array 0 row nts ncomb os (by omega) cur
  have hv : v = os.map row := by
    apply List.ext_getElem?
    intro k
    rw [List.getElem?_map]
    by_cases hk : k < os.length
    · rw [h3 k hk, List.getElem?_eq_getElem hk]; rfl
    · rw [List.getElem?_eq_none (by omega), List.getElem?_eq_none (by omega)]; rfl
  have hf : (arrayRecorder 0 row nts ncomb).fold 0 os (arrayRecorder 0 row nts ncomb).init = some v := by
    unfold Rec.result at h1
    cases hfo : (arrayRecorder 0 row nts ncomb).fold 0 os (arrayRecorder 0 row nts ncomb).init with
    | none => rw [hfo] at h1; cases h1
    | some w => rw [hfo] at h1; exact h1
  unfold Rec.result
  rw [fold_recorder]
  rw [show (recorder row pick nts ncomb qs).init.data = (arrayRecorder 0 row nts ncomb).init from rfl, hf]
  subst hv
  rfl

private theorem column_map {O : Type} (row : O → List Rat) (os : List O) (i : Nat) : column (os.map row) i = os.map fun o => (row o).getD i 0 := by
  unfold column; rw [List.map_map]; rfl

private theorem scaled_getD (l : List Rat) (f : Rat) (i : Nat) : (l.map (· * f)).getD i 0 = l.getD i 0 * f := by
  rw [List.getD_eq_getElem?_getD, List.getD_eq_getElem?_getD, List.getElem?_map]
  cases l[i]? <;> simp

/-- **C75 (flows).** After a complete run the curve of a scenario has, for every percentile asked for and in their order, that percentile of the scenario's flows over all
timesteps (times the factor). -/
theorem C75_flow (factor : Rat) (nts ncomb : Nat) (hn : 0 < nts) (qs : List Rat) (hq : ∀ q ∈ qs, 0 ≤ q ∧ q ≤ 100) (os : List NodeView) (hl : os.length = nts) (cur : Option Nat) :
    ∃ s c, (flowCurve factor nts ncomb qs).result os cur = some s ∧ s.fdc = some c ∧ c.length = qs.length ∧
      ∀ (k : Nat) (q : Rat), qs[k]? = some q → ∃ r, c[k]? = some r ∧ r.length = ncomb ∧
        ∀ (i : Nat) (v : Rat), r[i]? = some v → IsPercentile (os.map fun o => o.flow.getD i 0 * factor) q v := by
  have hne : os.map (fun o => o.flow.map (· * factor)) ≠ [] := by
    intro h; have := congrArg List.length h; simp at this; subst this; simp at hl; omega
  obtain ⟨c, h1, h2, h3⟩ := curve_ok ncomb qs hq _ hne
  refine ⟨⟨os.map fun o => o.flow.map (· * factor), some c⟩, c, ?_, rfl, h2, fun k q hk => ?_⟩
  · unfold flowCurve
    rw [result_recorder _ _ _ _ _ _ hl]
    simp only [id_eq, h1, Option.map_some]
  · obtain ⟨r, r1, r2, r3⟩ := h3 k q hk
    refine ⟨r, r1, r2, fun i v hv => ?_⟩
    have := r3 i v hv
    rw [column_map] at this
    simpa only [scaled_getD] using this

/-- **C75 (storages).** The same for volumes (or proportional volumes). -/
theorem C75_storage (nts ncomb : Nat) (hn : 0 < nts) (qs : List Rat) (hq : ∀ q ∈ qs, 0 ≤ q ∧ q ≤ 100) (os : List (List Rat)) (hl : os.length = nts) (cur : Option Nat) :
    ∃ s c, (storageCurve nts ncomb qs).result os cur = some s ∧ s.fdc = some c ∧ c.length = qs.length ∧
      ∀ (k : Nat) (q : Rat), qs[k]? = some q → ∃ r, c[k]? = some r ∧ r.length = ncomb ∧
        ∀ (i : Nat) (v : Rat), r[i]? = some v → IsPercentile (os.map fun o => o.getD i 0) q v := by
  have hne : os.map id ≠ [] := by
    rintro h; have := congrArg List.length h; simp at this; subst this; simp at hl; omega
  obtain ⟨c, h1, h2, h3⟩ := curve_ok ncomb qs hq _ hne
  refine ⟨⟨os.map id, some c⟩, c, ?_, rfl, h2, fun k q hk => ?_⟩
  · unfold storageCurve
    rw [result_recorder _ _ _ _ _ _ hl]
    simp only [id_eq, h1, Option.map_some]
  · obtain ⟨r, r1, r2, r3⟩ := h3 k q hk
    refine ⟨r, r1, r2, fun i v hv => ?_⟩
    have := r3 i v hv
    rw [column_map] at this
    exact this

private theorem inSeason_map {O : Type} (months : List Nat) (month : Nat → Nat) (row : O → List Rat) (os : List O) :
    inSeason months month (os.map row) = ((os.zipIdx.filter fun r => decide (month r.2 ∈ months)).map fun r => row r.1) := by
  unfold inSeason
  rw [List.zipIdx_map, List.filter_map, List.map_map]
  rfl

/-- **C75 (seasons).** The curve of a season is made of the flows of exactly the timesteps in a month of the season (of which there must be one). -/
theorem C75_season (factor : Rat) (months : List Nat) (month : Nat → Nat) (nts ncomb : Nat) (qs : List Rat) (hq : ∀ q ∈ qs, 0 ≤ q ∧ q ≤ 100)
    (os : List NodeView) (hl : os.length = nts) (hs : ∃ k < nts, month k ∈ months) (cur : Option Nat) :
    ∃ s c, (seasonalCurve factor months month nts ncomb qs).result os cur = some s ∧ s.fdc = some c ∧ c.length = qs.length ∧
      ∀ (k : Nat) (q : Rat), qs[k]? = some q → ∃ r, c[k]? = some r ∧ r.length = ncomb ∧
        ∀ (i : Nat) (v : Rat), r[i]? = some v →
          IsPercentile (((os.zipIdx.filter fun r => decide (month r.2 ∈ months)).map fun r => r.1.flow.getD i 0 * factor)) q v := by
  have hne : inSeason months month (os.map fun o => o.flow.map (· * factor)) ≠ [] := by
    obtain ⟨k, hk, hm⟩ := hs
    rw [inSeason_map]
    intro h
    rw [List.map_eq_nil_iff, List.filter_eq_nil_iff] at h
    refine h (os[k]'(by omega), k) ?_ (by simpa using hm)
    rw [List.mem_iff_getElem?]
    exact ⟨k, by rw [List.getElem?_zipIdx, List.getElem?_eq_getElem (by omega)]; simp⟩
  obtain ⟨c, h1, h2, h3⟩ := curve_ok ncomb qs hq _ hne
  refine ⟨⟨os.map fun o => o.flow.map (· * factor), some c⟩, c, ?_, rfl, h2, fun k q hk => ?_⟩
  · unfold seasonalCurve
    rw [result_recorder _ _ _ _ _ _ hl, h1, Option.map_some]
  · obtain ⟨r, r1, r2, r3⟩ := h3 k q hk
    refine ⟨r, r1, r2, fun i v hv => ?_⟩
    have := r3 i v hv
    rw [inSeason_map] at this
    unfold column at this
    rw [List.map_map] at this
    simpa only [Function.comp_def, scaled_getD] using this

/-! ## Deviations -/

private theorem deviation_is (v : Rat) (l u : Option Rat) : IsDeviation v l u (deviation v l u) := by
  unfold deviation
  by_cases h0 : l = some 0 ∨ u = some 0
  · rw [if_pos h0]
    exact ⟨⟨fun _ => h0, fun _ => rfl⟩, fun y hy => by cases hy⟩
  rw [if_neg h0]
  refine ⟨⟨fun h => by simp at h, fun h => absurd h h0⟩, fun y hy hl hu => ?_⟩
  have key : ∀ a : Rat, 0 < a → ∀ z : Rat, (v ≤ a + z * a ↔ (v - a) / a ≤ z) ∧ (a - z * a ≤ v ↔ (a - v) / a ≤ z) := by
    intro a ha z
    rw [div_le_iff₀ ha, div_le_iff₀ ha]
    constructor <;> constructor <;> intro h <;> linarith
  simp only [Option.some.injEq] at hy
  subst hy
  refine ⟨le_max_right _ _, ⟨fun a ha => ?_, fun a ha => ?_⟩, fun z hz hw => ?_⟩
  · obtain rfl : l = some a := ha
    exact ((key a (hl a rfl) _).2).2 (le_trans (le_max_right _ _) (le_max_left _ _))
  · obtain rfl : u = some a := ha
    exact ((key a (hu a rfl) _).1).2 (le_trans (le_max_left _ _) (le_max_left _ _))
  · refine max_le (max_le ?_ ?_) hz
    · cases u with
      | none => exact hz
      | some a => exact ((key a (hu a rfl) z).1).1 (hw.2 a rfl)
    · cases l with
      | none => exact hz
      | some a => exact ((key a (hl a rfl) z).2).1 (hw.1 a rfl)

/-- The entry `a` of target `t` (if given) for percentile number `k` and combination number `i`: that of the combination's member of the scenario if the recorder has one, otherwise the
only column or that of the combination. -/
def TargetEntry (S : Scens) (scenario : Option Nat) (t : Option Target) (k i : Nat) (combo : List Int) (a : Option Rat) : Prop :=
  match t, scenario with
  | none, _ => a = none
  | some t, some sc => ∃ (s : Scenario) (m : Nat) (r : List Rat), HasMember S sc s combo m ∧ t[k]? = some r ∧ r[m]? = a ∧ a ≠ none
  | some t, none => ∃ r : List Rat, t[k]? = some r ∧ a ≠ none ∧ ((r.length = 1 ∧ r[0]? = a) ∨ (r.length ≠ 1 ∧ r[i]? = a))

private theorem combos_ids {c : Collection} {combos : List Index} (hc : c.getCombinations = .ok combos) : combos.map Prod.fst = List.range combos.length := by
  obtain ⟨ss, user⟩ := c
  unfold Collection.getCombinations at hc
  split at hc
  · cases hc; rfl
  · split at hc
    · simp only at hc
      split at hc
      · cases hc
      · cases hc; rw [enumerate_fst]; simp [enumerate]
    · split at hc
      · cases hc
      · simp only at hc
        split at hc
        · cases hc
        · cases hc; rw [enumerate_fst]; simp [enumerate]

private theorem rowAt_nat {α : Type} (rows : List α) (m : Nat) (h : m < rows.length) : rowAt rows (m : Int) = rows[m]? := by
  unfold rowAt
  rw [DataFrame.resolve_nat h]; rfl

private theorem index_of {S : Scens} {sc k : Nat} (hk : S.objects[k]? = some sc) : scenarioIndex S.objects sc = some k := by
  obtain ⟨hlt, hg⟩ := List.getElem?_eq_some_iff.1 hk
  refine List.idxOf?_eq_some_iff.2 ⟨hlt, hg, ?_⟩
  intro j hj he
  exact absurd ((List.Nodup.getElem_inj_iff S.distinct).1 (he.trans hg.symm)) (by omega)

/-- An accepted target: rows of equal length. -/
private theorem width_eq {t : Target} (h : ∀ r ∈ t, r.length = width t) {k : Nat} {r : List Rat} (hk : t[k]? = some r) : r.length = width t :=
  h r (List.mem_of_getElem? hk)

private theorem init_ok {qs : List Rat} {lower upper : Option Target} {scenario : Option Nat} {d : Dev} (h : Dev.init qs lower upper scenario = some d) :
    d = ⟨qs, lower, upper, scenario⟩ ∧ (∀ t ∈ lower, t.length = qs.length ∧ ∀ r ∈ t, r.length = width t) ∧
    (∀ t ∈ upper, t.length = qs.length ∧ ∀ r ∈ t, r.length = width t) := by
  unfold Dev.init at h
  split at h
  · cases h
  split at h
  · cases h
  rename_i h1
  split at h
  · cases h
  rename_i h2
  refine ⟨(Option.some.inj h).symm, fun t ht => ?_, fun t ht => ?_⟩
  · refine ⟨by_contra fun hc => h1 ⟨t, ht, Or.inl hc⟩, fun r hr => by_contra fun hc => h1 ⟨t, ht, Or.inr ⟨r, hr, hc⟩⟩⟩
  · refine ⟨by_contra fun hc => h2 ⟨t, ht, Or.inl hc⟩, fun r hr => by_contra fun hc => h2 ⟨t, ht, Or.inr ⟨r, hr, hc⟩⟩⟩

/-- What is known of the column `j` of a target for combination `i`. -/
private def Fits (S : Scens) (scenario : Option Nat) (i : Nat) (combo : List Int) (j : Int) (t : Option Target) : Prop :=
  match scenario with
  | some sc => ∃ s m, HasMember S sc s combo m ∧ j = (m : Int) ∧ ∀ x ∈ t, width x = s.size
  | none => j = (i : Int) ∧ ∀ x ∈ t, width x = 1 ∨ i < width x

/-- The widths `setup` accepts. -/
private def Accepted (scenario : Option Nat) (size : Nat → Nat) (ncomb : Nat) (t : Target) : Prop :=
  match scenario with
  | some sc => width t = size sc
  | none => width t = 1 ∨ width t = ncomb

private theorem accepted {scenario : Option Nat} {size : Nat → Nat} {ncomb : Nat} {t : Target} (hz : width t ≠ 0) (h : wrongWidth scenario size ncomb t ≠ true) :
    Accepted scenario size ncomb t := by
  unfold wrongWidth at h
  unfold Accepted
  cases scenario with
  | some sc => simpa using h
  | none =>
    simp only [gt_iff_lt, ne_eq, decide_eq_true_eq, not_and, not_not] at h ⊢
    by_cases h1 : width t = 1
    · exact Or.inl h1
    · exact Or.inr (h (by omega))

/-- The entry a target has for a combination. -/
private theorem targetAt_ok {S : Scens} {scenario : Option Nat} {t : Option Target} {n k i : Nat} {combo : List Int} {j : Int} (hk : k < n)
    (ht : ∀ x ∈ t, x.length = n ∧ ∀ r ∈ x, r.length = width x)
    (hs : Fits S scenario i combo j t) :
    ∃ a, targetAt t k j = some a ∧ TargetEntry S scenario t k i combo a := by
  cases t with
  | none => exact ⟨none, rfl, by unfold TargetEntry; rfl⟩
  | some x =>
    obtain ⟨hx1, hx2⟩ := ht x rfl
    have hkx : k < x.length := by omega
    have hw := hx2 x[k] (List.getElem_mem hkx)
    unfold targetAt targetColumn
    simp only [List.getElem?_eq_getElem hkx, Option.bind_some]
    cases scenario with
    | some sc =>
      obtain ⟨s, m, hm, rfl, hsz⟩ := hs
      have hsz' := hsz x rfl
      have hml : m < x[k].length := by
        obtain ⟨_, _, _, _, hlt⟩ := hm
        omega
      have hcol : (if width x = 1 then (0 : Int) else (m : Int)) = (m : Int) := by
        split
        · have : m = 0 := by omega
          rw [this]; rfl
        · rfl
      rw [hcol, rowAt_nat _ _ hml, List.getElem?_eq_getElem hml]
      exact ⟨some x[k][m], rfl, s, m, x[k], hm, List.getElem?_eq_getElem hkx, List.getElem?_eq_getElem hml, by simp⟩
    | none =>
      obtain ⟨rfl, hsz⟩ := hs
      rcases hsz x rfl with h1 | h1
      · rw [if_pos h1]
        have h0 : 0 < x[k].length := by omega
        rw [show (0 : Int) = ((0 : Nat) : Int) from rfl, rowAt_nat _ _ h0, List.getElem?_eq_getElem h0]
        exact ⟨some x[k][0], rfl, x[k], List.getElem?_eq_getElem hkx, by simp, Or.inl ⟨by omega, List.getElem?_eq_getElem h0⟩⟩
      · by_cases hw1 : width x = 1
        · rw [if_pos hw1]
          have h0 : 0 < x[k].length := by omega
          rw [show (0 : Int) = ((0 : Nat) : Int) from rfl, rowAt_nat _ _ h0, List.getElem?_eq_getElem h0]
          exact ⟨some x[k][0], rfl, x[k], List.getElem?_eq_getElem hkx, by simp, Or.inl ⟨by omega, List.getElem?_eq_getElem h0⟩⟩
        · rw [if_neg hw1]
          have hi : i < x[k].length := by omega
          rw [rowAt_nat _ _ hi, List.getElem?_eq_getElem hi]
          exact ⟨some x[k][i], rfl, x[k], List.getElem?_eq_getElem hkx, by simp, Or.inr ⟨by omega, List.getElem?_eq_getElem hi⟩⟩

/-- **C75 (deviations), partial.** A deviation recorder that its constructor and `setup` accept has, for every percentile and combination, the deviation of the curve from the entries of the targets that
belong to the percentile and to the combination's member of the recorder's scenario (or the combination itself).  Missing with respect to C75: recorders loaded from a
document with a scenario (`C75_document_fails`). -/
theorem C75_deviation_partial (S : Scens) (hv : ValidUser S.coll) (combos : List Index) (hc : S.coll.getCombinations = .ok combos) (size : Nat → Nat)
    (hsize : ∀ (p sc : Nat) (s : Scenario), S.objects[p]? = some sc → S.coll.scenarios[p]? = some s → size sc = s.size)
    (qs : List Rat) (lower upper : Option Target) (scenario : Option Nat) (hsc : ∀ sc ∈ scenario, sc ∈ S.objects)
    (hw : (∀ t ∈ lower, width t ≠ 0) ∧ ∀ t ∈ upper, width t ≠ 0)
    (d d' : Dev) (hd : Dev.init qs lower upper scenario = some d) (hd' : d.setup size combos.length = some d')
    (fdc : List (List Rat)) (hf : fdc.length = qs.length) (hfc : ∀ r ∈ fdc, r.length = combos.length) :
    ∃ devs, d'.finish S.objects combos fdc = some devs ∧ devs.length = qs.length ∧
      ∀ (k : Nat) (r : List Rat), fdc[k]? = some r → ∃ ds, devs[k]? = some ds ∧ ds.length = combos.length ∧
        ∀ (i g : Nat) (combo : List Int) (v : Rat), combos[i]? = some (g, combo) → r[i]? = some v →
          ∃ l u x, TargetEntry S scenario lower k i combo l ∧ TargetEntry S scenario upper k i combo u ∧ ds[i]? = some x ∧ IsDeviation v l u x := by
  obtain ⟨rfl, hlo, hup⟩ := init_ok hd
  have hset : d' = ⟨qs, lower, upper, scenario⟩ ∧ ∀ t, (t ∈ lower ∨ t ∈ upper) → Accepted scenario size combos.length t := by
    unfold Dev.setup at hd'
    simp only at hd'
    split at hd'
    · cases hd'
    rename_i hno
    rw [not_or] at hno
    refine ⟨(Option.some.inj hd').symm, fun t ht => ?_⟩
    refine accepted (ht.elim (fun h => hw.1 t h) (fun h => hw.2 t h)) fun hcon => ?_
    rcases ht with ht | ht
    · exact hno.1 ⟨t, ht, hcon⟩
    · exact hno.2 ⟨t, ht, hcon⟩
  obtain ⟨rfl, hwid⟩ := hset
  have hids := combos_ids hc
  have cell : ∀ (k : Nat) (r : List Rat), fdc[k]? = some r → ∀ (i g : Nat) (combo : List Int), combos[i]? = some (g, combo) →
      ∃ v l u, r[i]? = some v ∧ TargetEntry S scenario lower k i combo l ∧ TargetEntry S scenario upper k i combo u ∧
        Dev.at ⟨qs, lower, upper, scenario⟩ S.objects fdc i k (g, combo) = some (deviation v l u) := by
    intro k r hr i g combo hi
    have hk : k < qs.length := by rw [← hf]; exact (List.getElem?_eq_some_iff.1 hr).1
    have hil : i < combos.length := (List.getElem?_eq_some_iff.1 hi).1
    have hg : g = i := by
      have := congrArg (fun l : List Nat => l[i]?) hids
      simp only [List.getElem?_map, hi, Option.map_some, List.getElem?_range hil, Option.some.injEq] at this
      exact this
    subst hg
    have hir : g < r.length := by rw [hfc r (List.mem_of_getElem? hr)]; exact hil
    obtain ⟨j, hj, hm⟩ : ∃ j : Int, memberOf scenario S.objects (g, combo) = some j ∧ ∀ t : Option Target, (∀ x ∈ t, x ∈ lower ∨ x ∈ upper) → Fits S scenario g combo j t := by
      cases scenario with
      | none =>
        refine ⟨(g : Int), rfl, fun t htt => ⟨rfl, fun x hx => ?_⟩⟩
        have h1 := hwid x (htt x hx)
        unfold Accepted at h1
        simp only at h1
        rcases h1 with h1 | h1
        · exact Or.inl h1
        · right; omega
      | some sc =>
        obtain ⟨p, hp⟩ := List.mem_iff_getElem?.1 (hsc sc rfl)
        have hpl : p < S.coll.scenarios.length := by rw [← S.same]; exact (List.getElem?_eq_some_iff.1 hp).1
        have hps := List.getElem?_eq_getElem hpl
        obtain ⟨m, hm1, hm2, -⟩ := DataFrame.combo_member hv hc hps (List.mem_of_getElem? hi)
        refine ⟨(m : Int), ?_, fun t htt => ⟨_, m, ⟨p, hp, hps, hm1, hm2⟩, rfl, fun x hx => ?_⟩⟩
        · unfold memberOf; simp only [index_of hp, Option.bind_some, hm1]
        · have h1 := hwid x (htt x hx)
          unfold Accepted at h1
          simp only at h1
          rw [h1, hsize p sc _ hp hps]
    obtain ⟨l, hl1, hl2⟩ := targetAt_ok hk hlo (hm lower fun x hx => Or.inl hx)
    obtain ⟨u, hu1, hu2⟩ := targetAt_ok hk hup (hm upper fun x hx => Or.inr hx)
    refine ⟨r[g], l, u, List.getElem?_eq_getElem hir, hl2, hu2, ?_⟩
    unfold Dev.at
    simp only
    rw [hj, Option.bind_some, hl1, Option.bind_some, hu1, Option.bind_some, hr, Option.bind_some, List.getElem?_eq_getElem hir]
    rfl
  have rowOk : ∀ (k : Nat) (r : List Rat), fdc[k]? = some r → ∃ ds, (combos.zipIdx.mapM fun c => Dev.at ⟨qs, lower, upper, scenario⟩ S.objects fdc c.2 k c.1) = some ds ∧
      ds.length = combos.length ∧ ∀ (i g : Nat) (combo : List Int), combos[i]? = some (g, combo) → ∃ b, ds[i]? = some b ∧
        Dev.at ⟨qs, lower, upper, scenario⟩ S.objects fdc i k (g, combo) = some b := by
    intro k r hr
    obtain ⟨ds, h1, h2, h3⟩ := mapM_ok (fun c : Index × Nat => Dev.at ⟨qs, lower, upper, scenario⟩ S.objects fdc c.2 k c.1) combos.zipIdx (by
      rintro ⟨⟨g, combo⟩, i⟩ hmem
      obtain ⟨n, hn⟩ := List.mem_iff_getElem?.1 hmem
      rw [List.getElem?_zipIdx] at hn
      cases hcn : combos[n]? with
      | none => rw [hcn] at hn; cases hn
      | some c =>
        rw [hcn] at hn
        simp only [Option.map_some, Option.some.injEq, Prod.mk.injEq, Nat.zero_add] at hn
        obtain ⟨rfl, rfl⟩ := hn
        obtain ⟨v, l, u, -, -, -, hat⟩ := cell k r hr n g combo hcn
        exact ⟨_, hat⟩)
    refine ⟨ds, h1, by simpa using h2, fun i g combo hi => ?_⟩
    exact h3 i ((g, combo), i) (by rw [List.getElem?_zipIdx, hi]; simp)
  obtain ⟨devs, h1, h2, h3⟩ := mapM_ok (fun k => combos.zipIdx.mapM fun c => Dev.at ⟨qs, lower, upper, scenario⟩ S.objects fdc c.2 k c.1) (List.range qs.length) (by
    intro k hk
    have hk' : k < fdc.length := by rw [hf]; exact List.mem_range.1 hk
    obtain ⟨ds, hds, -⟩ := rowOk k _ (List.getElem?_eq_getElem hk')
    exact ⟨ds, hds⟩)
  refine ⟨devs, h1, by simpa using h2, fun k r hr => ?_⟩
  have hk : k < qs.length := by rw [← hf]; exact (List.getElem?_eq_some_iff.1 hr).1
  obtain ⟨ds, hds1, hds2⟩ := h3 k k (List.getElem?_range hk)
  obtain ⟨ds', e1, e2, e3⟩ := rowOk k r hr
  rw [e1] at hds2
  obtain rfl := Option.some.inj hds2
  refine ⟨ds', hds1, e2, fun i g combo v hi hvi => ?_⟩
  obtain ⟨b, hb1, hb2⟩ := e3 i g combo hi
  obtain ⟨v', l, u, hv', hl, hu, hat⟩ := cell k r hr i g combo hi
  rw [hvi] at hv'
  obtain rfl := Option.some.inj hv'
  rw [hat] at hb2
  obtain rfl := Option.some.inj hb2
  exact ⟨l, u, _, hl, hu, hb1, deviation_is v l u⟩

/-- Two scenarios of two members, of which the two combinations (0, 1) and (1, 0) are run. -/
private def pair : Scens := ⟨[4, 5], ⟨[⟨2, none⟩, ⟨2, none⟩], some [[0, 1], [1, 0]]⟩, rfl, by decide⟩

/-- The curve, one percentile. -/
private def fdc : List (List Rat) := [[10, 10]]

example : (pair.coll.getCombinations.toOption.map fun combos => ((Dev.init [50] (some [[8, 20]]) (some [[9, 30]]) (some 5)).bind fun d => (d.setup (fun _ => 2) 2).bind fun d =>
    d.finish pair.objects combos fdc)) = some (some [[some (1 / 2), some (1 / 9)]]) := by decide +kernel

example : IsDeviation 10 (some 20) (some 30) (some (1 / 2)) := by
  have := deviation_is 10 (some 20) (some 30)
  rwa [show deviation 10 (some 20) (some 30) = some (1 / 2) by decide +kernel] at this

/-- **C75 fails (documents).** The `scenario` of a deviation recorder is read from the document but not used: the targets are assigned to the combinations in order, whatever the member (here
the two columns are exchanged) - or refused, if there are more combinations than members. -/
theorem C75_document_fails :
    (pair.coll.getCombinations.toOption.map fun combos => ((Dev.load pair.objects [50] (some [[8, 20]]) (some [[9, 30]]) (some 5)).bind fun d => (d.setup (fun _ => 2) 2).bind fun d =>
      d.finish pair.objects combos fdc)) = some (some [[some (1 / 9), some (1 / 2)]]) ∧
    (pair.coll.getCombinations.toOption.map fun combos => ((Dev.init [50] (some [[8, 20]]) (some [[9, 30]]) (some 5)).bind fun d => (d.setup (fun _ => 2) 2).bind fun d =>
      d.finish pair.objects combos fdc)) = some (some [[some (1 / 2), some (1 / 9)]]) ∧
    ((Dev.load pair.objects [50] (some [[8, 20]]) none (some 5)).bind fun d => (d.setup (fun _ => 2) 4).map fun _ => ()) = none ∧
    ((Dev.init [50] (some [[8, 20]]) none (some 5)).bind fun d => (d.setup (fun _ => 2) 4).map fun _ => ()) = some () := by decide +kernel

/-- Four flows in one scenario: the curve at 0, 50 and 100. -/
example : IsPercentile [3, 1, 2, 5] 50 (5 / 2) ∧ ∃ s c, (flowCurve 1 4 1 [0, 50, 100]).result ([3, 1, 2, 5].map fun q => ⟨[q], [9]⟩) none = some s ∧ s.fdc = some c ∧ c.length = 3 := by
  constructor
  · intro s hp hs k x hx
    obtain rfl := sorted_unique (s' := [1, 2, 3, 5]) (hp.trans (by decide)) hs (by decide +kernel)
    clear hp hs
    have hk : k < 4 := (List.getElem?_eq_some_iff.1 hx).1
    interval_cases k <;> obtain rfl := Option.some.inj hx <;> norm_num
  · obtain ⟨s, c, h1, h2, h3, -⟩ := C75_flow 1 4 1 (by omega) [0, 50, 100] (by decide +kernel) ([3, 1, 2, 5].map fun q => ⟨[q], [9]⟩) rfl none
    exact ⟨s, c, h1, h2, h3⟩

end Verif.DurationCurves

import Verif.Model.DoubleFlows
import Verif.Spec.DoubleFlows
import Verif.Proof.Doubles
/-! # Lemmas: flows of nodes as rounded sums -/

namespace Verif.Float64

/-- Rounded summation. -/
def rsum (v : Rat) (l : List Rat) : Rat := l.foldl (fun v q => fl (v + q)) v

theorem rsum_double (l : List Rat) {v : Rat} (hv : IsDouble v) : IsDouble (rsum v l) := by
  induction l generalizing v with
  | nil => exact hv
  | cons a l ih => exact ih (fl_double _)

theorem rsum_zeros (l : List Rat) {v : Rat} (hv : IsDouble v) : rsum v (l.filter fun q => decide (q ≠ 0)) = rsum v l := by
  induction l generalizing v with
  | nil => rfl
  | cons a l ih =>
    by_cases ha : a = 0
    · simp only [ha, ne_eq, not_true_eq_false, decide_false, Bool.false_eq_true, not_false_eq_true, List.filter_cons_of_neg]
      show _ = rsum (fl (v + 0)) l
      rw [add_zero, fl_self hv]
      exact ih hv
    · simp only [ne_eq, ha, not_false_eq_true, decide_true, List.filter_cons_of_pos]
      exact ih (fl_double _)

/-- The loop over a list of distinct nodes. -/
theorem loop_at (c : Nat × Nat → Prop) [DecidablePred c] (q : Rat) (n : Nat) (l : List (Nat × Nat)) (hl : (l.map (·.1)).Nodup) (a : Nat → Rat) :
    l.foldl (fun a p => if c p then addFlow a p.1 q else a) a n = if ∃ p ∈ l, p.1 = n ∧ c p then fl (a n + q) else a n := by
  induction l generalizing a with
  | nil => simp
  | cons p l ih =>
    simp only [List.map_cons, List.nodup_cons] at hl
    rw [List.foldl_cons, ih hl.2]
    have hno : p.1 = n → ¬ ∃ p' ∈ l, p'.1 = n ∧ c p' := by
      rintro e ⟨p', hp', e', -⟩
      exact hl.1 (e ▸ e' ▸ List.mem_map_of_mem hp')
    by_cases hc : c p
    · by_cases e : p.1 = n
      · rw [if_neg (hno e), if_pos hc, if_pos ⟨p, by simp, e, hc⟩]
        simp [addFlow, e]
      · rw [if_pos hc]
        have : addFlow a p.1 q n = a n := by unfold addFlow; rw [if_neg (Ne.symm e)]
        rw [this]
        apply if_congr _ rfl rfl
        simp [e]
    · rw [if_neg hc]
      apply if_congr _ rfl rfl
      simp [hc]

theorem routeLoop_at (isLink : Nat → Bool) (route : List Nat) (hr : route.Nodup) (q : Rat) (a : Nat → Rat) (n : Nat) :
    routeLoop isLink route q a n = if Passes isLink route n then fl (a n + q) else a n := by
  unfold routeLoop
  rw [loop_at (fun p => p.2 = 0 ∨ p.2 = route.length - 1 ∨ isLink p.1 = true) q n route.zipIdx (by simpa using hr)]
  apply if_congr _ rfl rfl
  unfold Passes
  rw [List.head?_eq_getElem?, List.getLast?_eq_getElem?]
  constructor
  · rintro ⟨⟨x, i⟩, hm, rfl, hc⟩
    rw [List.mem_zipIdx_iff_getElem?] at hm
    simp only at hm hc ⊢
    rcases hc with rfl | rfl | hc
    · exact Or.inl hm
    · exact Or.inr (Or.inl hm)
    · exact Or.inr (Or.inr ⟨hc, List.mem_of_getElem? hm⟩)
  · rintro (h | h | ⟨h, hm⟩)
    · exact ⟨(n, 0), List.mem_zipIdx_iff_getElem?.2 h, rfl, Or.inl rfl⟩
    · exact ⟨(n, route.length - 1), List.mem_zipIdx_iff_getElem?.2 h, rfl, Or.inr (Or.inl rfl)⟩
    · obtain ⟨i, hi⟩ := List.mem_iff_getElem?.1 hm
      exact ⟨(n, i), List.mem_zipIdx_iff_getElem?.2 hi, rfl, Or.inr (Or.inr h)⟩

private theorem routes_fold (isLink : Nat → Bool) (routes : List (List Nat × Rat)) (hr : ∀ r ∈ routes, r.1.Nodup) (n : Nat) (a : Nat → Rat) :
    routes.foldl (fun a r => if r.2 = 0 then a else routeLoop isLink r.1 r.2 a) a n = rsum (a n) ((through isLink routes n).filter fun q => decide (q ≠ 0)) := by
  induction routes generalizing a with
  | nil => rfl
  | cons r routes ih =>
    rw [List.foldl_cons, ih fun r' h => hr r' (by simp [h])]
    unfold through
    by_cases hp : Passes isLink r.1 n
    · by_cases h0 : r.2 = 0
      · simp [hp, h0]
      · rw [if_neg h0, routeLoop_at isLink r.1 (hr r (by simp)), if_pos hp]
        simp [hp, h0, rsum]
    · by_cases h0 : r.2 = 0
      · simp [hp, h0]
      · rw [if_neg h0, routeLoop_at isLink r.1 (hr r (by simp)), if_neg hp]
        simp [hp]

/-- The flow of a node is the rounded sum of the flows of its routes. -/
theorem routeFlows_eq (isLink : Nat → Bool) (routes : List (List Nat × Rat)) (hr : ∀ r ∈ routes, r.1.Nodup) (n : Nat) :
    committed (routeFlows isLink routes) n = rsum 0 (through isLink routes n) := by
  unfold committed routeFlows
  rw [routes_fold isLink routes hr, rsum_zeros _ isDouble_zero, zero_add, fl_self (rsum_double _ isDouble_zero)]

/-- Error of a rounded sum. -/
theorem rsum_err (l : List Rat) (hn : 2 * l.length + 5 ≤ 2 ^ 53) :
    |rsum 0 l - l.sum| ≤ (2 * l.length + 5) / 2 ^ 53 * flowSize l + 2 * l.length / 2 ^ 1075 := by
  obtain ⟨u, τ, eu, eτ, hu, hu1, hτ, -, hfl⟩ := rounding
  have hn' : (2 * (l.length : Rat) + 5) * u ≤ 1 := by
    have : 2 * (l.length : Rat) + 5 ≤ 2 ^ 53 := by exact_mod_cast hn
    rw [eu, mul_one_div]
    exact (div_le_one (by positivity)).2 this
  have := sum_err hu hu1 hτ (η := 0) le_rfl hfl (l.map fun q => (q, q)) (by
    intro p hp
    obtain ⟨q, -, rfl⟩ := List.mem_map.mp hp
    simp only [sub_self, abs_zero]
    positivity) (by simpa using hn')
  simp only [List.foldl_map, List.map_map, Function.comp_def, List.length_map, List.map_id'] at this
  unfold rsum flowSize
  refine this.trans (le_of_eq ?_)
  rw [div_eq_mul_one_div _ ((2 : Rat) ^ 53), div_eq_mul_one_div _ ((2 : Rat) ^ 1075), ← eu, ← eτ]
  ring

theorem rsum_mono {v w : Rat} (h : v ≤ w) (l : List Rat) : rsum v l ≤ rsum w l := by
  induction l generalizing v w with
  | nil => exact h
  | cons a l ih => exact ih (fl_mono (by linarith))

theorem rsum_ge (l : List Rat) (hl : ∀ q ∈ l, 0 ≤ q) {v : Rat} (hv : IsDouble v) : v ≤ rsum v l := by
  induction l generalizing v with
  | nil => exact le_rfl
  | cons a l ih =>
    refine le_trans ?_ (ih (fun q hq => hl q (by simp [hq])) (fl_double _))
    have := fl_mono (show v ≤ v + a by linarith [hl a (by simp)])
    rwa [fl_self hv] at this

theorem rsum_sublist {l k : List Rat} (h : l.Sublist k) (hk : ∀ q ∈ k, 0 ≤ q) {v w : Rat} (hvw : v ≤ w) (hw : IsDouble w) : rsum v l ≤ rsum w k := by
  induction h generalizing v w with
  | slnil => exact hvw
  | cons a _ ih =>
    refine ih (fun q hq => hk q (by simp [hq])) ?_ (fl_double _)
    have := fl_mono (show w ≤ w + a by linarith [hk a (by simp)])
    rw [fl_self hw] at this
    exact hvw.trans this
  | cons_cons a _ ih => exact ih (fun q hq => hk q (by simp [hq])) (fl_mono (by linarith)) (fl_double _)

theorem rsum_whole (l : List Rat) (hl : ∀ q ∈ l, ∃ k : Int, q = k) (hs : flowSize l ≤ 2 ^ 53) : rsum 0 l = l.sum := by
  have key : ∀ (l : List Rat) (v : Int), (∀ q ∈ l, ∃ k : Int, q = k) → |(v : Rat)| + flowSize l ≤ 2 ^ 53 → rsum v l = v + l.sum := by
    intro l
    induction l with
    | nil => intro v _ _; simp [rsum]
    | cons a l ih =>
      intro v hl hs
      obtain ⟨k, rfl⟩ := hl a (by simp)
      unfold flowSize at hs
      simp only [List.map_cons, List.sum_cons] at hs ⊢
      have hA : 0 ≤ flowSize l := by
        apply List.sum_nonneg
        intro a ha
        obtain ⟨q, -, rfl⟩ := List.mem_map.mp ha
        exact abs_nonneg _
      have hA' : 0 ≤ (l.map fun q => |q|).sum := hA
      have ht := abs_add_le (v : Rat) (k : Rat)
      have e : fl ((v : Rat) + k) = ((v + k : Int) : Rat) := by
        rw [← Int.cast_add]
        apply fl_int
        have : |(v : Rat) + k| ≤ 2 ^ 53 := by linarith
        exact_mod_cast this
      show rsum (fl ((v : Rat) + k)) l = _
      rw [e, ih (v + k) (fun q hq => hl q (by simp [hq])) (by push_cast; unfold flowSize; linarith)]
      push_cast
      ring
  have := key l 0 hl (by simpa using hs)
  simpa using this

/-- What the edges contribute to a node, in the order of the edges: the exact share and the rounded one. -/
def parts (isLink : Nat → Bool) (edges : List ((Nat × Nat) × Rat)) (n : Nat) : List (Rat × Rat) :=
  edges.flatMap fun e => (if e.1.1 = n then [(if isLink n then e.2 / 2 else e.2, share isLink n e.2)] else []) ++
    (if e.1.2 = n then [(if isLink n then e.2 / 2 else e.2, share isLink n e.2)] else [])

private theorem share_zero (isLink : Nat → Bool) (n : Nat) : share isLink n 0 = 0 := by unfold share; split <;> simp

private theorem edges_fold (isLink : Nat → Bool) (edges : List ((Nat × Nat) × Rat)) (n : Nat) (a : Nat → Rat) (ha : IsDouble (a n)) :
    edges.foldl (fun a e => if e.2 = 0 then a
      else
        let a := addFlow a e.1.1 (share isLink e.1.1 e.2)
        addFlow a e.1.2 (share isLink e.1.2 e.2)) a n = rsum (a n) ((parts isLink edges n).map (·.2)) := by
  induction edges generalizing a with
  | nil => rfl
  | cons e edges ih =>
    obtain ⟨⟨x, y⟩, q⟩ := e
    by_cases hq : q = 0
    · subst hq
      rw [List.foldl_cons, ih _ (by simpa using ha)]
      unfold parts
      by_cases hx : x = n <;> by_cases hy : y = n <;> simp [hx, hy, share_zero, rsum, fl_self ha]
    · by_cases hx : x = n <;> by_cases hy : y = n
      · subst hx; subst hy
        rw [List.foldl_cons, ih _ (by simp [hq, addFlow, fl_double])]
        simp [parts, hq, addFlow, rsum]
      · subst hx
        rw [List.foldl_cons, ih _ (by simp [hq, addFlow, fl_double, Ne.symm hy])]
        simp [parts, hq, hy, Ne.symm hy, addFlow, rsum]
      · subst hy
        rw [List.foldl_cons, ih _ (by simp [hq, addFlow, fl_double])]
        simp [parts, hq, hx, Ne.symm hx, addFlow, rsum]
      · rw [List.foldl_cons, ih _ (by simp [hq, addFlow, ha, Ne.symm hx, Ne.symm hy])]
        simp [parts, hq, hx, hy, Ne.symm hx, Ne.symm hy, addFlow, rsum]

theorem edgeFlows_eq (isLink : Nat → Bool) (edges : List ((Nat × Nat) × Rat)) (n : Nat) :
    committed (edgeFlows isLink edges) n = rsum 0 ((parts isLink edges n).map (·.2)) := by
  unfold committed edgeFlows
  rw [edges_fold isLink edges n (fun _ => 0) isDouble_zero, zero_add, fl_self (rsum_double _ isDouble_zero)]

theorem parts_length (isLink : Nat → Bool) (edges : List ((Nat × Nat) × Rat)) (n : Nat) : (parts isLink edges n).length = (into edges n).length + (outOf edges n).length := by
  induction edges with
  | nil => rfl
  | cons e edges ih =>
    unfold parts into outOf at *
    by_cases hx : e.1.1 = n <;> by_cases hy : e.1.2 = n <;> simp_all <;> omega

/-- Exact sums of the parts. -/
theorem parts_sum (isLink : Nat → Bool) (edges : List ((Nat × Nat) × Rat)) (n : Nat) (f : Rat → Rat) (hf : ∀ q, f (q / 2) = f q / 2) :
    ((parts isLink edges n).map fun p => f p.1).sum = if isLink n then (((into edges n).map f).sum + ((outOf edges n).map f).sum) / 2 else ((into edges n).map f).sum + ((outOf edges n).map f).sum := by
  induction edges with
  | nil => simp [parts, into, outOf]
  | cons e edges ih =>
    have ep : parts isLink (e :: edges) n = ((if e.1.1 = n then [(if isLink n then e.2 / 2 else e.2, share isLink n e.2)] else []) ++
        (if e.1.2 = n then [(if isLink n then e.2 / 2 else e.2, share isLink n e.2)] else [])) ++ parts isLink edges n := rfl
    rw [ep, List.map_append, List.sum_append, ih]
    unfold into outOf
    by_cases hx : e.1.1 = n <;> by_cases hy : e.1.2 = n <;> cases isLink n <;> simp [hx, hy, hf] <;> ring

theorem parts_err (isLink : Nat → Bool) (edges : List ((Nat × Nat) × Rat)) (n : Nat) {u τ : Rat} (hu : 0 < u) (hτ : 0 < τ) (hfl : ∀ x, |fl x - x| ≤ u * |x| + τ) :
    ∀ p ∈ parts isLink edges n, |p.2 - p.1| ≤ 3 * u * |p.1| + τ := by
  intro p hp
  unfold parts at hp
  rw [List.mem_flatMap] at hp
  obtain ⟨e, -, hp⟩ := hp
  have hp' : p = (if isLink n then e.2 / 2 else e.2, share isLink n e.2) := by
    rcases List.mem_append.1 hp with h | h <;> · split at h <;> simp_all
  subst hp'
  unfold share
  cases isLink n
  · simp only [Bool.false_eq_true, if_false, sub_self, abs_zero]
    positivity
  · simp only [if_true]
    have := hfl (e.2 / 2)
    have h0 : 0 ≤ u * |e.2 / 2| := by positivity
    linarith

end Verif.Float64

import Verif.Model.Doubles
import Verif.Proof.Float64Storage
/-! # Lemmas: sums and interpolation in double precision -/

namespace Verif.Float64

open Verif.Bounds Verif.Storage

/-- The unit roundoff and half of the smallest double, as numbers that tactics do not evaluate. -/
theorem rounding : ∃ u τ : Rat, u = 1 / 2 ^ 53 ∧ τ = 1 / 2 ^ 1075 ∧ 0 < u ∧ u ≤ 1 / 1000 ∧ 0 < τ ∧ τ ≤ u / 1000 ∧ ∀ x, |fl x - x| ≤ u * |x| + τ := by
  refine ⟨1 / 2 ^ 53, 1 / 2 ^ 1075, rfl, rfl, by positivity, by norm_num, by positivity, by decide +kernel, fun x => ?_⟩
  have := fl_err x
  rw [div_eq_mul_one_div, mul_comm] at this
  exact this

/-- Rounded summation of terms each with a small error. -/
theorem sum_err {u τ η : Rat} (hu : 0 < u) (hu1 : u ≤ 1 / 1000) (hτ : 0 < τ) (hη : 0 ≤ η) (hfl : ∀ x, |fl x - x| ≤ u * |x| + τ) (l : List (Rat × Rat))
    (h : ∀ p ∈ l, |p.2 - p.1| ≤ 3 * u * |p.1| + η) (hn : (2 * l.length + 5) * u ≤ 1) :
    |l.foldl (fun v p => fl (v + p.2)) 0 - (l.map (·.1)).sum| ≤ (2 * l.length + 5) * u * (l.map fun p => |p.1|).sum + l.length * (3 * η + 2 * τ) := by
  induction l using List.reverseRecOn with
  | nil => simp
  | append_singleton l p ih =>
    simp only [List.length_append, List.length_singleton] at hn
    push_cast at hn
    have ih' := ih (fun q hq => h q (by simp [hq])) (by nlinarith)
    have hp := h p (by simp)
    simp only [List.foldl_append, List.foldl_cons, List.foldl_nil, List.map_append, List.map_cons, List.map_nil, List.sum_append, List.sum_cons, List.sum_nil, add_zero, List.length_append,
      List.length_singleton]
    push_cast
    have hA : 0 ≤ (l.map fun p => |p.1|).sum := by
      apply List.sum_nonneg
      intro a ha
      obtain ⟨q, -, rfl⟩ := List.mem_map.mp ha
      exact abs_nonneg _
    have hle : |(l.map (·.1)).sum| ≤ (l.map fun p => |p.1|).sum := by
      have : ∀ k : List (Rat × Rat), |(k.map (·.1)).sum| ≤ (k.map fun p => |p.1|).sum := by
        intro k
        induction k with
        | nil => simp
        | cons a k ih =>
          simp only [List.map_cons, List.sum_cons]
          exact (abs_add_le _ _).trans (by linarith)
      exact this l
    generalize l.foldl (fun v p => fl (v + p.2)) 0 = s at *
    generalize (l.map (·.1)).sum = X at *
    generalize (l.map fun p => |p.1|).sum = A at *
    have hn0 : (0 : Rat) ≤ (l.length : Rat) := by positivity
    generalize (l.length : Rat) = n at *
    obtain ⟨x, y⟩ := p
    simp only at *
    have hf := hfl (s + y)
    have h1 : |s| ≤ |s - X| + |X| := by have := abs_add_le (s - X) X; simpa using this
    have h2 : |y| ≤ |y - x| + |x| := by have := abs_add_le (y - x) x; simpa using this
    have h3 : |s + y| ≤ |s| + |y| := abs_add_le _ _
    have h4 : |fl (s + y) - (X + x)| ≤ |fl (s + y) - (s + y)| + |s - X| + |y - x| := by
      have e : fl (s + y) - (X + x) = (fl (s + y) - (s + y)) + (s - X) + (y - x) := by ring
      rw [e]
      exact (abs_add_le _ _).trans (by linarith [abs_add_le (fl (s + y) - (s + y)) (s - X)])
    have hx := abs_nonneg x
    have k1 : u * ((2 * n + 5) * u * A) ≤ u * A := by
      have : (2 * n + 5) * u * A ≤ 1 * A := by
        apply mul_le_mul_of_nonneg_right _ hA
        linarith
      nlinarith
    have k2 : u * (n * (3 * η + 2 * τ)) ≤ (3 * η + 2 * τ) / 2 := by
      have : n * u ≤ 1 / 2 := by nlinarith
      have h0 : 0 ≤ 3 * η + 2 * τ := by linarith
      nlinarith
    have k3 : u * |s + y| ≤ u * (A + ((2 * n + 5) * u * A + n * (3 * η + 2 * τ)) + (3 * u * |x| + η) + |x|) := by
      apply mul_le_mul_of_nonneg_left _ hu.le
      linarith
    have k4 : u * (3 * u * |x|) ≤ u * |x| := by
      have : 3 * u * |x| ≤ 1 * |x| := by
        apply mul_le_mul_of_nonneg_right _ hx
        linarith
      nlinarith
    have k5 : u * η ≤ η / 1000 := by nlinarith
    have k6 : 0 ≤ n * (u * |x|) := by positivity
    have k7 : 0 ≤ u * |x| := by positivity
    nlinarith

/-- A product of a flow, a factor and a number of days. -/
theorem term_err {u τ : Rat} (hu : 0 < u) (hu1 : u ≤ 1 / 1000) (hτ : 0 < τ) (hfl : ∀ x, |fl x - x| ≤ u * |x| + τ) (a x d D : Rat) (ha : |a - x| ≤ u * |x| + τ) (hd : |d| ≤ D) :
    |fl (a * d) - x * d| ≤ 3 * u * |x * d| + (2 * D + 1) * τ := by
  have h1 := hfl (a * d)
  have h2 : |a * d - x * d| = |a - x| * |d| := by rw [← sub_mul, abs_mul]
  have h3 : |a * d| ≤ |a * d - x * d| + |x * d| := by have := abs_add_le (a * d - x * d) (x * d); simpa using this
  have h4 : |fl (a * d) - x * d| ≤ |fl (a * d) - a * d| + |a * d - x * d| := by
    have := abs_add_le (fl (a * d) - a * d) (a * d - x * d)
    simpa using this
  have hd0 := abs_nonneg d
  have h5 : |a - x| * |d| ≤ (u * |x| + τ) * |d| := mul_le_mul_of_nonneg_right ha hd0
  have e : |x * d| = |x| * |d| := abs_mul x d
  rw [e] at h3 ⊢
  rw [h2] at h3 h4
  have h6 : τ * |d| ≤ τ * D := mul_le_mul_of_nonneg_left hd hτ.le
  have h7 : u * |a * d| ≤ u * ((u * |x| + τ) * |d| + |x| * |d|) := mul_le_mul_of_nonneg_left (by linarith) hu.le
  have hP : 0 ≤ |x| * |d| := by positivity
  have h8 : u * (u * (|x| * |d|)) ≤ u * (|x| * |d|) / 1000 := by
    have : u * (u * (|x| * |d|)) ≤ (1 / 1000) * (u * (|x| * |d|)) := mul_le_mul_of_nonneg_right hu1 (by positivity)
    linarith
  have h9 : u * (τ * |d|) ≤ τ * D / 1000 := by
    have : u * (τ * |d|) ≤ (1 / 1000) * (τ * D) := mul_le_mul hu1 h6 (by positivity) (by norm_num)
    linarith
  have h10 : 0 ≤ u * (|x| * |d|) := by positivity
  have h11 : 0 ≤ τ * D := by have : 0 ≤ D := hd0.trans hd; positivity
  nlinarith

/-- Different doubles differ by at least the smallest double. -/
theorem double_gap {x y : Rat} (hx : IsDouble x) (hy : IsDouble y) (hlt : y < x) : (2 : Rat) ^ (-1074 : Int) ≤ x - y := by
  obtain ⟨m, e, -, he, rfl⟩ := hx
  obtain ⟨n, f, -, hf, rfl⟩ := hy
  obtain ⟨a, ha⟩ : ∃ a : Nat, e = a + -1074 := ⟨(e + 1074).toNat, by omega⟩
  obtain ⟨b, hb⟩ : ∃ b : Nat, f = b + -1074 := ⟨(f + 1074).toNat, by omega⟩
  have h2 : (0 : Rat) < (2 : Rat) ^ (-1074 : Int) := zpow_pos (by norm_num) _
  have e1 : (m : Rat) * (2 : Rat) ^ e - n * (2 : Rat) ^ f = ((m * 2 ^ a - n * 2 ^ b : Int) : Rat) * (2 : Rat) ^ (-1074 : Int) := by
    rw [ha, hb, zpow_add₀ (by norm_num), zpow_add₀ (by norm_num), zpow_natCast, zpow_natCast]
    generalize (2 : Rat) ^ (-1074 : Int) = t
    push_cast
    ring
  have hpos : (0 : Rat) < ((m * 2 ^ a - n * 2 ^ b : Int) : Rat) * (2 : Rat) ^ (-1074 : Int) := by rw [← e1]; linarith
  have hk : (0 : Int) < m * 2 ^ a - n * 2 ^ b := by
    by_contra hc
    have : ((m * 2 ^ a - n * 2 ^ b : Int) : Rat) ≤ 0 := by exact_mod_cast not_lt.mp hc
    exact absurd hpos (not_lt.mpr (mul_nonpos_of_nonpos_of_nonneg this h2.le))
  rw [e1]
  calc (2 : Rat) ^ (-1074 : Int) = (1 : Rat) * (2 : Rat) ^ (-1074 : Int) := (one_mul _).symm
    _ ≤ _ := by
      apply mul_le_mul_of_nonneg_right _ h2.le
      exact_mod_cast hk

/-- A difference of doubles is rounded to zero only if they are equal. -/
theorem fl_sub_zero {x y : Rat} (hx : IsDouble x) (hy : IsDouble y) (h : fl (x - y) = 0) : x = y := by
  have h2 : (0 : Rat) < (2 : Rat) ^ (-1074 : Int) := zpow_pos (by norm_num) _
  rcases lt_trichotomy x y with hlt | he | hlt
  · exfalso
    have h1 := double_gap hy hx hlt
    have h3 := fl_mono (show x - y ≤ -(2 : Rat) ^ (-1074 : Int) by linarith)
    rw [h, fl_self ⟨-1, -1074, by norm_num, by decide, by push_cast; rw [neg_one_mul]⟩] at h3
    linarith
  · exact he
  · exfalso
    have h3 := fl_mono (double_gap hx hy hlt)
    rw [h, fl_self ⟨1, -1074, by norm_num, by decide, by push_cast; rw [one_mul]⟩] at h3
    linarith

/-- The difference of two doubles has a small relative error, however small it is. -/
theorem fl_sub_err {u : Rat} (hu : u = 1 / 2 ^ 53) {x y : Rat} (hx : IsDouble x) (hy : IsDouble y) : |fl (x - y) - (x - y)| ≤ 2 * u * |x - y| := by
  have herr := fl_err (x - y)
  obtain ⟨m, e, -, he, rfl⟩ := hx
  obtain ⟨n, f, -, hf, rfl⟩ := hy
  obtain ⟨a, ha⟩ : ∃ a : Nat, e = a + -1074 := ⟨(e + 1074).toNat, by omega⟩
  obtain ⟨b, hb⟩ : ∃ b : Nat, f = b + -1074 := ⟨(f + 1074).toNat, by omega⟩
  have e1 : (m : Rat) * (2 : Rat) ^ e - n * (2 : Rat) ^ f = ((m * 2 ^ a - n * 2 ^ b : Int) : Rat) * (2 : Rat) ^ (-1074 : Int) := by
    rw [ha, hb, zpow_add₀ (by norm_num), zpow_add₀ (by norm_num), zpow_natCast, zpow_natCast]
    generalize (2 : Rat) ^ (-1074 : Int) = t
    push_cast
    ring
  rw [e1] at herr ⊢
  generalize m * 2 ^ a - n * 2 ^ b = k at *
  have h2 : (0 : Rat) < (2 : Rat) ^ (-1074 : Int) := zpow_pos (by norm_num) _
  have hu0 : 0 ≤ u := by rw [hu]; positivity
  by_cases hk : |k| < 2 ^ 53
  · rw [fl_self ⟨k, -1074, hk, by decide, rfl⟩, sub_self, abs_zero]
    positivity
  · refine herr.trans ?_
    have hk1 : (2 : Rat) ^ 53 ≤ |(k : Rat)| := by exact_mod_cast not_lt.mp hk
    rw [abs_mul, abs_of_pos h2]
    have ht : (1 : Rat) / 2 ^ 1075 ≤ u * (2 ^ 53 * (2 : Rat) ^ (-1074 : Int)) := by rw [hu]; decide +kernel
    generalize (2 : Rat) ^ (-1074 : Int) = t at *
    generalize (1 : Rat) / 2 ^ 1075 = τ at *
    have h3 : u * (2 ^ 53 * t) ≤ u * (|(k : Rat)| * t) := mul_le_mul_of_nonneg_left (mul_le_mul_of_nonneg_right hk1 h2.le) hu0
    rw [div_eq_mul_one_div, ← hu]
    linarith

/-- The error of a weight. -/
theorem weight_err {u τ : Rat} (hu : 0 < u) (hu1 : u ≤ 1 / 1000) (hfl : ∀ x, |fl x - x| ≤ u * |x| + τ) {N D N' D' : Rat} (h0 : 0 ≤ N) (h1 : N ≤ D) (h2 : 0 < D) (h0' : 0 ≤ N') (h1' : N' ≤ D') (h2' : 0 < D')
    (hN : |N' - N| ≤ 2 * u * N) (hD : |D' - D| ≤ 2 * u * D) : |fl (N' / D') - N / D| ≤ 6 * u + τ := by
  have a := hfl (N' / D')
  have b : |N' / D'| ≤ 1 := by rw [abs_of_nonneg (by positivity)]; exact (div_le_one h2').2 h1'
  have c : |N' / D' - N / D| ≤ 5 * u := by
    have e : N' / D' - N / D = ((N' - N) * D + N * (D - D')) / (D * D') := by field_simp; ring
    rw [e, abs_div, abs_of_pos (show 0 < D * D' by positivity), div_le_iff₀ (by positivity)]
    have i1 : |(N' - N) * D + N * (D - D')| ≤ 2 * u * N * D + N * (2 * u * D) := by
      refine (abs_add_le _ _).trans ?_
      rw [abs_mul, abs_mul, abs_of_pos h2, abs_of_nonneg h0, abs_sub_comm D D']
      exact add_le_add (mul_le_mul_of_nonneg_right hN h2.le) (mul_le_mul_of_nonneg_left hD h0)
    have i2 : D * (1 - 2 * u) ≤ D' := by rw [abs_le] at hD; linarith [hD.1]
    have i3 : N * (u * D) ≤ D * (u * D) := mul_le_mul_of_nonneg_right h1 (by positivity)
    have i4 : 5 * u * (D * (D * (1 - 2 * u))) ≤ 5 * u * (D * D') := by
      apply mul_le_mul_of_nonneg_left _ (by positivity)
      exact mul_le_mul_of_nonneg_left i2 h2.le
    have i5 : u * (u * (D * D)) ≤ 1 / 1000 * (u * (D * D)) := mul_le_mul_of_nonneg_right hu1 (by positivity)
    have i6 : 0 ≤ u * (D * D) := by positivity
    linarith
  have d := abs_add_le (fl (N' / D') - N' / D') (N' / D' - N / D)
  simp only [sub_add_sub_cancel] at d
  have e : u * |N' / D'| ≤ u := by nlinarith
  linarith

end Verif.Float64

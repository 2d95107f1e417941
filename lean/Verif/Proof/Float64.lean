import Verif.Spec.Float64
import Mathlib.Data.Nat.Log
import Mathlib.Data.Rat.Floor
import Mathlib.Algebra.Order.Floor.Ring
import Mathlib.Tactic.Linarith
import Mathlib.Tactic.NormNum
import Mathlib.Tactic.Ring
import Mathlib.Tactic.FieldSimp
import Mathlib.Tactic.Positivity
/-! # Rounding to doubles -/

namespace Verif.Float64

theorem pow2_eq (e : Int) : pow2 e = (2 : Rat) ^ e := by
  unfold pow2
  split
  · rename_i h
    obtain ⟨n, rfl⟩ := Int.eq_ofNat_of_zero_le h
    simp
  · rename_i h
    obtain ⟨n, hn⟩ := Int.eq_ofNat_of_zero_le (show 0 ≤ -e by omega)
    have : e = -(n : Int) := by omega
    subst this
    simp

theorem pow2_pos (e : Int) : 0 < (2 : Rat) ^ e := zpow_pos (by norm_num) e

theorem expo_spec {x : Rat} (hx : x ≠ 0) : (2 : Rat) ^ expo x ≤ |x| ∧ |x| < (2 : Rat) ^ (expo x + 1) := by
  have hn : x.num.natAbs ≠ 0 := by simpa using hx
  have hd : x.den ≠ 0 := x.den_nz
  have a1 : 2 ^ Nat.log2 x.num.natAbs ≤ x.num.natAbs := Nat.log2_self_le hn
  have a2 : x.num.natAbs < 2 ^ (Nat.log2 x.num.natAbs + 1) := Nat.lt_log2_self
  have b1 : 2 ^ Nat.log2 x.den ≤ x.den := Nat.log2_self_le hd
  have b2 : x.den < 2 ^ (Nat.log2 x.den + 1) := Nat.lt_log2_self
  have habs : |x| = (x.num.natAbs : Rat) / x.den := by
    conv_lhs => rw [← Rat.num_div_den x]
    rw [abs_div, Nat.abs_cast]
    congr 1
    rw [Nat.cast_natAbs, Int.cast_abs]
  generalize hA : Nat.log2 x.num.natAbs = a at *
  generalize hB : Nat.log2 x.den = b at *
  have dpos : (0 : Rat) < x.den := by exact_mod_cast Nat.pos_of_ne_zero hd
  have c1 : ((2 : Rat) ^ a) ≤ x.num.natAbs := by exact_mod_cast a1
  have c2 : (x.num.natAbs : Rat) < (2 : Rat) ^ (a + 1) := by exact_mod_cast a2
  have d1 : ((2 : Rat) ^ b) ≤ x.den := by exact_mod_cast b1
  have d2 : (x.den : Rat) < (2 : Rat) ^ (b + 1) := by exact_mod_cast b2
  have e1 : (2 : Rat) ^ ((a : Int) - b) = 2 ^ a / 2 ^ b := by rw [zpow_sub₀ (by norm_num), zpow_natCast, zpow_natCast]
  have up : |x| < (2 : Rat) ^ ((a : Int) - b + 1) := by
    rw [zpow_add₀ (by norm_num), e1, habs, zpow_one, div_lt_iff₀ dpos]
    have hb0 : (0 : Rat) < 2 ^ b := by positivity
    calc (x.num.natAbs : Rat) < 2 ^ (a + 1) := c2
      _ = 2 ^ a / 2 ^ b * 2 * 2 ^ b := by field_simp; ring
      _ ≤ 2 ^ a / 2 ^ b * 2 * x.den := by gcongr
  have lo : (2 : Rat) ^ ((a : Int) - b - 1) ≤ |x| := by
    rw [zpow_sub₀ (by norm_num), e1, habs, zpow_one, le_div_iff₀ dpos]
    have hb0 : (0 : Rat) < 2 ^ b := by positivity
    calc (2 : Rat) ^ a / 2 ^ b / 2 * x.den ≤ 2 ^ a / 2 ^ b / 2 * 2 ^ (b + 1) := by gcongr
      _ = 2 ^ a := by field_simp; ring
      _ ≤ x.num.natAbs := c1
  unfold expo
  simp only [hA, hB, pow2_eq]
  split
  · rename_i h; exact ⟨h, up⟩
  · rename_i h
    refine ⟨lo, ?_⟩
    rw [sub_add_cancel]
    exact not_le.1 h

theorem floor_le' (r : Rat) : (r.floor : Rat) ≤ r ∧ r < r.floor + 1 := by
  have e : r.floor = ⌊r⌋ := rfl
  rw [e]
  exact ⟨Int.floor_le r, Int.lt_floor_add_one r⟩

/-- The rounded number is the floor or the next, the nearer one; the even one of two. -/
theorem roundEven_cases (r : Rat) : (roundEven r = r.floor ∧ r - r.floor ≤ 1 / 2 ∧ (r - r.floor = 1 / 2 → 2 ∣ r.floor)) ∨
    (roundEven r = r.floor + 1 ∧ 1 / 2 ≤ r - r.floor ∧ (r - r.floor = 1 / 2 → 2 ∣ r.floor + 1)) := by
  unfold roundEven
  simp only
  split_ifs with h1 h2 h3
  · exact .inl ⟨rfl, h1.le, fun h => by linarith⟩
  · exact .inr ⟨rfl, h2.le, fun h => by linarith⟩
  · exact .inl ⟨rfl, not_lt.1 h2, fun _ => Int.dvd_of_emod_eq_zero h3⟩
  · exact .inr ⟨rfl, not_lt.1 h1, fun _ => by omega⟩

theorem roundEven_half (r : Rat) : |(roundEven r : Rat) - r| ≤ 1 / 2 := by
  have := floor_le' r
  rcases roundEven_cases r with ⟨h, h1, -⟩ | ⟨h, h1, -⟩
  · rw [h, abs_le]; constructor <;> linarith
  · rw [h, abs_le]; push_cast; constructor <;> linarith

theorem roundEven_nearest (r : Rat) (m : Int) : |(roundEven r : Rat) - r| ≤ |(m : Rat) - r| := by
  by_cases hm : m = roundEven r
  · rw [hm]
  · have h := roundEven_half r
    have h2 : (1 : Rat) ≤ |(m : Rat) - roundEven r| := by
      have : (1 : Int) ≤ |m - roundEven r| := Int.one_le_abs (sub_ne_zero.2 hm)
      exact_mod_cast this
    have h3 : |(m : Rat) - roundEven r| ≤ |(m : Rat) - r| + |(roundEven r : Rat) - r| := by
      have := abs_sub ((m : Rat) - r) ((roundEven r : Rat) - r)
      simpa using this
    linarith

theorem roundEven_int (m : Int) : roundEven (m : Rat) = m := by
  have h := roundEven_nearest (m : Rat) m
  simp only [sub_self, abs_zero] at h
  have : (roundEven (m : Rat) : Rat) - m = 0 := abs_eq_zero.1 (le_antisymm h (abs_nonneg _))
  exact_mod_cast sub_eq_zero.1 this

theorem unit_eq (x : Rat) : unit x = (2 : Rat) ^ max (expo x - 52) (-1074) := pow2_eq _

theorem unit_pos (x : Rat) : 0 < unit x := by rw [unit_eq]; exact pow2_pos _

theorem fl_eq {x : Rat} (hx : x ≠ 0) : fl x = roundEven (x / unit x) * unit x := by unfold fl; rw [if_neg hx]

@[simp] theorem fl_zero : fl 0 = 0 := by unfold fl; simp

theorem abs_scale {q r : Rat} (hq : 0 < q) (n : Int) (x : Rat) (hr : r = x / q) : |(n : Rat) * q - x| = |(n : Rat) - r| * q := by
  have : (n : Rat) * q - x = (n - r) * q := by rw [hr]; field_simp
  rw [this, abs_mul, abs_of_pos hq]

/-- Half of the distance of neighbouring doubles. -/
theorem fl_half (x : Rat) (hx : x ≠ 0) : |fl x - x| ≤ unit x / 2 := by
  rw [fl_eq hx, abs_scale (unit_pos x) _ x rfl]
  have := mul_le_mul_of_nonneg_right (roundEven_half (x / unit x)) (unit_pos x).le
  linarith

private theorem half_pow (n : Nat) : (2 : Rat) ^ (-(n : Int)) / 2 = 1 / 2 ^ (n + 1) := by
  rw [zpow_neg, zpow_natCast, pow_succ, one_div, mul_inv, div_eq_mul_inv]

theorem fl_err (x : Rat) : |fl x - x| ≤ |x| / 2 ^ 53 + 1 / 2 ^ 1075 := by
  by_cases hx : x = 0
  · subst hx; simp
  · have h := fl_half x hx
    rw [unit_eq] at h
    have e0 := (expo_spec hx).1
    rcases le_total (expo x - 52) (-1074) with hc | hc
    · rw [max_eq_right hc] at h
      have : (2 : Rat) ^ (-1074 : Int) / 2 = 1 / 2 ^ 1075 := half_pow 1074
      rw [this] at h
      have : 0 ≤ |x| / 2 ^ 53 := by positivity
      linarith
    · rw [max_eq_left hc, zpow_sub₀ (by norm_num)] at h
      have h2 : (2 : Rat) ^ expo x / (2 : Rat) ^ (52 : Int) / 2 = (2 : Rat) ^ expo x / 2 ^ 53 := by
        have : (2 : Rat) ^ (52 : Int) = 2 ^ 52 := by norm_cast
        rw [this]; ring
      rw [h2] at h
      have h3 : (2 : Rat) ^ expo x / 2 ^ 53 ≤ |x| / 2 ^ 53 := by gcongr
      have : (0 : Rat) < 1 / 2 ^ 1075 := one_div_pos.2 (pow_pos (by norm_num) _)
      linarith

/-- No double is nearer. -/
theorem fl_nearest (x y : Rat) (hy : IsDouble y) : |fl x - x| ≤ |y - x| := by
  by_cases hx : x = 0
  · subst hx; simp
  · obtain ⟨m, e, hm, he, rfl⟩ := hy
    have grid : ∀ n : Int, |fl x - x| ≤ |(n : Rat) * unit x - x| := by
      intro n
      rw [fl_eq hx, abs_scale (unit_pos x) _ x rfl, abs_scale (unit_pos x) _ x rfl]
      exact mul_le_mul_of_nonneg_right (roundEven_nearest _ _) (unit_pos x).le
    rcases le_or_gt (max (expo x - 52) (-1074)) e with hc | hc
    · obtain ⟨k, hk⟩ := Int.eq_ofNat_of_zero_le (sub_nonneg.2 hc)
      have := grid (m * 2 ^ k)
      have e2 : ((m * 2 ^ k : Int) : Rat) * unit x = m * (2 : Rat) ^ e := by
        rw [unit_eq]
        have : e = k + max (expo x - 52) (-1074) := by omega
        conv_rhs => rw [this, zpow_add₀ (by norm_num), zpow_natCast]
        push_cast
        ring
      rwa [e2] at this
    · have hmx : max (expo x - 52) (-1074) = expo x - 52 := by omega
      have hu : unit x * 2 ^ 52 = (2 : Rat) ^ expo x := by
        rw [unit_eq, hmx, zpow_sub₀ (by norm_num)]
        have : (2 : Rat) ^ (52 : Int) = 2 ^ 52 := by norm_cast
        rw [this]; field_simp
      have hlow : |(m : Rat) * (2 : Rat) ^ e| ≤ (2 : Rat) ^ expo x := by
        rw [abs_mul, abs_of_pos (pow2_pos e)]
        have h1 : |(m : Rat)| ≤ 2 ^ 53 := by
          have : |m| ≤ 2 ^ 53 := hm.le
          exact_mod_cast this
        have h2 : (2 : Rat) ^ e ≤ (2 : Rat) ^ (expo x - 53) := zpow_le_zpow_right₀ (by norm_num) (by omega)
        have h3 : (2 : Rat) ^ (expo x - 53) * 2 ^ 53 = (2 : Rat) ^ expo x := by
          rw [zpow_sub₀ (by norm_num)]
          have : (2 : Rat) ^ (53 : Int) = 2 ^ 53 := by norm_cast
          rw [this]; field_simp
        calc |(m : Rat)| * (2 : Rat) ^ e ≤ 2 ^ 53 * (2 : Rat) ^ (expo x - 53) := mul_le_mul h1 h2 (pow2_pos e).le (by positivity)
          _ = (2 : Rat) ^ expo x := by rw [mul_comm]; exact h3
      have e0 := (expo_spec hx).1
      rcases lt_or_gt_of_ne hx with hneg | hpos
      · have := grid (-2 ^ 52)
        rw [show ((-2 ^ 52 : Int) : Rat) * unit x = -(2 : Rat) ^ expo x by rw [← hu]; push_cast; ring] at this
        rw [abs_of_neg hneg] at e0
        rw [abs_of_nonneg (show 0 ≤ -(2 : Rat) ^ expo x - x by linarith)] at this
        refine this.trans ?_
        rw [abs_le] at hlow
        exact le_trans (by linarith) (le_abs_self _)
      · have := grid (2 ^ 52)
        rw [show ((2 ^ 52 : Int) : Rat) * unit x = (2 : Rat) ^ expo x by rw [← hu]; push_cast; ring] at this
        rw [abs_of_pos hpos] at e0
        rw [abs_of_nonpos (show (2 : Rat) ^ expo x - x ≤ 0 by linarith)] at this
        refine this.trans ?_
        rw [abs_le] at hlow
        exact le_trans (by linarith) (neg_le_abs _)

/-- If another double is as near, the two are neighbours and the one chosen is an even multiple of their distance. -/
theorem fl_tie (x y : Rat) (hy : IsDouble y) (hne : y ≠ fl x) (h : |y - x| = |fl x - x|) :
    ∃ m e : Int, 2 ∣ m ∧ fl x = m * (2 : Rat) ^ e ∧ |y - fl x| = (2 : Rat) ^ e := by
  by_cases hx : x = 0
  · subst hx
    rw [fl_zero] at h hne
    simp only [sub_zero, abs_zero, abs_eq_zero] at h
    exact absurd h hne
  have hop : y - x = -(fl x - x) := by
    rcases abs_eq_abs.1 h with h | h
    · exact absurd (by linarith) hne
    · exact h
  have up := unit_pos x
  -- the other one is a multiple of the unit, too
  have hmul : ∃ n : Int, y = n * unit x := by
    obtain ⟨m, e, hm, he, rfl⟩ := hy
    rcases le_or_gt (max (expo x - 52) (-1074)) e with hc | hc
    · obtain ⟨k, hk⟩ := Int.eq_ofNat_of_zero_le (sub_nonneg.2 hc)
      refine ⟨m * 2 ^ k, ?_⟩
      rw [unit_eq]
      have : e = k + max (expo x - 52) (-1074) := by omega
      conv_lhs => rw [this, zpow_add₀ (by norm_num), zpow_natCast]
      push_cast
      ring
    · have hmx : max (expo x - 52) (-1074) = expo x - 52 := by omega
      have hu : unit x * 2 ^ 52 = (2 : Rat) ^ expo x := by
        rw [unit_eq, hmx, zpow_sub₀ (by norm_num)]
        have : (2 : Rat) ^ (52 : Int) = 2 ^ 52 := by norm_cast
        rw [this]; field_simp
      have hlow : |(m : Rat) * (2 : Rat) ^ e| ≤ (2 : Rat) ^ expo x := by
        rw [abs_mul, abs_of_pos (pow2_pos e)]
        have h1 : |(m : Rat)| ≤ 2 ^ 53 := by
          have : |m| ≤ 2 ^ 53 := hm.le
          exact_mod_cast this
        have h2 : (2 : Rat) ^ e ≤ (2 : Rat) ^ (expo x - 53) := zpow_le_zpow_right₀ (by norm_num) (by omega)
        have h3 : (2 : Rat) ^ (expo x - 53) * 2 ^ 53 = (2 : Rat) ^ expo x := by
          rw [zpow_sub₀ (by norm_num)]
          have : (2 : Rat) ^ (53 : Int) = 2 ^ 53 := by norm_cast
          rw [this]; field_simp
        calc |(m : Rat)| * (2 : Rat) ^ e ≤ 2 ^ 53 * (2 : Rat) ^ (expo x - 53) := mul_le_mul h1 h2 (pow2_pos e).le (by positivity)
          _ = (2 : Rat) ^ expo x := by rw [mul_comm]; exact h3
      have e0 := (expo_spec hx).1
      have grid : ∀ n : Int, |(m : Rat) * (2 : Rat) ^ e - x| ≤ |(n : Rat) * unit x - x| := by
        intro n
        rw [h, fl_eq hx, abs_scale (unit_pos x) _ x rfl, abs_scale (unit_pos x) _ x rfl]
        exact mul_le_mul_of_nonneg_right (roundEven_nearest _ _) (unit_pos x).le
      rcases lt_or_gt_of_ne hx with hneg | hpos
      · have := grid (-2 ^ 52)
        have hP : ((-2 ^ 52 : Int) : Rat) * unit x = -(2 : Rat) ^ expo x := by rw [← hu]; push_cast; ring
        rw [hP] at this
        rw [abs_of_neg hneg] at e0
        rw [abs_of_nonneg (show 0 ≤ -(2 : Rat) ^ expo x - x by linarith)] at this
        rw [abs_le] at hlow
        have h4 := (le_abs_self _).trans this
        exact ⟨-2 ^ 52, by rw [hP]; linarith⟩
      · have := grid (2 ^ 52)
        have hP : ((2 ^ 52 : Int) : Rat) * unit x = (2 : Rat) ^ expo x := by rw [← hu]; push_cast; ring
        rw [hP] at this
        rw [abs_of_pos hpos] at e0
        rw [abs_of_nonpos (show (2 : Rat) ^ expo x - x ≤ 0 by linarith)] at this
        rw [abs_le] at hlow
        have h4 := (neg_le_abs _).trans this
        exact ⟨2 ^ 52, by rw [hP]; linarith⟩
  obtain ⟨n, hn⟩ := hmul
  have hfl := fl_eq hx
  have hhalf := fl_half x hx
  have hdist : |y - fl x| = unit x := by
    apply le_antisymm
    · have : y - fl x = -2 * (fl x - x) := by linarith
      rw [this, abs_mul]
      norm_num
      linarith
    · rw [hn, hfl, ← sub_mul, abs_mul, abs_of_pos up]
      have : (1 : Rat) ≤ |(n : Rat) - roundEven (x / unit x)| := by
        have hz : n - roundEven (x / unit x) ≠ 0 := by
          intro hc
          exact hne (by rw [hn, hfl, sub_eq_zero.1 hc])
        have := Int.one_le_abs hz
        exact_mod_cast this
      have := mul_le_mul_of_nonneg_right this up.le
      linarith
  refine ⟨roundEven (x / unit x), max (expo x - 52) (-1074), ?_, by rw [hfl, unit_eq], by rw [hdist, unit_eq]⟩
  have h5 : |(roundEven (x / unit x) : Rat) - x / unit x| = 1 / 2 := by
    have a1 : |y - fl x| = 2 * |fl x - x| := by
      have : y - fl x = -2 * (fl x - x) := by linarith
      rw [this, abs_mul]
      norm_num
    rw [hdist, hfl, abs_scale up _ x rfl] at a1
    have : (1 - 2 * |(roundEven (x / unit x) : Rat) - x / unit x|) * unit x = 0 := by linarith
    rcases mul_eq_zero.1 this with h | h
    · linarith
    · exact absurd h up.ne'
  have := floor_le' (x / unit x)
  rcases roundEven_cases (x / unit x) with ⟨h1, h2, h3⟩ | ⟨h1, h2, h3⟩
  · rw [h1] at h5 ⊢
    apply h3
    rw [abs_of_nonpos (by linarith)] at h5
    linarith
  · rw [h1] at h5 ⊢
    apply h3
    push_cast at h5
    rw [abs_of_nonneg (by linarith)] at h5
    linarith

theorem isDouble_zero : IsDouble 0 := ⟨0, 0, by norm_num, by norm_num, by simp⟩

/-- The result is a double. -/
theorem fl_double (x : Rat) : IsDouble (fl x) := by
  by_cases hx : x = 0
  · subst hx; rw [fl_zero]; exact isDouble_zero
  · rw [fl_eq hx]
    set e := max (expo x - 52) (-1074) with he
    have hsize : |x / unit x| < 2 ^ 53 := by
      rw [abs_div, abs_of_pos (unit_pos x), div_lt_iff₀ (unit_pos x), unit_eq, ← he]
      refine lt_of_lt_of_le (expo_spec hx).2 ?_
      have : (2 : Rat) ^ 53 = (2 : Rat) ^ (53 : Int) := by norm_cast
      rw [this, ← zpow_add₀ (by norm_num)]
      exact zpow_le_zpow_right₀ (by norm_num) (by omega)
    have hround : |roundEven (x / unit x)| ≤ 2 ^ 53 := by
      have h1 := roundEven_half (x / unit x)
      have h2 : |(roundEven (x / unit x) : Rat)| < 2 ^ 53 + 1 := by
        have := abs_add_le ((roundEven (x / unit x) : Rat) - x / unit x) (x / unit x)
        rw [sub_add_cancel] at this
        linarith
      have h3 : |roundEven (x / unit x)| < 2 ^ 53 + 1 := by exact_mod_cast h2
      omega
    rcases lt_or_eq_of_le hround with h | h
    · exact ⟨_, e, h, by omega, by rw [unit_eq]⟩
    · obtain ⟨m, hm⟩ : (2 : Int) ∣ roundEven (x / unit x) := by
        rw [← dvd_abs, h]; norm_num
      refine ⟨m, e + 1, ?_, by omega, ?_⟩
      · rw [hm, abs_mul] at h
        have : |(2 : Int)| = 2 := rfl
        rw [this] at h
        omega
      · rw [hm, unit_eq, ← he, zpow_add₀ (by norm_num)]
        push_cast
        ring

theorem fl_self {x : Rat} (hx : IsDouble x) : fl x = x := by
  have h := fl_nearest x x hx
  rw [sub_self, abs_zero] at h
  exact sub_eq_zero.1 (abs_eq_zero.1 (le_antisymm h (abs_nonneg _)))

theorem fl_mono {x y : Rat} (h : x ≤ y) : fl x ≤ fl y := by
  by_contra hc
  rw [not_le] at hc
  have h1 := fl_nearest x (fl y) (fl_double y)
  have h2 := fl_nearest y (fl x) (fl_double x)
  have e : x = y := by
    refine le_antisymm h ?_
    rw [abs_le] at h1 h2
    rcases abs_cases (fl y - x) with ⟨a, a'⟩ | ⟨a, a'⟩ <;> rcases abs_cases (fl x - y) with ⟨b, b'⟩ | ⟨b, b'⟩ <;> rw [a] at h1 <;> rw [b] at h2 <;> linarith [h1.1, h1.2, h2.1, h2.2]
  rw [e] at hc
  exact lt_irrefl _ hc

theorem fl_nonneg {x : Rat} (h : 0 ≤ x) : 0 ≤ fl x := by
  have := fl_mono h
  rwa [fl_zero] at this

theorem fl_nonpos {x : Rat} (h : x ≤ 0) : fl x ≤ 0 := by
  have := fl_mono h
  rwa [fl_zero] at this

theorem fl_int {n : Int} (h : |n| ≤ 2 ^ 53) : fl (n : Rat) = n := by
  apply fl_self
  rcases lt_or_eq_of_le h with h | h
  · exact ⟨n, 0, h, by norm_num, by simp⟩
  · obtain ⟨m, rfl⟩ : (2 : Int) ∣ n := by rw [← dvd_abs, h]; norm_num
    refine ⟨m, 1, ?_, by norm_num, by push_cast; ring⟩
    rw [abs_mul] at h
    have : |(2 : Int)| = 2 := rfl
    rw [this] at h
    omega

end Verif.Float64

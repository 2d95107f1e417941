import Verif.Model.Single
import Verif.Spec.Single
import Verif.Proof.Float64
/-! # Rounding to singles -/

namespace Verif.Float64

theorem unit32_eq (x : Rat) : unit32 x = (2 : Rat) ^ max (expo x - 23) (-149) := pow2_eq _

theorem unit32_pos (x : Rat) : 0 < unit32 x := by rw [unit32_eq]; exact pow2_pos _

theorem single_eq {x : Rat} (hx : x ≠ 0) : single x = roundEven (x / unit32 x) * unit32 x := by unfold single; rw [if_neg hx]

@[simp] theorem single_zero : single 0 = 0 := by unfold single; simp

/-- Half of the distance of neighbouring singles. -/
theorem single_half (x : Rat) (hx : x ≠ 0) : |single x - x| ≤ unit32 x / 2 := by
  rw [single_eq hx, abs_scale (unit32_pos x) _ x rfl]
  have := mul_le_mul_of_nonneg_right (roundEven_half (x / unit32 x)) (unit32_pos x).le
  linarith

private theorem half_pow (n : Nat) : (2 : Rat) ^ (-(n : Int)) / 2 = 1 / 2 ^ (n + 1) := by
  rw [zpow_neg, zpow_natCast, pow_succ, one_div, mul_inv, div_eq_mul_inv]

theorem single_err (x : Rat) : |single x - x| ≤ |x| / 2 ^ 24 + 1 / 2 ^ 150 := by
  by_cases hx : x = 0
  · subst hx; simp
  · have h := single_half x hx
    rw [unit32_eq] at h
    have e0 := (expo_spec hx).1
    rcases le_total (expo x - 23) (-149) with hc | hc
    · rw [max_eq_right hc] at h
      have : (2 : Rat) ^ (-149 : Int) / 2 = 1 / 2 ^ 150 := half_pow 149
      rw [this] at h
      have : 0 ≤ |x| / 2 ^ 24 := by positivity
      linarith
    · rw [max_eq_left hc, zpow_sub₀ (by norm_num)] at h
      have h2 : (2 : Rat) ^ expo x / (2 : Rat) ^ (23 : Int) / 2 = (2 : Rat) ^ expo x / 2 ^ 24 := by
        have : (2 : Rat) ^ (23 : Int) = 2 ^ 23 := by norm_cast
        rw [this]; ring
      rw [h2] at h
      have h3 : (2 : Rat) ^ expo x / 2 ^ 24 ≤ |x| / 2 ^ 24 := by gcongr
      have : (0 : Rat) < 1 / 2 ^ 150 := one_div_pos.2 (pow_pos (by norm_num) _)
      linarith

/-- No single is nearer. -/
theorem single_nearest (x y : Rat) (hy : IsSingle y) : |single x - x| ≤ |y - x| := by
  by_cases hx : x = 0
  · subst hx; simp
  · obtain ⟨m, e, hm, he, rfl⟩ := hy
    have grid : ∀ n : Int, |single x - x| ≤ |(n : Rat) * unit32 x - x| := by
      intro n
      rw [single_eq hx, abs_scale (unit32_pos x) _ x rfl, abs_scale (unit32_pos x) _ x rfl]
      exact mul_le_mul_of_nonneg_right (roundEven_nearest _ _) (unit32_pos x).le
    rcases le_or_gt (max (expo x - 23) (-149)) e with hc | hc
    · obtain ⟨k, hk⟩ := Int.eq_ofNat_of_zero_le (sub_nonneg.2 hc)
      have := grid (m * 2 ^ k)
      have e2 : ((m * 2 ^ k : Int) : Rat) * unit32 x = m * (2 : Rat) ^ e := by
        rw [unit32_eq]
        have : e = k + max (expo x - 23) (-149) := by omega
        conv_rhs => rw [this, zpow_add₀ (by norm_num), zpow_natCast]
        push_cast
        ring
      rwa [e2] at this
    · have hmx : max (expo x - 23) (-149) = expo x - 23 := by omega
      have hu : unit32 x * 2 ^ 23 = (2 : Rat) ^ expo x := by
        rw [unit32_eq, hmx, zpow_sub₀ (by norm_num)]
        have : (2 : Rat) ^ (23 : Int) = 2 ^ 23 := by norm_cast
        rw [this]; field_simp
      have hlow : |(m : Rat) * (2 : Rat) ^ e| ≤ (2 : Rat) ^ expo x := by
        rw [abs_mul, abs_of_pos (pow2_pos e)]
        have h1 : |(m : Rat)| ≤ 2 ^ 24 := by
          have : |m| ≤ 2 ^ 24 := hm.le
          exact_mod_cast this
        have h2 : (2 : Rat) ^ e ≤ (2 : Rat) ^ (expo x - 24) := zpow_le_zpow_right₀ (by norm_num) (by omega)
        have h3 : (2 : Rat) ^ (expo x - 24) * 2 ^ 24 = (2 : Rat) ^ expo x := by
          rw [zpow_sub₀ (by norm_num)]
          have : (2 : Rat) ^ (24 : Int) = 2 ^ 24 := by norm_cast
          rw [this]; field_simp
        calc |(m : Rat)| * (2 : Rat) ^ e ≤ 2 ^ 24 * (2 : Rat) ^ (expo x - 24) := mul_le_mul h1 h2 (pow2_pos e).le (by positivity)
          _ = (2 : Rat) ^ expo x := by rw [mul_comm]; exact h3
      have e0 := (expo_spec hx).1
      rcases lt_or_gt_of_ne hx with hneg | hpos
      · have := grid (-2 ^ 23)
        rw [show ((-2 ^ 23 : Int) : Rat) * unit32 x = -(2 : Rat) ^ expo x by rw [← hu]; push_cast; ring] at this
        rw [abs_of_neg hneg] at e0
        rw [abs_of_nonneg (show 0 ≤ -(2 : Rat) ^ expo x - x by linarith)] at this
        refine this.trans ?_
        rw [abs_le] at hlow
        exact le_trans (by linarith) (le_abs_self _)
      · have := grid (2 ^ 23)
        rw [show ((2 ^ 23 : Int) : Rat) * unit32 x = (2 : Rat) ^ expo x by rw [← hu]; push_cast; ring] at this
        rw [abs_of_pos hpos] at e0
        rw [abs_of_nonpos (show (2 : Rat) ^ expo x - x ≤ 0 by linarith)] at this
        refine this.trans ?_
        rw [abs_le] at hlow
        exact le_trans (by linarith) (neg_le_abs _)

/-- If another single is as near, the two are neighbours and the one chosen is an even multiple of their distance. -/
theorem single_tie (x y : Rat) (hy : IsSingle y) (hne : y ≠ single x) (h : |y - x| = |single x - x|) :
    ∃ m e : Int, 2 ∣ m ∧ single x = m * (2 : Rat) ^ e ∧ |y - single x| = (2 : Rat) ^ e := by
  by_cases hx : x = 0
  · subst hx
    rw [single_zero] at h hne
    simp only [sub_zero, abs_zero, abs_eq_zero] at h
    exact absurd h hne
  have hop : y - x = -(single x - x) := by
    rcases abs_eq_abs.1 h with h | h
    · exact absurd (by linarith) hne
    · exact h
  have up := unit32_pos x
  -- the other one is a multiple of the unit, too
  have hmul : ∃ n : Int, y = n * unit32 x := by
    obtain ⟨m, e, hm, he, rfl⟩ := hy
    rcases le_or_gt (max (expo x - 23) (-149)) e with hc | hc
    · obtain ⟨k, hk⟩ := Int.eq_ofNat_of_zero_le (sub_nonneg.2 hc)
      refine ⟨m * 2 ^ k, ?_⟩
      rw [unit32_eq]
      have : e = k + max (expo x - 23) (-149) := by omega
      conv_lhs => rw [this, zpow_add₀ (by norm_num), zpow_natCast]
      push_cast
      ring
    · have hmx : max (expo x - 23) (-149) = expo x - 23 := by omega
      have hu : unit32 x * 2 ^ 23 = (2 : Rat) ^ expo x := by
        rw [unit32_eq, hmx, zpow_sub₀ (by norm_num)]
        have : (2 : Rat) ^ (23 : Int) = 2 ^ 23 := by norm_cast
        rw [this]; field_simp
      have hlow : |(m : Rat) * (2 : Rat) ^ e| ≤ (2 : Rat) ^ expo x := by
        rw [abs_mul, abs_of_pos (pow2_pos e)]
        have h1 : |(m : Rat)| ≤ 2 ^ 24 := by
          have : |m| ≤ 2 ^ 24 := hm.le
          exact_mod_cast this
        have h2 : (2 : Rat) ^ e ≤ (2 : Rat) ^ (expo x - 24) := zpow_le_zpow_right₀ (by norm_num) (by omega)
        have h3 : (2 : Rat) ^ (expo x - 24) * 2 ^ 24 = (2 : Rat) ^ expo x := by
          rw [zpow_sub₀ (by norm_num)]
          have : (2 : Rat) ^ (24 : Int) = 2 ^ 24 := by norm_cast
          rw [this]; field_simp
        calc |(m : Rat)| * (2 : Rat) ^ e ≤ 2 ^ 24 * (2 : Rat) ^ (expo x - 24) := mul_le_mul h1 h2 (pow2_pos e).le (by positivity)
          _ = (2 : Rat) ^ expo x := by rw [mul_comm]; exact h3
      have e0 := (expo_spec hx).1
      have grid : ∀ n : Int, |(m : Rat) * (2 : Rat) ^ e - x| ≤ |(n : Rat) * unit32 x - x| := by
        intro n
        rw [h, single_eq hx, abs_scale (unit32_pos x) _ x rfl, abs_scale (unit32_pos x) _ x rfl]
        exact mul_le_mul_of_nonneg_right (roundEven_nearest _ _) (unit32_pos x).le
      rcases lt_or_gt_of_ne hx with hneg | hpos
      · have := grid (-2 ^ 23)
        have hP : ((-2 ^ 23 : Int) : Rat) * unit32 x = -(2 : Rat) ^ expo x := by rw [← hu]; push_cast; ring
        rw [hP] at this
        rw [abs_of_neg hneg] at e0
        rw [abs_of_nonneg (show 0 ≤ -(2 : Rat) ^ expo x - x by linarith)] at this
        rw [abs_le] at hlow
        have h4 := (le_abs_self _).trans this
        exact ⟨-2 ^ 23, by rw [hP]; linarith⟩
      · have := grid (2 ^ 23)
        have hP : ((2 ^ 23 : Int) : Rat) * unit32 x = (2 : Rat) ^ expo x := by rw [← hu]; push_cast; ring
        rw [hP] at this
        rw [abs_of_pos hpos] at e0
        rw [abs_of_nonpos (show (2 : Rat) ^ expo x - x ≤ 0 by linarith)] at this
        rw [abs_le] at hlow
        have h4 := (neg_le_abs _).trans this
        exact ⟨2 ^ 23, by rw [hP]; linarith⟩
  obtain ⟨n, hn⟩ := hmul
  have hfl := single_eq hx
  have hhalf := single_half x hx
  have hdist : |y - single x| = unit32 x := by
    apply le_antisymm
    · have : y - single x = -2 * (single x - x) := by linarith
      rw [this, abs_mul]
      norm_num
      linarith
    · rw [hn, hfl, ← sub_mul, abs_mul, abs_of_pos up]
      have : (1 : Rat) ≤ |(n : Rat) - roundEven (x / unit32 x)| := by
        have hz : n - roundEven (x / unit32 x) ≠ 0 := by
          intro hc
          exact hne (by rw [hn, hfl, sub_eq_zero.1 hc])
        have := Int.one_le_abs hz
        exact_mod_cast this
      have := mul_le_mul_of_nonneg_right this up.le
      linarith
  refine ⟨roundEven (x / unit32 x), max (expo x - 23) (-149), ?_, by rw [hfl, unit32_eq], by rw [hdist, unit32_eq]⟩
  have h5 : |(roundEven (x / unit32 x) : Rat) - x / unit32 x| = 1 / 2 := by
    have a1 : |y - single x| = 2 * |single x - x| := by
      have : y - single x = -2 * (single x - x) := by linarith
      rw [this, abs_mul]
      norm_num
    rw [hdist, hfl, abs_scale up _ x rfl] at a1
    have : (1 - 2 * |(roundEven (x / unit32 x) : Rat) - x / unit32 x|) * unit32 x = 0 := by linarith
    rcases mul_eq_zero.1 this with h | h
    · linarith
    · exact absurd h up.ne'
  have := floor_le' (x / unit32 x)
  rcases roundEven_cases (x / unit32 x) with ⟨h1, h2, h3⟩ | ⟨h1, h2, h3⟩
  · rw [h1] at h5 ⊢
    apply h3
    rw [abs_of_nonpos (by linarith)] at h5
    linarith
  · rw [h1] at h5 ⊢
    apply h3
    push_cast at h5
    rw [abs_of_nonneg (by linarith)] at h5
    linarith

theorem isSingle_zero : IsSingle 0 := ⟨0, 0, by norm_num, by norm_num, by simp⟩

/-- The result is a single. -/
theorem single_single (x : Rat) : IsSingle (single x) := by
  by_cases hx : x = 0
  · subst hx; rw [single_zero]; exact isSingle_zero
  · rw [single_eq hx]
    set e := max (expo x - 23) (-149) with he
    have hsize : |x / unit32 x| < 2 ^ 24 := by
      rw [abs_div, abs_of_pos (unit32_pos x), div_lt_iff₀ (unit32_pos x), unit32_eq, ← he]
      refine lt_of_lt_of_le (expo_spec hx).2 ?_
      have : (2 : Rat) ^ 24 = (2 : Rat) ^ (24 : Int) := by norm_cast
      rw [this, ← zpow_add₀ (by norm_num)]
      exact zpow_le_zpow_right₀ (by norm_num) (by omega)
    have hround : |roundEven (x / unit32 x)| ≤ 2 ^ 24 := by
      have h1 := roundEven_half (x / unit32 x)
      have h2 : |(roundEven (x / unit32 x) : Rat)| < 2 ^ 24 + 1 := by
        have := abs_add_le ((roundEven (x / unit32 x) : Rat) - x / unit32 x) (x / unit32 x)
        rw [sub_add_cancel] at this
        linarith
      have h3 : |roundEven (x / unit32 x)| < 2 ^ 24 + 1 := by exact_mod_cast h2
      omega
    rcases lt_or_eq_of_le hround with h | h
    · exact ⟨_, e, h, by omega, by rw [unit32_eq]⟩
    · obtain ⟨m, hm⟩ : (2 : Int) ∣ roundEven (x / unit32 x) := by
        rw [← dvd_abs, h]; norm_num
      refine ⟨m, e + 1, ?_, by omega, ?_⟩
      · rw [hm, abs_mul] at h
        have : |(2 : Int)| = 2 := rfl
        rw [this] at h
        omega
      · rw [hm, unit32_eq, ← he, zpow_add₀ (by norm_num)]
        push_cast
        ring

theorem single_self {x : Rat} (hx : IsSingle x) : single x = x := by
  have h := single_nearest x x hx
  rw [sub_self, abs_zero] at h
  exact sub_eq_zero.1 (abs_eq_zero.1 (le_antisymm h (abs_nonneg _)))

theorem single_mono {x y : Rat} (h : x ≤ y) : single x ≤ single y := by
  by_contra hc
  rw [not_le] at hc
  have h1 := single_nearest x (single y) (single_single y)
  have h2 := single_nearest y (single x) (single_single x)
  have e : x = y := by
    refine le_antisymm h ?_
    rw [abs_le] at h1 h2
    rcases abs_cases (single y - x) with ⟨a, a'⟩ | ⟨a, a'⟩ <;> rcases abs_cases (single x - y) with ⟨b, b'⟩ | ⟨b, b'⟩ <;> rw [a] at h1 <;> rw [b] at h2 <;> linarith [h1.1, h1.2, h2.1, h2.2]
  rw [e] at hc
  exact lt_irrefl _ hc

end Verif.Float64

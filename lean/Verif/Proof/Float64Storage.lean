import Verif.Proof.Float64
import Verif.Proof.Storage
import Mathlib.Data.List.Induction
/-! # Storages in double precision: bounds on what is lost by rounding -/

namespace Verif.Float64

open Verif.Bounds Verif.Storage

theorem fl_near (x : Rat) : |fl x - x| ≤ |x| / 2 ^ 53 + 1 / 2 ^ 200 := by
  refine (fl_err x).trans ?_
  have : (1 : Rat) / 2 ^ 1075 ≤ 1 / 2 ^ 200 := one_div_le_one_div_of_le (pow_pos (by norm_num) _) (pow_le_pow_right₀ (by norm_num) (by norm_num))
  linarith

theorem near {x B : Rat} (h : |x| ≤ B) : |fl x - x| ≤ B / 2 ^ 53 + 1 / 2 ^ 200 := by
  refine (fl_near x).trans ?_
  have : |x| / 2 ^ 53 ≤ B / 2 ^ 53 := by gcongr
  linarith

theorem commit_flow (s : State) (c : Commit) : (commit s c).flow = fl (s.flow + c.net) := by cases c <;> rfl

theorem commits_rest (cs : List Commit) (s : State) : (cs.foldl commit s).volume = s.volume := by
  induction cs generalizing s with
  | nil => rfl
  | cons c cs ih => rw [List.foldl_cons, ih]; cases c <;> rfl

theorem total_nonneg (cs : List Commit) : 0 ≤ total cs := by
  unfold total
  apply List.sum_nonneg
  intro x hx
  obtain ⟨c, -, rfl⟩ := List.mem_map.1 hx
  exact abs_nonneg _

theorem total_append (cs : List Commit) (c : Commit) : total (cs ++ [c]) = total cs + |c.net| := by simp [total]

theorem sum_le_total (cs : List Commit) : |(cs.map Commit.net).sum| ≤ total cs := by
  induction cs with
  | nil => simp [total]
  | cons c cs ih =>
    simp only [total, List.map_cons, List.sum_cons] at *
    exact (abs_add_le _ _).trans (by linarith)

/-- What is lost when flows are added up one by one. -/
theorem flow_error (A : Rat) (cs : List Commit) (s : State) (hs : s.flow = 0) (hA : total cs ≤ A) (hn : cs.length ≤ 2 ^ 20) :
    |(cs.foldl commit s).flow - (cs.map Commit.net).sum| ≤ 2 * cs.length * (A / 2 ^ 53 + 1 / 2 ^ 200) := by
  induction cs using List.reverseRecOn with
  | nil => simp [hs]
  | append_singleton cs c ih =>
    rw [total_append] at hA
    have hA' : total cs ≤ A := by linarith [abs_nonneg c.net]
    rw [List.length_append, List.length_singleton] at hn
    have ih := ih hA' (by omega)
    rw [List.foldl_append, List.foldl_cons, List.foldl_nil, commit_flow, List.map_append, List.sum_append, List.length_append]
    simp only [List.map_cons, List.map_nil, List.sum_cons, List.sum_nil, add_zero, List.length_cons, List.length_nil]
    push_cast
    have h1 : |(cs.map Commit.net).sum + c.net| ≤ A := by
      have := (abs_add_le (cs.map Commit.net).sum c.net).trans (add_le_add_left (sum_le_total cs) _)
      linarith
    generalize (cs.foldl commit s).flow = f at *
    generalize (cs.map Commit.net).sum = S at *
    have hk : (cs.length : Rat) ≤ 2 ^ 20 := by exact_mod_cast (by omega : cs.length ≤ 2 ^ 20)
    have hk0 : (0 : Rat) ≤ cs.length := by positivity
    generalize (cs.length : Rat) = k at *
    have hA0 : 0 ≤ A := (abs_nonneg _).trans h1
    have h2 : |f + c.net| ≤ A + 2 * k * (A / 2 ^ 53 + 1 / 2 ^ 200) := by
      have : f + c.net = (S + c.net) + (f - S) := by ring
      rw [this]
      exact (abs_add_le _ _).trans (add_le_add h1 ih)
    have h3 := near h2
    have h4 : fl (f + c.net) - (S + c.net) = (fl (f + c.net) - (f + c.net)) + (f - S) := by ring
    rw [h4]
    refine (abs_add_le _ _).trans ((add_le_add h3 ih).trans ?_)
    set D : Rat := A / 2 ^ 53 + 1 / 2 ^ 200 with hD
    have hD0 : 0 ≤ D := by positivity
    have h5 : 2 * k * D / 2 ^ 53 ≤ D := by
      rw [div_le_iff₀ (by positivity)]
      have : 2 * k * D ≤ 2 * 2 ^ 20 * D := by gcongr
      nlinarith
    have : (A + 2 * k * D) / 2 ^ 53 = A / 2 ^ 53 + 2 * k * D / 2 ^ 53 := by ring
    linarith

theorem big : (2 : Rat) ^ 60 < dblMax := by decide +kernel

/-- What the row of a storage admits. -/
theorem row_admits {V v mx mn d y : Rat} (hV1 : 1 ≤ V) (hV2 : V ≤ 2 ^ 32) (h0 : 0 ≤ mn) (hv1 : mn ≤ v) (hv2 : v ≤ mx) (hmx : mx ≤ V) (hd1 : 1 / 2 ^ 20 ≤ d) (hd2 : d ≤ 2 ^ 20)
    (h : (storageRow v mx mn d).Admits y) :
    -(v - mn) - 17 / 8 * (V / 2 ^ 53) ≤ y * d ∧ y * d ≤ (mx - v) + 17 / 8 * (V / 2 ^ 53) := by
  have hd : 0 < d := lt_of_lt_of_le (by norm_num) hd1
  have hVu : 0 ≤ V / 2 ^ 53 := by positivity
  unfold storageRow at h
  by_cases he : mx = mn
  · rw [if_pos he] at h
    simp only [Row.Admits] at h
    subst h
    constructor <;> nlinarith
  · rw [if_neg he] at h
    simp only at h
    -- one side
    have side : ∀ p z : Rat, 0 ≤ p → p ≤ V → |z| = fl p / d → |fl z| * d ≤ p + 17 / 8 * (V / 2 ^ 53) ∧ |fl z| ≤ 2 ^ 56 := by
      intro p z hp0 hpV hz
      have a0 := fl_nonneg hp0
      have a1 := near (show |p| ≤ V by rw [abs_of_nonneg hp0]; exact hpV)
      have a2 : fl p ≤ p + (V / 2 ^ 53 + 1 / 2 ^ 200) := by linarith [le_abs_self (fl p - p)]
      have a3 : fl p ≤ 2 ^ 34 := by
        have : V / 2 ^ 53 ≤ 1 := by rw [div_le_one (by positivity)]; exact hV2.trans (by norm_num)
        have : (1 : Rat) / 2 ^ 200 ≤ 1 := by norm_num
        linarith
      have q1 : fl p / d ≤ 2 ^ 55 := by
        rw [div_le_iff₀ hd]
        calc fl p ≤ 2 ^ 34 := a3
          _ ≤ 2 ^ 55 * (1 / 2 ^ 20) := by norm_num
          _ ≤ 2 ^ 55 * d := by gcongr
      have a4 := fl_near z
      rw [hz] at a4
      have a5 : |fl z| ≤ fl p / d + (fl p / d / 2 ^ 53 + 1 / 2 ^ 200) := by
        have : |fl z| ≤ |z| + |fl z - z| := by
          have := abs_add_le z (fl z - z)
          rwa [add_sub_cancel] at this
        rw [hz] at this
        linarith
      have a6 : |fl z| * d ≤ fl p + fl p / 2 ^ 53 + d / 2 ^ 200 := by
        have := mul_le_mul_of_nonneg_right a5 hd.le
        have e : (fl p / d + (fl p / d / 2 ^ 53 + 1 / 2 ^ 200)) * d = fl p + fl p / 2 ^ 53 + d / 2 ^ 200 := by field_simp; ring
        linarith
      constructor
      · have b1 : d / 2 ^ 200 ≤ 1 / 2 ^ 180 := by
          rw [div_le_iff₀ (by positivity)]
          exact hd2.trans (by norm_num)
        have b2 : fl p / 2 ^ 53 ≤ (V + (V / 2 ^ 53 + 1 / 2 ^ 200)) / 2 ^ 53 := by gcongr; linarith
        linarith
      · have : fl p / d / 2 ^ 53 ≤ 4 := by
          rw [div_le_iff₀ (by positivity)]
          exact q1.trans (by norm_num)
        linarith [show (1 : Rat) / 2 ^ 200 ≤ 1 by norm_num]
    have p1 := fl_nonneg (show 0 ≤ v - mn by linarith)
    have p2 := fl_nonneg (show 0 ≤ mx - v by linarith)
    rw [max_eq_left p1, max_eq_left p2] at h
    obtain ⟨l1, l2⟩ := side (v - mn) (-fl (v - mn) / d) (by linarith) (by linarith) (by rw [abs_div, abs_neg, abs_of_nonneg p1, abs_of_pos hd])
    obtain ⟨u1, u2⟩ := side (mx - v) (fl (mx - v) / d) (by linarith) (by linarith) (by rw [abs_div, abs_of_nonneg p2, abs_of_pos hd])
    have lneg : fl (-fl (v - mn) / d) ≤ 0 := fl_nonpos (div_nonpos_of_nonpos_of_nonneg (by linarith) hd.le)
    have upos : 0 ≤ fl (fl (mx - v) / d) := fl_nonneg (div_nonneg p2 hd.le)
    rw [abs_of_nonpos lneg] at l1 l2
    rw [abs_of_nonneg upos] at u1 u2
    generalize fl (-fl (v - mn) / d) = lb at *
    generalize fl (fl (mx - v) / d) = ub at *
    have hb := big
    have hb' : (2 : Rat) ^ 56 < dblMax := lt_trans (by norm_num) hb
    have key : ∀ a b : Rat, lb ≤ a → a ≤ 0 → 0 ≤ b → b ≤ ub → (Row.mk (constraintType a b) a b).Admits y → lb ≤ y ∧ y ≤ ub := by
      intro a b ha ha0 hb0 hb hy
      unfold constraintType at hy
      rw [if_neg (show ¬ b = dblMax by intro hb'; linarith), if_neg (show ¬ a = -dblMax by intro ha'; linarith)] at hy
      by_cases hc : |fl (a - b)| < fl e8
      · simp only [hc, if_true, Row.Admits] at hy; subst hy; constructor <;> linarith
      · simp only [hc, if_false, Row.Admits] at hy; constructor <;> linarith [hy.1, hy.2]
    have hy : lb ≤ y ∧ y ≤ ub := by
      refine key (if |lb| < fl e8 then 0 else lb) (if |ub| < fl e8 then 0 else ub) ?_ ?_ ?_ ?_ h
      · split_ifs <;> linarith
      · split_ifs <;> linarith
      · split_ifs <;> linarith
      · split_ifs <;> linarith
    have m1 := mul_le_mul_of_nonneg_right hy.1 hd.le
    have m2 := mul_le_mul_of_nonneg_right hy.2 hd.le
    constructor <;> linarith

theorem e6_near : 99 / 100000000 ≤ fl e6 ∧ fl e6 ≤ 101 / 100000000 := by
  have := near (x := e6) (B := 1) (by unfold e6; norm_num [abs_of_nonneg])
  rw [abs_le] at this
  unfold e6 at *
  constructor <;> norm_num at * <;> linarith

/-- Values inside the bounds, or little outside, end inside. -/
theorem snap_mem {mx mn v : Rat} (h : mn ≤ mx) (h1 : mn - 9 / 10000000 ≤ v) (h2 : v ≤ mx + 9 / 10000000) : mn ≤ snap mx mn v ∧ snap mx mn v ≤ mx := by
  have he := e6_near
  have close : ∀ z : Rat, |z| ≤ 9 / 10000000 → |fl z| < fl e6 := by
    intro z hz
    have := near hz
    have h3 : |fl z| ≤ |z| + |fl z - z| := by
      have := abs_add_le z (fl z - z)
      rwa [add_sub_cancel] at this
    norm_num at this
    linarith
  unfold snap
  simp only
  by_cases a : |fl (v - mx)| < fl e6
  · simp only [a, if_true]
    split_ifs
    · exact ⟨le_refl _, h⟩
    · exact ⟨h, le_refl _⟩
  · simp only [a, if_false]
    split_ifs with b
    · exact ⟨le_refl _, h⟩
    · constructor
      · by_contra hc
        exact b (close _ (by rw [abs_le]; constructor <;> linarith))
      · by_contra hc
        exact a (close _ (by rw [abs_le]; constructor <;> linarith))

/-- What the snapping changes. -/
theorem snap_err (mx mn v : Rat) : |snap mx mn v - v| ≤ 21 / 10000000 := by
  have he := e6_near
  have close : ∀ z : Rat, |fl z| < fl e6 → |z| ≤ 102 / 100000000 := by
    intro z hz
    have h1 := fl_near z
    have h3 : |z| ≤ |fl z| + |fl z - z| := by
      have := abs_add_le (fl z) (z - fl z)
      rwa [add_sub_cancel, abs_sub_comm z] at this
    norm_num at h1
    linarith [abs_nonneg z]
  unfold snap
  simp only
  by_cases a : |fl (v - mx)| < fl e6
  · simp only [a, if_true]
    have a' := abs_le.1 (close _ a)
    split_ifs with b
    · have b' := abs_le.1 (close _ b)
      rw [abs_le]; constructor <;> linarith
    · rw [abs_le]; constructor <;> linarith
  · simp only [a, if_false]
    split_ifs with b
    · have b' := abs_le.1 (close _ b)
      rw [abs_le]; constructor <;> linarith
    · rw [sub_self, abs_zero]; norm_num

/-- The volume before snapping, against exact arithmetic. -/
theorem raw_volume {tol V : Rat} {s : State} {t : Step} (hm : Moderate tol V t) (hv1 : t.mn ≤ s.volume) (hv2 : s.volume ≤ t.mx)
    (hr : Respects tol (storageRow s.volume t.mx t.mn t.days) (t.commits.map Commit.net).sum) :
    t.mn - 9 / 10000000 ≤ fl (s.volume + fl ((t.commits.foldl commit s.before).flow * t.days)) ∧
    fl (s.volume + fl ((t.commits.foldl commit s.before).flow * t.days)) ≤ t.mx + 9 / 10000000 ∧
    |fl (s.volume + fl ((t.commits.foldl commit s.before).flow * t.days)) - (s.volume + t.netVolume)| ≤ 9 / 10000000 := by
  obtain ⟨⟨hV1, h0, hmm, hmx⟩, ⟨hd1, hd2⟩, hn, htol0, hsmall⟩ := hm
  obtain ⟨y, hy, hxy⟩ := hr
  have hd : 0 < t.days := lt_of_lt_of_le (by norm_num) hd1
  have hk : (t.commits.length : Rat) ≤ 2 ^ 20 := by exact_mod_cast hn
  have hk0 : (0 : Rat) ≤ t.commits.length := by positivity
  have hA0 := total_nonneg t.commits
  have herr := flow_error (total t.commits) t.commits s.before rfl le_rfl hn
  unfold Step.netVolume
  generalize (t.commits.foldl commit s.before).flow = f at *
  generalize (t.commits.map Commit.net).sum = S at *
  generalize total t.commits = A at *
  generalize (t.commits.length : Rat) = k at *
  have hP : 0 ≤ 2 * k * A * t.days := by positivity
  have hT : 0 ≤ tol * t.days := by positivity
  have hV2 : V ≤ 2 ^ 32 := by
    have : (2 * k * A * t.days + 5 * V) / 2 ^ 53 ≤ 9 / 10000000 := by linarith
    rw [div_le_iff₀ (by positivity)] at this
    norm_num at this ⊢
    linarith
  obtain ⟨r1, r2⟩ := row_admits hV1 hV2 h0 hv1 hv2 hmx hd1 hd2 hy
  generalize s.volume = v at *
  generalize t.days = d at *
  generalize t.mx = mx at *
  generalize t.mn = mn at *
  -- the flow times the days
  have hfd : |f * d - S * d| ≤ 2 * k * A * d / 2 ^ 53 + 1 / 2 ^ 150 := by
    rw [← sub_mul, abs_mul, abs_of_pos hd]
    have h1 := mul_le_mul_of_nonneg_right herr hd.le
    have h2 : 2 * k * (A / 2 ^ 53 + 1 / 2 ^ 200) * d = 2 * k * A * d / 2 ^ 53 + k * d * (2 / 2 ^ 200) := by ring
    have h3 : k * d ≤ 2 ^ 20 * 2 ^ 20 := by gcongr
    have h4 : k * d * (2 / 2 ^ 200) ≤ 2 ^ 20 * 2 ^ 20 * (2 / 2 ^ 200) := by gcongr
    have h5 : (2 : Rat) ^ 20 * 2 ^ 20 * (2 / 2 ^ 200) ≤ 1 / 2 ^ 150 := by norm_num
    linarith
  have hSd : |S * d - y * d| ≤ tol * d := by
    rw [← sub_mul, abs_mul, abs_of_pos hd]
    gcongr
  have hq : (2 * k * A * d + 5 * V) / 2 ^ 53 = 2 * k * A * d / 2 ^ 53 + 5 * (V / 2 ^ 53) := by ring
  rw [hq] at hsmall
  have hu0 : 1 / 2 ^ 53 ≤ V / 2 ^ 53 := by gcongr
  have hP' : 0 ≤ 2 * k * A * d / 2 ^ 53 := by positivity
  generalize 2 * k * A * d / 2 ^ 53 = P at *
  generalize tol * d = T at *
  have hc1 : (1 : Rat) / 2 ^ 150 ≤ 1 / 16 * (1 / 2 ^ 53) := by norm_num
  have hc2 : (1 : Rat) / 2 ^ 200 ≤ 1 / 16 * (1 / 2 ^ 53) := by norm_num
  rw [abs_le] at hfd hSd
  have hg := near (show |f * d| ≤ V + 1 / 1000000 by rw [abs_le]; constructor <;> linarith)
  have hs1 : (V + 1 / 1000000) / 2 ^ 53 ≤ 17 / 16 * (V / 2 ^ 53) := by
    rw [div_le_iff₀ (by positivity)]
    have : 17 / 16 * (V / 2 ^ 53) * 2 ^ 53 = 17 / 16 * V := by field_simp
    linarith
  have hg' := abs_le.1 (hg.trans (add_le_add_left hs1 _))
  have hw := near (show |v + fl (f * d)| ≤ V + 1 / 1000000 by rw [abs_le]; constructor <;> linarith)
  have hw' := abs_le.1 (hw.trans (add_le_add_left hs1 _))
  refine ⟨by linarith, by linarith, ?_⟩
  rw [abs_le]
  constructor <;> linarith

theorem step_volume (s : State) (t : Step) : (step s t).volume = snap t.mx t.mn (fl (s.volume + fl ((t.commits.foldl commit s.before).flow * t.days))) := by
  unfold step after
  simp only [commits_rest]
  rfl

end Verif.Float64

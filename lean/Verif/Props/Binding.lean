import Verif.Props.Relaxing
import Verif.Props.Domains
import Verif.Spec.Binding
import Mathlib.Algebra.Order.Field.Basic
import Mathlib.Tactic.Positivity
/-!
# C125: between two allocations; limits that are not reached
-/

namespace Verif.Lp

open Verif Verif.Bounds Verif.Composite

/-! ## Mixtures -/

private theorem between_length {t : Rat} {x y : List Rat} {n : Nat} (hx : x.length = n) (hy : y.length = n) : (between t x y).length = n := by
  unfold between; rw [List.length_zipWith]; omega

private theorem between_nonneg {t : Rat} (h0 : 0 ≤ t) (h1 : t ≤ 1) {x y : List Rat} (hx : ∀ v ∈ x, 0 ≤ v) (hy : ∀ v ∈ y, 0 ≤ v) : ∀ v ∈ between t x y, 0 ≤ v := by
  unfold between
  induction x generalizing y with
  | nil => simp
  | cons a x ih =>
    cases y with
    | nil => simp
    | cons b y =>
      intro v hv
      rw [List.zipWith_cons_cons, List.mem_cons] at hv
      rcases hv with rfl | hv
      · have := hx a (by simp)
        have := hy b (by simp)
        have : 0 ≤ (1 - t) * a := mul_nonneg (by linarith) (by assumption)
        have : 0 ≤ t * b := mul_nonneg h0 (by assumption)
        linarith
      · exact ih (fun v hv => hx v (by simp [hv])) (fun v hv => hy v (by simp [hv])) v hv

private theorem S_between {α : Type} (l : List α) (t : Rat) (x y : List Rat) (hx : x.length = l.length) (hy : y.length = l.length) (f : α → Rat) :
    S l (between t x y) f = (1 - t) * S l x f + t * S l y f := by
  rw [S_zip, S_zip, S_zip]
  unfold between
  induction l generalizing x y with
  | nil => simp
  | cons a l ih =>
    cases x with
    | nil => cases hx
    | cons v x =>
      cases y with
      | nil => cases hy
      | cons w y =>
        have := ih x y (by simpa using hx) (by simpa using hy)
        simp only [List.zipWith_cons_cons, List.zip_cons_cons, List.map_cons, List.sum_cons, this]
        ring

private theorem mix_le {t a b q : Rat} (h0 : 0 ≤ t) (h1 : t ≤ 1) (ha : a ≤ q) (hb : b ≤ q) : (1 - t) * a + t * b ≤ q := by
  have h2 := mul_le_mul_of_nonneg_left ha (by linarith : 0 ≤ 1 - t)
  have h3 := mul_le_mul_of_nonneg_left hb h0
  linarith

private theorem le_mix {t a b q : Rat} (h0 : 0 ≤ t) (h1 : t ≤ 1) (ha : q ≤ a) (hb : q ≤ b) : q ≤ (1 - t) * a + t * b := by
  have h2 := mul_le_mul_of_nonneg_left ha (by linarith : 0 ≤ 1 - t)
  have h3 := mul_le_mul_of_nonneg_left hb h0
  linarith

private theorem admits_mix {r : Row} {t a b : Rat} (h0 : 0 ≤ t) (h1 : t ≤ 1) (ha : r.Admits a) (hb : r.Admits b) : r.Admits ((1 - t) * a + t * b) := by
  obtain ⟨ty, lb, ub⟩ := r
  unfold Row.Admits at *
  cases ty with
  | fr => trivial
  | lo => exact le_mix h0 h1 ha hb
  | up => exact mix_le h0 h1 ha hb
  | db => exact ⟨le_mix h0 h1 ha.1 hb.1, mix_le h0 h1 ha.2 hb.2⟩
  | fx =>
    simp only at ha hb ⊢
    rw [ha, hb]; ring

private theorem hold_mix {α : Type} {lines : List (Option (Line α))} {l : List α} {t : Rat} (h0 : 0 ≤ t) (h1 : t ≤ 1) {x y : List Rat} (lx : x.length = l.length) (ly : y.length = l.length)
    (hx : AllHold lines l x) (hy : AllHold lines l y) : AllHold lines l (between t x y) := by
  intro o ho
  obtain ⟨L, hL, hb, hh⟩ := hx o ho
  obtain ⟨L', hL', -, hh'⟩ := hy o ho
  rw [hL] at hL'
  cases hL'
  refine ⟨L, hL, hb, ?_⟩
  unfold Line.Holds at *
  rw [S_between l t x y lx ly]
  exact admits_mix h0 h1 hh hh'

/-- **C125 (between two allocations, route solver).** Whatever lies between two feasible allocations is feasible; its cost and its flows lie in the same proportion between theirs. -/
theorem C125_between (d : Data) (routes : List (List Nat)) (t : Rat) (h0 : 0 ≤ t) (h1 : t ≤ 1) (x y : List Rat) (hx : RouteFeasible d routes x) (hy : RouteFeasible d routes y) :
    RouteFeasible d routes (between t x y) ∧ routeObjective d routes (between t x y) = (1 - t) * routeObjective d routes x + t * routeObjective d routes y ∧
      ∀ n, routeNodeFlow d routes (between t x y) n = (1 - t) * routeNodeFlow d routes x n + t * routeNodeFlow d routes y n := by
  rw [routeFeasible_iff] at hx hy
  obtain ⟨hb, lx, px, hx⟩ := hx
  obtain ⟨-, ly, py, hy⟩ := hy
  refine ⟨?_, ?_, fun n => ?_⟩
  · rw [routeFeasible_iff]
    exact ⟨hb, between_length lx ly, between_nonneg h0 h1 px py, hold_mix h0 h1 lx ly hx hy⟩
  · simp only [routeObjective_S]; exact S_between _ _ _ _ lx ly _
  · simp only [routeNodeFlow_eq_S]; exact S_between _ _ _ _ lx ly _

/-- **C125 (between two allocations, edge solver).** -/
theorem C125_edge_between (d : Data) (g : Graph) (t : Rat) (h0 : 0 ≤ t) (h1 : t ≤ 1) (x y : List Rat) (hx : EdgeFeasible d g x) (hy : EdgeFeasible d g y) :
    EdgeFeasible d g (between t x y) ∧ edgeObjective d g (between t x y) = (1 - t) * edgeObjective d g x + t * edgeObjective d g y ∧
      ∀ n, edgeNodeFlow d g (between t x y) n = (1 - t) * edgeNodeFlow d g x n + t * edgeNodeFlow d g y n := by
  rw [edgeFeasible_iff] at hx hy
  obtain ⟨hb, lx, px, hx⟩ := hx
  obtain ⟨-, ly, py, hy⟩ := hy
  refine ⟨?_, ?_, fun n => ?_⟩
  · rw [edgeFeasible_iff]
    exact ⟨hb, between_length lx ly, between_nonneg h0 h1 px py, hold_mix h0 h1 lx ly hx hy⟩
  · simp only [edgeObjective_S]; exact S_between _ _ _ _ lx ly _
  · simp only [edgeNodeFlow_S]; exact S_between _ _ _ _ lx ly _

/-- **C125 (optimal allocations).** Whatever lies between two optimal allocations is optimal, with either solver. -/
theorem C125_optima (d : Data) (routes : List (List Nat)) (g : Graph) (t : Rat) (h0 : 0 ≤ t) (h1 : t ≤ 1) (x y : List Rat) :
    (Optimal d routes x → Optimal d routes y → Optimal d routes (between t x y)) ∧ (EdgeOptimal d g x → EdgeOptimal d g y → EdgeOptimal d g (between t x y)) := by
  refine ⟨fun hx hy => ?_, fun hx hy => ?_⟩
  · obtain ⟨a, b, -⟩ := C125_between d routes t h0 h1 x y hx.1 hy.1
    exact ⟨a, fun z hz => by rw [b]; exact mix_le h0 h1 (hx.2 z hz) (hy.2 z hz)⟩
  · obtain ⟨a, b, -⟩ := C125_edge_between d g t h0 h1 x y hx.1 hy.1
    exact ⟨a, fun z hz => by rw [b]; exact mix_le h0 h1 (hx.2 z hz) (hy.2 z hz)⟩

/-! ## Limits that are not reached -/

/-- What the first row admits is admitted by the second, and on the way from there to what the second row admits the first row is not violated at once. -/
private def Near (r r' : Row) (v : Rat) : Prop :=
  r.Admits v → r'.Admits v ∧ ∀ u, r'.Admits u → ∃ ε, 0 < ε ∧ ε ≤ 1 ∧ ∀ t, 0 ≤ t → t ≤ ε → r.Admits ((1 - t) * v + t * u)

private theorem near_self (r : Row) (v : Rat) : Near r r v := fun h => ⟨h, fun u hu => ⟨1, by norm_num, le_refl _, fun _ h0 h1 => admits_mix h0 h1 h hu⟩⟩

private theorem lower_small {p v : Rat} (h : p < v) (u : Rat) : ∃ ε, 0 < ε ∧ ε ≤ 1 ∧ ∀ t, 0 ≤ t → t ≤ ε → p ≤ (1 - t) * v + t * u := by
  have hpos : 0 < |u - v| + 1 := by positivity
  refine ⟨min 1 ((v - p) / (|u - v| + 1)), lt_min (by norm_num) (div_pos (by linarith) hpos), min_le_left _ _, fun t h0 h1 => ?_⟩
  have h2 : t ≤ (v - p) / (|u - v| + 1) := le_trans h1 (min_le_right _ _)
  rw [le_div_iff₀ hpos] at h2
  have h3 : -|u - v| ≤ u - v := neg_abs_le _
  have h4 := mul_le_mul_of_nonneg_left h3 h0
  linarith

private theorem upper_small {q v : Rat} (h : v < q) (u : Rat) : ∃ ε, 0 < ε ∧ ε ≤ 1 ∧ ∀ t, 0 ≤ t → t ≤ ε → (1 - t) * v + t * u ≤ q := by
  obtain ⟨ε, h0, h1, h2⟩ := lower_small (neg_lt_neg h) (-u)
  exact ⟨ε, h0, h1, fun t a b => by have := h2 t a b; linarith⟩

private theorem rnd_near (q : Rat) : q - e8 < rnd q ∧ rnd q < q + e8 := by
  have := e8_pos
  unfold rnd
  split
  · rename_i h
    rw [abs_lt] at h
    constructor <;> linarith
  · constructor <;> linarith

private theorem eff (q : Rat) : F.effective (.fin q) = .fin (rnd q) := by simp only [F.effective, rnd]; split <;> rfl

/-- Two lower limits, both kept or both clear. -/
private theorem lower_side {a a' : F} {v : Rat} (ha : LowerLimit a) (ha' : LowerLimit a') (h : a' = a ∨ ClearOfLower a v ∧ ClearOfLower a' v) (hv : a.effective.AtLeast v) :
    a'.effective.AtLeast v ∧ ∀ u, a'.effective.AtLeast u → ∃ ε, 0 < ε ∧ ε ≤ 1 ∧ ∀ t, 0 ≤ t → t ≤ ε → a.effective.AtLeast ((1 - t) * v + t * u) := by
  rcases h with rfl | ⟨h, h'⟩
  · refine ⟨hv, fun u hu => ⟨1, by norm_num, le_refl _, fun t h0 h1 => ?_⟩⟩
    rcases ha with rfl | ⟨p, rfl, -⟩
    · simp [F.effective, F.AtLeast]
    · rw [eff] at *; exact le_mix h0 h1 hv hu
  · have hE := e8_pos
    refine ⟨?_, fun u _ => ?_⟩
    · rcases ha' with rfl | ⟨p, rfl, -⟩
      · simp [F.effective, F.AtLeast]
      · rw [eff]
        simp only [ClearOfLower] at h'
        have := (rnd_near p).2
        simp only [F.AtLeast]; linarith
    · rcases ha with rfl | ⟨p, rfl, -⟩
      · exact ⟨1, by norm_num, le_refl _, fun _ _ _ => by simp [F.effective, F.AtLeast]⟩
      · rw [eff]
        simp only [ClearOfLower] at h
        have := (rnd_near p).2
        exact lower_small (by linarith) u

private theorem upper_side {a a' : F} {v : Rat} (ha : UpperLimit a) (ha' : UpperLimit a') (h : a' = a ∨ ClearOfUpper a v ∧ ClearOfUpper a' v) (hv : a.effective.AtMost v) :
    a'.effective.AtMost v ∧ ∀ u, a'.effective.AtMost u → ∃ ε, 0 < ε ∧ ε ≤ 1 ∧ ∀ t, 0 ≤ t → t ≤ ε → a.effective.AtMost ((1 - t) * v + t * u) := by
  rcases h with rfl | ⟨h, h'⟩
  · refine ⟨hv, fun u hu => ⟨1, by norm_num, le_refl _, fun t h0 h1 => ?_⟩⟩
    rcases ha with rfl | ⟨p, rfl, -⟩
    · simp [F.effective, F.AtMost]
    · rw [eff] at *; exact mix_le h0 h1 hv hu
  · have hE := e8_pos
    refine ⟨?_, fun u _ => ?_⟩
    · rcases ha' with rfl | ⟨p, rfl, -⟩
      · simp [F.effective, F.AtMost]
      · rw [eff]
        simp only [ClearOfUpper] at h'
        have := (rnd_near p).1
        simp only [F.AtMost]; linarith
    · rcases ha with rfl | ⟨p, rfl, -⟩
      · exact ⟨1, by norm_num, le_refl _, fun _ _ _ => by simp [F.effective, F.AtMost]⟩
      · rw [eff]
        simp only [ClearOfUpper] at h
        have := (rnd_near p).1
        exact upper_small (by linarith) u

/-- A value clear of one limit: the limits are not close. -/
private theorem not_close_lower {a b : F} {v : Rat} (h : ClearOfLower a v) (hv : b.effective.AtMost v) : ¬Close a.effective b.effective := by
  have hE := e8_pos
  cases a with
  | fin p =>
    cases b with
    | fin q =>
      rw [eff, eff] at *
      simp only [Close, ClearOfLower, F.AtMost] at *
      have := (rnd_near p).2
      rw [abs_lt]
      rintro ⟨h1, h2⟩
      linarith
    | _ => simp [F.effective, Close]
  | _ => simp [F.effective, Close]

private theorem not_close_upper {a b : F} {v : Rat} (h : ClearOfUpper b v) (hv : a.effective.AtLeast v) : ¬Close a.effective b.effective := by
  have hE := e8_pos
  cases a with
  | fin p =>
    cases b with
    | fin q =>
      rw [eff, eff] at *
      simp only [Close, ClearOfUpper, F.AtLeast] at *
      have := (rnd_near q).1
      rw [abs_lt]
      rintro ⟨h1, h2⟩
      linarith
    | _ => simp [F.effective, Close]
  | _ => simp [F.effective, Close]

private theorem limit_near {a b a' b' : F} {v : Rat} (h : Unreached a b a' b' v) : ∃ r r', flowRow true a b = .stored r ∧ flowRow true a' b' = .stored r' ∧ Near r r' v := by
  obtain ⟨⟨ha, hb, ha', hb'⟩, hlo, hhi⟩ := h
  by_cases hsame : a' = a ∧ b' = b
  · obtain ⟨rfl, rfl⟩ := hsame
    obtain ⟨r, hr, -⟩ := admits_iff ha hb
    exact ⟨r, r, hr, hr, near_self r v⟩
  · obtain ⟨r, hr, hadm⟩ := admits_iff ha hb
    obtain ⟨r', hr', hadm'⟩ := admits_iff ha' hb'
    refine ⟨r, r', hr, hr', fun hv => ?_⟩
    have hE := e8_pos
    have hv := (hadm v).1 hv
    have clear : ClearOfLower a v ∧ ClearOfLower a' v ∨ ClearOfUpper b v ∧ ClearOfUpper b' v := by
      rcases hlo with h1 | h1
      · rcases hhi with h2 | h2
        · exact absurd ⟨h1, h2⟩ hsame
        · exact .inr h2
      · exact .inl h1
    have hnc : a.effective.AtLeast v ∧ b.effective.AtMost v ∧ ¬Close a.effective b.effective := by
      rcases hv with ⟨hc, hxa⟩ | ⟨h1, h2, h3⟩
      · exfalso
        rcases ha with rfl | ⟨p, rfl, -⟩
        · simp [F.effective, Close] at hc
        · rcases hb with rfl | ⟨q, rfl, -⟩
          · simp [F.effective, Close] at hc
          · rw [eff] at hxa hc
            rw [eff] at hc
            cases hxa
            simp only [Close, abs_lt] at hc
            have h1 := rnd_near p
            have h2 := rnd_near q
            rcases clear with ⟨c, -⟩ | ⟨c, -⟩
            · simp only [ClearOfLower] at c; linarith
            · simp only [ClearOfUpper] at c; linarith
      · exact ⟨h2, h3, h1⟩
    obtain ⟨l1, l2⟩ := lower_side ha ha' hlo hnc.1
    obtain ⟨u1, u2⟩ := upper_side hb hb' hhi hnc.2.1
    have hnc' : ¬Close a'.effective b'.effective := by
      rcases clear with ⟨-, c⟩ | ⟨-, c⟩
      · exact not_close_lower c u1
      · exact not_close_upper c l1
    refine ⟨(hadm' v).2 (.inr ⟨hnc', l1, u1⟩), fun u hu => ?_⟩
    rcases (hadm' u).1 hu with ⟨hc, -⟩ | ⟨-, w1, w2⟩
    · exact absurd hc hnc'
    · obtain ⟨ε, e0, e1, e2⟩ := l2 u w1
      obtain ⟨δ, f0, f1, f2⟩ := u2 u w2
      exact ⟨min ε δ, lt_min e0 f0, le_trans (min_le_left _ _) e1, fun t t0 t1 =>
        (hadm _).2 (.inr ⟨hnc.2.2, e2 t t0 (le_trans t1 (min_le_left _ _)), f2 t t0 (le_trans t1 (min_le_right _ _))⟩)⟩

private theorem volume_near {days : Rat} (hd : 0 < days) {s s' : StorageData} {q : Rat} (h : UnreachedVolume days s s' q) :
    Near (Storage.storageRow s.volume s.mx s.mn days) (Storage.storageRow s'.volume s'.mx s'.mn days) q := by
  obtain ⟨⟨-, -, e⟩, ⟨⟨i1, i2⟩, i3, i4⟩, ⟨⟨z1, z2⟩, z3, z4⟩, hlo, hhi⟩ := h
  rw [e]
  by_cases hsame : s'.mn = s.mn ∧ s'.mx = s.mx
  · rw [hsame.1, hsame.2]; exact near_self _ _
  · have hE := e8_pos
    have hpos : 0 < 2 * e8 * days := by positivity
    intro hv
    rw [storage_admits hd z1 z2] at hv
    have ne : s.mx ≠ s.mn := by
      intro he
      rw [if_pos he] at hv
      subst hv
      rcases hlo with h1 | ⟨h1, -⟩
      · rcases hhi with h2 | ⟨h2, -⟩
        · exact hsame ⟨h1, h2⟩
        · linarith
      · linarith
    rw [if_neg ne, max_eq_left (by linarith), max_eq_left (by linarith)] at hv
    have room : ∀ m, m + 2 * e8 * days < s.volume + q * days → rnd (-(s.volume - m) / days) < q := fun m hm => by
      have h1 := (rnd_near (-(s.volume - m) / days)).2
      have : -(s.volume - m) / days < q - 2 * e8 := by rw [div_lt_iff₀ hd]; linarith
      linarith
    have room' : ∀ m, s.volume + q * days + 2 * e8 * days < m → q < rnd ((m - s.volume) / days) := fun m hm => by
      have h1 := (rnd_near ((m - s.volume) / days)).1
      have : q + 2 * e8 < (m - s.volume) / days := by rw [lt_div_iff₀ hd]; linarith
      linarith
    have ne' : s'.mx ≠ s'.mn := by
      intro he
      have b1 : s.volume = s'.mx := le_antisymm i4 (he ▸ i3)
      have b2 : s.volume = s'.mn := by rw [b1, he]
      have h0 : rnd 0 = 0 := by unfold rnd; split <;> rfl
      rcases hlo with h1 | ⟨-, h1⟩
      · rcases hhi with h2 | ⟨-, h2⟩
        · exact hsame ⟨h1, h2⟩
        · have : rnd (-(s.volume - s.mn) / days) = 0 := by rw [← h1, ← b2, sub_self, neg_zero, zero_div, h0]
          rw [this] at hv
          have := mul_nonneg hv.1 hd.le
          linarith
      · rcases hhi with h2 | ⟨-, h2⟩
        · have : rnd ((s.mx - s.volume) / days) = 0 := by rw [← h2, ← b1, sub_self, zero_div, h0]
          rw [this] at hv
          have := mul_nonpos_of_nonpos_of_nonneg hv.2 hd.le
          linarith
        · linarith
    rw [storage_admits hd z3 z4, if_neg ne', max_eq_left (by linarith), max_eq_left (by linarith)]
    have low : rnd (-(s.volume - s'.mn) / days) ≤ q ∧ ∀ u, rnd (-(s.volume - s'.mn) / days) ≤ u → ∃ ε, 0 < ε ∧ ε ≤ 1 ∧ ∀ t, 0 ≤ t → t ≤ ε → rnd (-(s.volume - s.mn) / days) ≤ (1 - t) * q + t * u := by
      rcases hlo with h1 | ⟨h1, h2⟩
      · rw [h1]; exact ⟨hv.1, fun u hu => ⟨1, by norm_num, le_refl _, fun t h0 h1 => le_mix h0 h1 hv.1 hu⟩⟩
      · exact ⟨(room _ h2).le, fun u _ => lower_small (room _ h1) u⟩
    have upp : q ≤ rnd ((s'.mx - s.volume) / days) ∧ ∀ u, u ≤ rnd ((s'.mx - s.volume) / days) → ∃ ε, 0 < ε ∧ ε ≤ 1 ∧ ∀ t, 0 ≤ t → t ≤ ε → (1 - t) * q + t * u ≤ rnd ((s.mx - s.volume) / days) := by
      rcases hhi with h1 | ⟨h1, h2⟩
      · rw [h1]; exact ⟨hv.2, fun u hu => ⟨1, by norm_num, le_refl _, fun t h0 h1 => mix_le h0 h1 hv.2 hu⟩⟩
      · exact ⟨(room' _ h2).le, fun u _ => upper_small (room' _ h1) u⟩
    refine ⟨⟨low.1, upp.1⟩, fun u hu => ?_⟩
    rw [storage_admits hd z3 z4, if_neg ne', max_eq_left (by linarith), max_eq_left (by linarith)] at hu
    obtain ⟨ε, e0, e1, e2⟩ := low.2 u hu.1
    obtain ⟨δ, f0, f1, f2⟩ := upp.2 u hu.2
    refine ⟨min ε δ, lt_min e0 f0, le_trans (min_le_left _ _) e1, fun t t0 t1 => ?_⟩
    rw [storage_admits hd z1 z2, if_neg ne, max_eq_left (by linarith), max_eq_left (by linarith)]
    exact ⟨e2 t t0 (le_trans t1 (min_le_left _ _)), f2 t t0 (le_trans t1 (min_le_right _ _))⟩

/-- Rows of two problems that differ in their bounds only. -/
private def NearLine {α : Type} (l : List α) (x : List Rat) (o o' : Option (Line α)) : Prop :=
  ∀ L, o = some L → L.Built l → ∃ r', o' = some ⟨L.bad, L.mult, L.coef, r'⟩ ∧ Near L.bounds r' (S l x L.coef)

private theorem nearLine_self {α : Type} (l : List α) (x : List Rat) (o : Option (Line α)) : NearLine l x o o := fun L hL _ => ⟨L.bounds, hL, near_self _ _⟩

private theorem nearLine_limit {α : Type} {bad : α → Bool} {m : α → Nat} {w : α → Rat} {a b a' b' : F} {l : List α} {x : List Rat} (h : Unreached a b a' b' (S l x w)) :
    NearLine l x (limitLine bad m w a b) (limitLine bad m w a' b') := by
  obtain ⟨r, r', hr, hr', hn⟩ := limit_near h
  unfold limitLine
  rw [hr, hr']
  rintro L hL -
  simp only [Option.some.injEq] at hL
  subst hL
  exact ⟨r', rfl, hn⟩

private theorem hold_near {α : Type} {l : List α} {x : List Rat} (lx : x.length = l.length) {lines lines' : List (Option (Line α))} (h : List.Forall₂ (NearLine l x) lines lines')
    (hx : AllHold lines l x) : AllHold lines' l x ∧ ∀ y, y.length = l.length → AllHold lines' l y → ∃ ε, 0 < ε ∧ ε ≤ 1 ∧ ∀ t, 0 ≤ t → t ≤ ε → AllHold lines l (between t x y) := by
  induction h with
  | nil =>
    exact ⟨fun o ho => (by cases ho), fun _ _ _ => ⟨1, by norm_num, le_refl _, fun _ _ _ o ho => (by cases ho)⟩⟩
  | @cons o o' ls ls' ho _ ih =>
    obtain ⟨i1, i2⟩ := ih fun o ho => hx o (List.mem_cons_of_mem _ ho)
    obtain ⟨L, hL, hb, hh⟩ := hx o List.mem_cons_self
    obtain ⟨r', hr', hn⟩ := ho L hL hb
    obtain ⟨n1, n2⟩ := hn hh
    refine ⟨fun p hp => ?_, fun y ly hy => ?_⟩
    · rcases List.mem_cons.1 hp with rfl | hp
      · exact ⟨_, hr', hb, n1⟩
      · exact i1 p hp
    · obtain ⟨ε, e0, e1, e2⟩ := i2 y ly fun o ho => hy o (List.mem_cons_of_mem _ ho)
      obtain ⟨L', hL', -, hh'⟩ := hy o' List.mem_cons_self
      rw [hr'] at hL'
      cases hL'
      obtain ⟨δ, f0, f1, f2⟩ := n2 _ hh'
      refine ⟨min ε δ, lt_min e0 f0, le_trans (min_le_left _ _) e1, fun t t0 t1 p hp => ?_⟩
      rcases List.mem_cons.1 hp with rfl | hp
      · refine ⟨L, hL, hb, ?_⟩
        unfold Line.Holds
        rw [S_between l t x y lx ly]
        exact f2 t t0 (le_trans t1 (min_le_right _ _))
      · exact e2 t t0 (le_trans t1 (min_le_left _ _)) p hp

private theorem forall₂_map {α β : Type} {R : β → β → Prop} {f f' : α → β} {l : List α} (h : ∀ a ∈ l, R (f a) (f' a)) : List.Forall₂ R (l.map f) (l.map f') := by
  induction l with
  | nil => exact .nil
  | cons a l ih => exact .cons (h a (by simp)) (ih fun b hb => h b (by simp [hb]))

private theorem forall₂_self {β : Type} {R : β → β → Prop} (h : ∀ b, R b b) (l : List β) : List.Forall₂ R l l := by
  induction l with
  | nil => exact .nil
  | cons a l ih => exact .cons (h a) ih

private theorem forall₂_lift {α β : Type} {Q : α → α → Prop} {R : β → β → Prop} {f f' : α → β} {l l' : List α} (h : List.Forall₂ Q l l') (hR : ∀ a ∈ l, ∀ b, Q a b → R (f a) (f' b)) :
    List.Forall₂ R (l.map f) (l'.map f') := by
  induction h with
  | nil => exact .nil
  | cons hab _ ih => exact .cons (hR _ (by simp) _ hab) (ih fun a ha => hR a (by simp [ha]))

private theorem forall₂_append {β : Type} {R : β → β → Prop} {a a' b b' : List β} (h : List.Forall₂ R a a') (h' : List.Forall₂ R b b') : List.Forall₂ R (a ++ b) (a' ++ b') := by
  induction h with
  | nil => exact h'
  | cons hab _ ih => exact .cons hab ih

private theorem flow_row {d : Data} {routes : List (List Nat)} (hw : WellRouted d routes) (x : List Rat) {n : Nat} (hk : d.kind n ≠ .other) :
    S routes x (fun r => term (passes (d.kind n) n r) 1) = routeNodeFlow d routes x n := by
  rw [routeNodeFlow_eq hw]
  refine S_congr fun r _ => ?_
  have : passes (d.kind n) n r = true ↔ Carries d r n := by
    unfold passes Carries
    cases hkn : d.kind n with
    | input => simp
    | output => simp
    | link => simp
    | other => exact absurd hkn hk
  exact if_congr this rfl rfl

private theorem store_value {d : Data} {routes : List (List Nat)} (hw : WellRouted d routes) (hs : StoragesOk d) (x : List Rat) {s : StorageData} (hm : s ∈ d.storages)
    (hb : (storageLine d s).Built routes) : S routes x (storageLine d s).coef = storageFlow (routeNodeFlow d routes x) s := by
  obtain ⟨row, hr, hv⟩ := (storageRow_line (fun _ q => q = S routes x (storageLine d s).coef) d routes s x).2 ⟨hb, rfl⟩
  rw [← hv]
  refine (storage_value hw x ?_ ?_ (fun n hn => (hs.2.2.1 s hm n hn).2) (fun n hn => (hs.2.2.2 s hm n hn).2) hr).1
  · exact (List.nodup_flatMap.1 hs.1).1 s hm
  · exact (List.nodup_flatMap.1 hs.2.1).1 s hm

private theorem lines_near {d d' : Data} {routes : List (List Nat)} (hw : WellRouted d routes) (hs : StoragesOk d) {x : List Rat} (h : OnlyUnreached d d' (routeNodeFlow d routes x)) :
    List.Forall₂ (NearLine routes x) (routeLines d) (routeLines d') := by
  obtain ⟨hk, hn, -, hcr, hvi, hag, ⟨hd, hpos⟩, hlim, hst⟩ := h
  have hns : d'.nonStorages = d.nonStorages := by unfold Data.nonStorages; rw [hn, hk]
  unfold routeLines
  rw [hns, hcr, hvi, hag]
  refine forall₂_append (forall₂_append (forall₂_append (forall₂_append (forall₂_append ?_ ?_) ?_) ?_) (forall₂_self (nearLine_self _ _) _)) (forall₂_self (nearLine_self _ _) _)
  · refine forall₂_map fun n hm => ?_
    have hm := mem_nonStorages.1 hm
    have := hlim n hm.1 hm.2
    rw [← flow_row hw x hm.2] at this
    unfold nodeLine
    rw [hk]
    exact nearLine_limit this
  · refine forall₂_map fun c _ => ?_
    have : crossLine d' c = crossLine d c := by unfold crossLine; rw [hk]
    rw [this]; exact nearLine_self _ _ _
  · refine forall₂_lift hst fun s hm s' hu => ?_
    rintro L hL hb
    cases hL
    refine ⟨Storage.storageRow s'.volume s'.mx s'.mn d.days, ?_, ?_⟩
    · unfold storageLine; rw [hu.same.1, hu.same.2.1, hd]
    · rw [store_value hw hs x hm hb]
      exact volume_near hpos hu
  · refine forall₂_map fun v _ => ?_
    have : virtualLine d' v = virtualLine d v := by unfold virtualLine; rw [hd]
    rw [this]; exact nearLine_self _ _ _

private theorem unreached_symm {a b a' b' : F} {v : Rat} (h : Unreached a b a' b' v) : Unreached a' b' a b v := by
  obtain ⟨⟨h1, h2, h3, h4⟩, hl, hu⟩ := h
  exact ⟨⟨h3, h4, h1, h2⟩, hl.imp Eq.symm And.symm, hu.imp Eq.symm And.symm⟩

private theorem only_symm {d d' : Data} {flow : Nat → Rat} (h : OnlyUnreached d d' flow) : OnlyUnreached d' d flow := by
  obtain ⟨hk, hn, hco, hcr, hvi, hag, ⟨hd, hpos⟩, hlim, hst⟩ := h
  refine ⟨hk.symm, hn.symm, hco.symm, hcr.symm, hvi.symm, hag.symm, ⟨hd.symm, hd ▸ hpos⟩, fun n hm hkn => unreached_symm (hlim n (hn ▸ hm) (hk ▸ hkn)), ?_⟩
  refine List.Forall₂.flip (hst.imp fun s s' hu => ?_)
  show UnreachedVolume d'.days s' s (storageFlow flow s')
  obtain ⟨⟨a1, a2, a3⟩, ⟨b1, b2⟩, ⟨c1, c2⟩, hl, hu⟩ := hu
  have e : storageFlow flow s' = storageFlow flow s := by unfold storageFlow; rw [a1, a2]
  rw [hd, e]
  exact ⟨⟨a1.symm, a2.symm, a3.symm⟩, by rw [a3]; exact ⟨b2, b1⟩, by rw [a3]; exact ⟨c2, c1⟩, by rw [a3]; exact hl.imp Eq.symm And.symm, by rw [a3]; exact hu.imp Eq.symm And.symm⟩

private theorem storagesOk_of {d d' : Data} {flow : Nat → Rat} (h : OnlyUnreached d d' flow) (hs : StoragesOk d) : StoragesOk d' := by
  have e : ∀ {l l' : List StorageData} {R}, List.Forall₂ (fun s s' => UnreachedVolume R s s' (storageFlow flow s)) l l' → l'.map (fun s => (s.inputs, s.outputs)) = l.map fun s => (s.inputs, s.outputs) := by
    intro l l' R hst
    induction hst with
    | nil => rfl
    | cons hu _ ih => rw [List.map_cons, List.map_cons, ih, hu.same.1, hu.same.2.1]
  have e := e h.storages
  have e1 : d'.storages.flatMap (·.inputs) = d.storages.flatMap (·.inputs) := by
    have := congrArg (fun l => l.flatMap (·.1)) e
    simpa [List.flatMap_map] using this
  have e2 : d'.storages.flatMap (·.outputs) = d.storages.flatMap (·.outputs) := by
    have := congrArg (fun l => l.flatMap (·.2)) e
    simpa [List.flatMap_map] using this
  have back : ∀ s' ∈ d'.storages, ∃ s ∈ d.storages, s'.inputs = s.inputs ∧ s'.outputs = s.outputs := by
    intro s' hs'
    have : (s'.inputs, s'.outputs) ∈ d'.storages.map fun s => (s.inputs, s.outputs) := List.mem_map_of_mem hs'
    rw [e, List.mem_map] at this
    obtain ⟨s, hs, he⟩ := this
    simp only [Prod.mk.injEq] at he
    exact ⟨s, hs, he.1.symm, he.2.symm⟩
  unfold StoragesOk
  rw [e1, e2, h.kind, h.nodes]
  refine ⟨hs.1, hs.2.1, fun s' hs' n hn => ?_, fun s' hs' n hn => ?_⟩
  · obtain ⟨s, hm, a, -⟩ := back s' hs'
    exact hs.2.2.1 s hm n (a ▸ hn)
  · obtain ⟨s, hm, -, a⟩ := back s' hs'
    exact hs.2.2.2 s hm n (a ▸ hn)

private theorem one_way {d d' : Data} {routes : List (List Nat)} (hw : WellRouted d routes) (hs : StoragesOk d) {x : List Rat} (h : OnlyUnreached d d' (routeNodeFlow d routes x))
    (hx : Optimal d routes x) : Optimal d' routes x := by
  have hf := hx.1
  rw [routeFeasible_iff] at hf
  obtain ⟨⟨b1, b2, b3⟩, lx, px, hl⟩ := hf
  have hns : d'.nonStorages = d.nonStorages := by unfold Data.nonStorages; rw [h.nodes, h.kind]
  obtain ⟨n1, n2⟩ := hold_near lx (lines_near hw hs h) hl
  have ho : ∀ z, routeObjective d' routes z = routeObjective d routes z := fun z => by
    rw [routeObjective_S, routeObjective_S]; unfold routeCost; rw [h.kind, h.cost]
  refine ⟨(routeFeasible_iff _ _ _).2 ⟨⟨by rwa [h.nodes], b2, by rwa [hns]⟩, lx, px, n1⟩, fun y hy => ?_⟩
  rw [routeFeasible_iff] at hy
  obtain ⟨-, ly, py, hy⟩ := hy
  obtain ⟨ε, e0, e1, e2⟩ := n2 y ly hy
  have := hx.2 (between ε x y) ((routeFeasible_iff _ _ _).2 ⟨⟨b1, b2, b3⟩, between_length lx ly, between_nonneg e0.le e1 px py, e2 ε e0.le (le_refl _)⟩)
  rw [routeObjective_S, routeObjective_S, S_between routes ε x y lx ly] at this
  rw [ho, ho, routeObjective_S, routeObjective_S]
  have h2 : 0 ≤ ε * (S routes y (fun r => roundCost (routeCost d r)) - S routes x fun r => roundCost (routeCost d r)) := by linarith
  have := nonneg_of_mul_nonneg_right h2 e0
  linarith

/-- **C125 (limits that are not reached, route solver).** Limits of flows and volumes that an allocation does not reach can be moved, or taken away, without changing whether the allocation is optimal. -/
theorem C125_unreached (d d' : Data) (routes : List (List Nat)) (hw : WellRouted d routes) (hs : StoragesOk d) (x : List Rat) (h : OnlyUnreached d d' (routeNodeFlow d routes x)) :
    Optimal d routes x ↔ Optimal d' routes x := by
  refine ⟨one_way hw hs h, one_way ?_ (storagesOk_of h hs) ?_⟩
  · unfold WellRouted; rw [h.kind, h.nodes]; exact hw
  · have : routeNodeFlow d' routes x = routeNodeFlow d routes x := by funext n; rw [routeNodeFlow_eq_S, routeNodeFlow_eq_S]; unfold nodeCoef; rw [h.kind]
    rw [this]; exact only_symm h

/-! ## The same for the edge solver -/

private theorem flow_rowE {d : Data} {g : Graph} (hg : Connects d g) {y : List Rat} (hy : EdgeFeasible d g y) (h0 : Idle g y) {n : Nat} (hn : n ∈ d.nodes) (hk : d.kind n ≠ .other) :
    S g.edges y (fun e => term (meets d g n e) 1) = edgeNodeFlow d g y n := by
  rw [flow_inner d h0, edgeNodeFlow_thru (inner_one hg) ((feasible_inner d g y).1 hy).1 hn hk]
  have off : ∀ e, inside g e = false → meets d g n e = false := by
    intro e he
    unfold inside at he
    unfold meets enters leaves
    rw [he]; simp
  rw [S_inner y _ fun c hc hin => by rw [off _ hin]; simp [term]]
  unfold thru
  refine S_congr fun e he => ?_
  have hin : inside g e = true := (List.mem_filter.1 he).2
  unfold inside at hin
  unfold meets enters leaves counts term
  rw [hin]
  by_cases ho : d.kind n = .output <;> simp [ho]

private theorem store_valueE {d : Data} {g : Graph} (hg : Connects d g) (hs : StoragesOk d) {y : List Rat} (hy : EdgeFeasible d g y) (h0 : Idle g y) {s : StorageData} (hm : s ∈ d.storages) :
    S g.edges y (storageLineE d g s).coef = storageFlow (edgeNodeFlow d g y) s := by
  unfold storageLineE storageFlow
  simp only
  rw [S_add, S_sum, S_sum]
  have e1 : (s.outputs.map fun n => S g.edges y fun e => term (enters g n e) 1) = s.outputs.map (edgeNodeFlow d g y) := by
    refine List.map_congr_left fun n hn => ?_
    obtain ⟨h1, h2⟩ := hs.2.2.2 s hm n hn
    rw [← flow_rowE hg hy h0 h1 (by rw [h2]; simp)]
    unfold meets
    simp only [h2, if_true]
  have e2 : (s.inputs.map fun n => S g.edges y fun e => term (leaves g n e) (-1)) = s.inputs.map fun n => -edgeNodeFlow d g y n := by
    refine List.map_congr_left fun n hn => ?_
    obtain ⟨h1, h2⟩ := hs.2.2.1 s hm n hn
    rw [← flow_rowE hg hy h0 h1 (by rw [h2]; simp), ← S_neg]
    refine S_congr fun e _ => ?_
    unfold meets
    rw [if_neg (by rw [h2]; simp)]
    cases leaves g n e <;> simp [term]
  rw [e1, e2]
  have : ∀ (l : List Nat) (f : Nat → Rat), (l.map fun n => -f n).sum = -(l.map f).sum := by
    intro l f
    induction l with
    | nil => simp
    | cons a l ih => simp only [List.map_cons, List.sum_cons, ih]; ring
  rw [this]; ring

private theorem lines_nearE {d d' : Data} {g : Graph} (hg : Connects d g) (hs : StoragesOk d) {y : List Rat} (hy : EdgeFeasible d g y) (h0 : Idle g y)
    (h : OnlyUnreached d d' (edgeNodeFlow d g y)) : List.Forall₂ (NearLine g.edges y) (edgeLines d g) (edgeLines d' g) := by
  obtain ⟨hk, hn, -, hcr, hvi, hag, ⟨hd, hpos⟩, hlim, hst⟩ := h
  have hns : d'.nonStorages = d.nonStorages := by unfold Data.nonStorages; rw [hn, hk]
  have hme : meets d' g = meets d g := by funext n e; unfold meets; rw [hk]
  unfold edgeLines
  rw [hns, hcr, hvi, hag, hn, hk]
  refine forall₂_append (forall₂_append (forall₂_append (forall₂_append (forall₂_append (forall₂_append ?_ ?_) ?_) ?_) ?_) ?_) ?_
  · refine forall₂_map fun n hm => ?_
    have hm := mem_nonStorages.1 hm
    have := hlim n hm.1 hm.2
    rw [← flow_rowE hg hy h0 hm.1 hm.2] at this
    unfold nodeLineE
    rw [hk, hme]
    exact nearLine_limit this
  · refine forall₂_map fun c _ => ?_
    have : crossLineE d' g c = crossLineE d g c := by unfold crossLineE; rw [hme]
    rw [this]; exact nearLine_self _ _ _
  · exact forall₂_self (nearLine_self _ _) _
  · refine forall₂_lift hst fun s hm s' hu => ?_
    rintro L hL -
    cases hL
    refine ⟨Storage.storageRow s'.volume s'.mx s'.mn d.days, ?_, ?_⟩
    · unfold storageLineE; rw [hu.same.1, hu.same.2.1, hd]
    · rw [store_valueE hg hs hy h0 hm]
      exact volume_near hpos hu
  · refine forall₂_map fun v _ => ?_
    have : virtualLineE d' g v = virtualLineE d g v := by unfold virtualLineE edgeWeights; rw [hme, hd]
    rw [this]; exact nearLine_self _ _ _
  · have : factorLinesE d' g = factorLinesE d g := by funext a; unfold factorLinesE; rw [hme]
    rw [this]; exact forall₂_self (nearLine_self _ _) _
  · have : aggLineE d' g = aggLineE d g := by funext a; unfold aggLineE; rw [hme]
    rw [this]; exact forall₂_self (nearLine_self _ _) _

private theorem one_wayE {d d' : Data} {g : Graph} (hg : Connects d g) (hs : StoragesOk d) {x : List Rat} (h0 : Idle g x) (h : OnlyUnreached d d' (edgeNodeFlow d g x))
    (hx : EdgeOptimal d g x) : EdgeOptimal d' g x := by
  have hf := hx.1
  rw [edgeFeasible_iff] at hf
  obtain ⟨⟨b1, b2, b3⟩, lx, px, hl⟩ := hf
  have hns : d'.nonStorages = d.nonStorages := by unfold Data.nonStorages; rw [h.nodes, h.kind]
  obtain ⟨n1, n2⟩ := hold_near lx (lines_nearE hg hs hx.1 h0 h) hl
  have ho : ∀ z, edgeObjective d' g z = edgeObjective d g z := fun z => by
    rw [edgeObjective_S, edgeObjective_S]; unfold eCost; rw [h.kind, h.cost, h.nodes]
  refine ⟨(edgeFeasible_iff _ _ _).2 ⟨⟨by rwa [h.nodes], b2, by rwa [hns]⟩, lx, px, n1⟩, fun y hy => ?_⟩
  rw [edgeFeasible_iff] at hy
  obtain ⟨-, ly, py, hy⟩ := hy
  obtain ⟨ε, e0, e1, e2⟩ := n2 y ly hy
  have := hx.2 (between ε x y) ((edgeFeasible_iff _ _ _).2 ⟨⟨b1, b2, b3⟩, between_length lx ly, between_nonneg e0.le e1 px py, e2 ε e0.le (le_refl _)⟩)
  rw [edgeObjective_S, edgeObjective_S, S_between g.edges ε x y lx ly] at this
  rw [ho, ho, edgeObjective_S, edgeObjective_S]
  have h2 : 0 ≤ ε * (S g.edges y (eCost d g) - S g.edges x (eCost d g)) := by linarith
  have := nonneg_of_mul_nonneg_right h2 e0
  linarith

/-- **C125 (limits that are not reached, edge solver).** With any number of domains. -/
theorem C125_edge_unreached (d d' : Data) (g : Graph) (hg : Connects d g) (hs : StoragesOk d) (y : List Rat) (h0 : Idle g y) (h : OnlyUnreached d d' (edgeNodeFlow d g y)) :
    EdgeOptimal d g y ↔ EdgeOptimal d' g y := by
  refine ⟨one_wayE hg hs h0 h, one_wayE ?_ (storagesOk_of h hs) h0 ?_⟩
  · unfold Connects; rw [h.kind, h.nodes]; exact hg
  · have : edgeNodeFlow d' g y = edgeNodeFlow d g y := by funext n; rw [edgeNodeFlow_S, edgeNodeFlow_S]; unfold share; rw [h.kind]
    rw [this]; exact only_symm h

/-! ## Returns of a larger maximum -/

private theorem canHave_row {d : Data} {n : Nat} {q : Rat} (h : CanHave d n q) :
    ∃ r, flowRow true (d.minFlow n) (.fin q) = .stored r ∧ ∀ x, r.Admits x ↔ (d.minFlow n).effective.AtLeast x ∧ x ≤ q := by
  obtain ⟨⟨s1, s2⟩, hl, ha⟩ := h
  have hE := e8_pos
  have hD := dblMax_gt
  have hr : rnd q = q := by unfold rnd; rw [if_neg]; rw [abs_of_nonneg (by linarith)]; linarith
  obtain ⟨r, hr', hadm⟩ := admits_iff hl (b := .fin q) (.inr ⟨q, rfl, by linarith, s2⟩)
  refine ⟨r, hr', fun x => ?_⟩
  have hnc : ¬Close (d.minFlow n).effective (F.fin q).effective := by
    rcases hl with e | ⟨p, e, -⟩
    · rw [e]; simp [F.effective, Close]
    · have := ha p e
      rw [e, eff, eff, hr]
      simp only [Close, abs_lt]
      rintro ⟨h1, h2⟩
      have := (rnd_near p).2
      linarith
  rw [hadm, eff, hr]
  simp only [eff, hr] at hnc
  simp [hnc, F.AtMost]

private theorem atLeast_mix {a : F} {t v u : Rat} (h0 : 0 ≤ t) (h1 : t ≤ 1) (hv : a.AtLeast v) (hu : a.AtLeast u) : a.AtLeast ((1 - t) * v + t * u) := by
  cases a with
  | fin p => exact le_mix h0 h1 hv hu
  | negInf => trivial
  | posInf => exact hv
  | nan => exact hv

private theorem limit_mix {α : Type} {bad : α → Bool} {m : α → Nat} {w : α → Rat} {d : Data} {n : Nat} {A B t : Rat} (h0 : 0 ≤ t) (h1 : t ≤ 1) (hA : CanHave d n A) (hB : CanHave d n B)
    {l : List α} {x y : List Rat} (lx : x.length = l.length) (ly : y.length = l.length)
    (hx : ∃ L, limitLine bad m w (d.minFlow n) (.fin A) = some L ∧ L.Built l ∧ L.Holds l x) (hy : ∃ L, limitLine bad m w (d.minFlow n) (.fin B) = some L ∧ L.Built l ∧ L.Holds l y) :
    ∃ L, limitLine bad m w (d.minFlow n) (.fin ((1 - t) * A + t * B)) = some L ∧ L.Built l ∧ L.Holds l (between t x y) := by
  have hC : CanHave d n ((1 - t) * A + t * B) :=
    ⟨⟨le_mix h0 h1 hA.size.1 hB.size.1, mix_le h0 h1 hA.size.2 hB.size.2⟩, hA.lower, fun p hp => le_mix h0 h1 (hA.apart p hp) (hB.apart p hp)⟩
  obtain ⟨rA, eA, kA⟩ := canHave_row hA
  obtain ⟨rB, eB, kB⟩ := canHave_row hB
  obtain ⟨rC, eC, kC⟩ := canHave_row hC
  unfold limitLine at *
  rw [eA] at hx
  rw [eB] at hy
  rw [eC]
  obtain ⟨L, hL, hb, hh⟩ := hx
  obtain ⟨L', hL', -, hh'⟩ := hy
  cases hL
  cases hL'
  refine ⟨_, rfl, hb, ?_⟩
  unfold Line.Holds at *
  simp only at *
  rw [S_between l t x y lx ly]
  have a := (kA _).1 hh
  have b := (kB _).1 hh'
  refine (kC _).2 ⟨atLeast_mix h0 h1 a.1 b.1, ?_⟩
  have h2 := mul_le_mul_of_nonneg_left a.2 (by linarith : 0 ≤ 1 - t)
  have h3 := mul_le_mul_of_nonneg_left b.2 h0
  linarith

private theorem hold_same {α : Type} {o oA oB : Option (Line α)} (eA : oA = o) (eB : oB = o) {l : List α} {t : Rat} (h0 : 0 ≤ t) (h1 : t ≤ 1) {x y : List Rat} (lx : x.length = l.length)
    (ly : y.length = l.length) (hx : ∃ L, oA = some L ∧ L.Built l ∧ L.Holds l x) (hy : ∃ L, oB = some L ∧ L.Built l ∧ L.Holds l y) : ∃ L, o = some L ∧ L.Built l ∧ L.Holds l (between t x y) := by
  subst eA; subst eB
  exact hold_mix (lines := [_]) h0 h1 lx ly (fun o ho => by rw [List.mem_singleton.1 ho]; exact hx) (fun o ho => by rw [List.mem_singleton.1 ho]; exact hy) _ (List.mem_singleton.2 rfl)

/-- **C125 (returns, route solver).** With a maximum flow between two others, an allocation between two feasible ones is feasible; so the least cost is a convex function of the maximum flow of a node: each
further unit of capacity saves at most as much as the one before. -/
theorem C125_returns (d : Data) (n : Nat) (A B t : Rat) (hA : CanHave d n A) (hB : CanHave d n B) (h0 : 0 ≤ t) (h1 : t ≤ 1) (routes : List (List Nat)) :
    (∀ x y, RouteFeasible (withUpper d n A) routes x → RouteFeasible (withUpper d n B) routes y → RouteFeasible (withUpper d n ((1 - t) * A + t * B)) routes (between t x y)) ∧
      ∀ x y z, Optimal (withUpper d n A) routes x → Optimal (withUpper d n B) routes y → Optimal (withUpper d n ((1 - t) * A + t * B)) routes z →
        routeObjective d routes z ≤ (1 - t) * routeObjective d routes x + t * routeObjective d routes y := by
  have key : ∀ x y, RouteFeasible (withUpper d n A) routes x → RouteFeasible (withUpper d n B) routes y → RouteFeasible (withUpper d n ((1 - t) * A + t * B)) routes (between t x y) := by
    intro x y hx hy
    rw [routeFeasible_iff] at hx hy
    obtain ⟨hb, lx, px, hx⟩ := hx
    obtain ⟨-, ly, py, hy⟩ := hy
    rw [routeFeasible_iff]
    refine ⟨hb, between_length lx ly, between_nonneg h0 h1 px py, ?_⟩
    unfold AllHold routeLines withUpper at hx hy ⊢
    simp only [List.mem_append, List.mem_map, List.mem_flatMap, or_imp, forall_and, forall_exists_index, and_imp, forall_apply_eq_imp_iff₂] at hx hy ⊢
    obtain ⟨⟨⟨⟨⟨x1, x2⟩, x3⟩, x4⟩, x5⟩, x6⟩ := hx
    obtain ⟨⟨⟨⟨⟨y1, y2⟩, y3⟩, y4⟩, y5⟩, y6⟩ := hy
    refine ⟨⟨⟨⟨⟨fun m hm => ?_, fun c hc => hold_same rfl rfl h0 h1 lx ly (x2 c hc) (y2 c hc)⟩, fun s hs => hold_same rfl rfl h0 h1 lx ly (x3 s hs) (y3 s hs)⟩,
      fun v hv => hold_same rfl rfl h0 h1 lx ly (x4 v hv) (y4 v hv)⟩, fun o a ha ho => hold_same rfl rfl h0 h1 lx ly (x5 o a ha ho) (y5 o a ha ho)⟩, fun a ha => hold_same rfl rfl h0 h1 lx ly (x6 a ha) (y6 a ha)⟩
    have hx := x1 m hm
    have hy := y1 m hm
    unfold nodeLine at hx hy ⊢
    by_cases he : m = n
    · subst he
      simp only [if_true] at hx hy ⊢
      exact limit_mix h0 h1 hA hB lx ly hx hy
    · simp only [he, if_false] at hx hy ⊢
      exact hold_same rfl rfl h0 h1 lx ly hx hy
  refine ⟨key, fun x y z hx hy hz => ?_⟩
  have := hz.2 _ (key x y hx.1 hy.1)
  have lx : x.length = routes.length := ((routeFeasible_iff _ _ _).1 hx.1).2.1
  have ly : y.length = routes.length := ((routeFeasible_iff _ _ _).1 hy.1).2.1
  have e : routeObjective (withUpper d n ((1 - t) * A + t * B)) routes = routeObjective d routes := rfl
  rw [e] at this
  rw [routeObjective_S d routes (between t x y), S_between routes t x y lx ly] at this
  exact this

/-- **C125 (returns, edge solver).** -/
theorem C125_edge_returns (d : Data) (n : Nat) (A B t : Rat) (hA : CanHave d n A) (hB : CanHave d n B) (h0 : 0 ≤ t) (h1 : t ≤ 1) (g : Graph) :
    (∀ x y, EdgeFeasible (withUpper d n A) g x → EdgeFeasible (withUpper d n B) g y → EdgeFeasible (withUpper d n ((1 - t) * A + t * B)) g (between t x y)) ∧
      ∀ x y z, EdgeOptimal (withUpper d n A) g x → EdgeOptimal (withUpper d n B) g y → EdgeOptimal (withUpper d n ((1 - t) * A + t * B)) g z →
        edgeObjective d g z ≤ (1 - t) * edgeObjective d g x + t * edgeObjective d g y := by
  have key : ∀ x y, EdgeFeasible (withUpper d n A) g x → EdgeFeasible (withUpper d n B) g y → EdgeFeasible (withUpper d n ((1 - t) * A + t * B)) g (between t x y) := by
    intro x y hx hy
    rw [edgeFeasible_iff] at hx hy
    obtain ⟨hb, lx, px, hx⟩ := hx
    obtain ⟨-, ly, py, hy⟩ := hy
    rw [edgeFeasible_iff]
    refine ⟨hb, between_length lx ly, between_nonneg h0 h1 px py, ?_⟩
    unfold AllHold edgeLines withUpper at hx hy ⊢
    simp only [List.mem_append, List.mem_map, List.mem_flatMap, or_imp, forall_and, forall_exists_index, and_imp, forall_apply_eq_imp_iff₂] at hx hy ⊢
    obtain ⟨⟨⟨⟨⟨⟨x1, x2⟩, x0⟩, x3⟩, x4⟩, x5⟩, x6⟩ := hx
    obtain ⟨⟨⟨⟨⟨⟨y1, y2⟩, y0⟩, y3⟩, y4⟩, y5⟩, y6⟩ := hy
    refine ⟨⟨⟨⟨⟨⟨fun m hm => ?_, fun c hc => hold_same rfl rfl h0 h1 lx ly (x2 c hc) (y2 c hc)⟩, fun m hm => hold_same rfl rfl h0 h1 lx ly (x0 m hm) (y0 m hm)⟩,
      fun s hs => hold_same rfl rfl h0 h1 lx ly (x3 s hs) (y3 s hs)⟩,
      fun v hv => hold_same rfl rfl h0 h1 lx ly (x4 v hv) (y4 v hv)⟩, fun o a ha ho => hold_same rfl rfl h0 h1 lx ly (x5 o a ha ho) (y5 o a ha ho)⟩, fun a ha => hold_same rfl rfl h0 h1 lx ly (x6 a ha) (y6 a ha)⟩
    have hx := x1 m hm
    have hy := y1 m hm
    unfold nodeLineE at hx hy ⊢
    by_cases he : m = n
    · subst he
      simp only [if_true] at hx hy ⊢
      exact limit_mix h0 h1 hA hB lx ly hx hy
    · simp only [he, if_false] at hx hy ⊢
      exact hold_same rfl rfl h0 h1 lx ly hx hy
  refine ⟨key, fun x y z hx hy hz => ?_⟩
  have := hz.2 _ (key x y hx.1 hy.1)
  have lx : x.length = g.edges.length := ((edgeFeasible_iff _ _ _).1 hx.1).2.1
  have ly : y.length = g.edges.length := ((edgeFeasible_iff _ _ _).1 hy.1).2.1
  have e : edgeObjective (withUpper d n ((1 - t) * A + t * B)) g = edgeObjective d g := rfl
  rw [e] at this
  rw [edgeObjective_S d g (between t x y), S_between g.edges t x y lx ly, ← edgeObjective_S, ← edgeObjective_S] at this
  exact this

/-! ## Examples -/

/-- A supply, a demand and a reservoir with the nodes 2 (filling it) and 3 (drawing from it). -/
def tank (supply lower upper : Rat) : Data where
  kind := fun n => match n with | 0 => .input | 1 => .output | 2 => .output | 3 => .input | _ => .other
  nodes := [0, 1, 2, 3]
  minFlow := fun _ => .fin 0
  maxFlow := fun n => match n with | 0 => .fin supply | 1 => .fin 5 | _ => .posInf
  cost := fun n => if n = 1 then -10 else 0
  storages := [⟨[3], [2], 50, upper, lower⟩]
  virtuals := []
  aggs := []
  cross := []
  days := 1

private theorem big : (1000 : Rat) < dblMax - 1 := by
  unfold dblMax
  exact_mod_cast (by decide +kernel : (1000 : Int) < 2 ^ 1024 - 2 ^ 971 - 1)

/-- The supply gives 3 of 10 or 20, and the volume falls from 50 to 48, between 0 and 100 or between 10 and 200. -/
example : RouteFeasible (tank 10 0 100) [[0, 1], [0, 2], [3, 1]] [2, 1, 3] ∧ WellRouted (tank 10 0 100) [[0, 1], [0, 2], [3, 1]] ∧ StoragesOk (tank 10 0 100) ∧
    OnlyUnreached (tank 10 0 100) (tank 20 10 200) (routeNodeFlow (tank 10 0 100) [[0, 1], [0, 2], [3, 1]] [2, 1, 3]) := by
  have hb := big
  have hE : e8 = 1 / 100000000 := by unfold e8; norm_num
  have f : ∀ n, routeNodeFlow (tank 10 0 100) [[0, 1], [0, 2], [3, 1]] [2, 1, 3] n = if n = 0 then 3 else if n = 1 then 5 else if n = 2 then 1 else if n = 3 then 3 else routeNodeFlow (tank 10 0 100) [[0, 1], [0, 2], [3, 1]] [2, 1, 3] n := by
    intro n
    split_ifs with h0 h1 h2 h3
    · subst h0; decide +kernel
    · subst h1; decide +kernel
    · subst h2; decide +kernel
    · subst h3; decide +kernel
    · rfl
  have ord : ∀ q : Rat, 0 ≤ q → q ≤ 1000 → OrdinaryDouble q := fun q h1 h2 => ⟨by linarith, by linarith⟩
  have z : LowerLimit (.fin 0) := .inr ⟨0, rfl, ord 0 (by norm_num) (by norm_num)⟩
  have same : ∀ (b : F) (v : Rat), UpperLimit b → Unreached (.fin 0) b (.fin 0) b v := fun b v h => ⟨⟨z, h, z, h⟩, .inl rfl, .inl rfl⟩
  refine ⟨by decide +kernel, ?_, ⟨by decide, by decide, by decide, by decide⟩, rfl, rfl, rfl, rfl, rfl, rfl, ⟨rfl, by norm_num [tank]⟩, fun n hn _ => ?_, .cons ?_ .nil⟩
  · intro r hr
    simp only [List.mem_cons, List.not_mem_nil, or_false] at hr
    rcases hr with rfl | rfl | rfl
    · exact ⟨by decide, ⟨0, rfl, rfl⟩, ⟨1, rfl, rfl⟩, by decide +kernel⟩
    · exact ⟨by decide, ⟨0, rfl, rfl⟩, ⟨2, rfl, rfl⟩, by decide +kernel⟩
    · exact ⟨by decide, ⟨3, rfl, rfl⟩, ⟨1, rfl, rfl⟩, by decide +kernel⟩
  · simp only [tank, List.mem_cons, List.not_mem_nil, or_false] at hn
    rw [f]
    rcases hn with rfl | rfl | rfl | rfl
    · refine ⟨⟨z, .inr ⟨10, rfl, ord _ (by norm_num) (by norm_num)⟩, z, .inr ⟨20, rfl, ord _ (by norm_num) (by norm_num)⟩⟩, .inl rfl, .inr ⟨?_, ?_⟩⟩
      · show (3 : Rat) + 2 * e8 < 10
        rw [hE]; norm_num
      · show (3 : Rat) + 2 * e8 < 20
        rw [hE]; norm_num
    · exact same _ _ (.inr ⟨5, rfl, ord _ (by norm_num) (by norm_num)⟩)
    · exact same _ _ (.inl rfl)
    · exact same _ _ (.inl rfl)
  · have q : storageFlow (routeNodeFlow (tank 10 0 100) [[0, 1], [0, 2], [3, 1]] [2, 1, 3]) ⟨[3], [2], 50, 100, 0⟩ = -2 := by decide +kernel
    show UnreachedVolume 1 ⟨[3], [2], 50, 100, 0⟩ ⟨[3], [2], 50, 200, 10⟩ _
    rw [q]
    refine ⟨⟨rfl, rfl, rfl⟩, ?_, ?_, .inr ?_, .inr ?_⟩
    · norm_num
    · dsimp only
      refine ⟨⟨?_, ?_⟩, ?_, ?_⟩ <;> norm_num <;> linarith
    · dsimp only; rw [hE]; norm_num
    · dsimp only; rw [hE]; norm_num

/-- The supply may give up to 10 or up to 20. -/
example : CanHave (tank 10 0 100) 0 10 ∧ CanHave (tank 10 0 100) 0 20 ∧ RouteFeasible (withUpper (tank 10 0 100) 0 20) [[0, 1], [0, 2], [3, 1]] [5, 12, 0] := by
  have hb := big
  have hE : e8 = 1 / 100000000 := by unfold e8; norm_num
  have z : LowerLimit ((tank 10 0 100).minFlow 0) := .inr ⟨0, rfl, by constructor <;> linarith⟩
  refine ⟨⟨⟨by rw [hE]; norm_num, by linarith⟩, z, fun p hp => ?_⟩, ⟨⟨by rw [hE]; norm_num, by linarith⟩, z, fun p hp => ?_⟩, by decide +kernel⟩
  · cases hp; rw [hE]; norm_num
  · cases hp; rw [hE]; norm_num

/-- Two different optimal allocations of the model of the first example, and one between them. -/
example : RouteFeasible (tank 10 0 100) [[0, 1], [0, 2], [3, 1]] [5, 0, 0] ∧ between (1 / 2) [2, 1, 3] [5, 0, 0] = [7 / 2, 1 / 2, 3 / 2] := by
  refine ⟨by decide +kernel, by decide +kernel⟩

/-- The hypotheses of the theorem on the edge solver. -/
example : EdgeFeasible (tank 10 0 100) ⟨[(0, 1), (0, 2), (3, 1)], fun _ => 0⟩ [2, 1, 3] ∧ Connects (tank 10 0 100) ⟨[(0, 1), (0, 2), (3, 1)], fun _ => 0⟩ ∧
    Idle ⟨[(0, 1), (0, 2), (3, 1)], fun _ => 0⟩ [2, 1, 3] := by
  refine ⟨by decide +kernel, by unfold Connects; decide +kernel, fun c hc h => absurd rfl h⟩

end Verif.Lp

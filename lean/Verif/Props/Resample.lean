import Verif.Spec.Resample
import Mathlib.Tactic.Linarith
import Mathlib.Tactic.Ring
import Mathlib.Tactic.NormNum
import Mathlib.Tactic.FieldSimp
import Mathlib.Data.List.Basic
import Mathlib.Tactic.Positivity
import Mathlib.Algebra.BigOperators.Group.List.Lemmas
/-! Time series on the timesteps of a model (C77). -/

namespace Verif.Resample

/-! ### Selecting the timesteps -/

private theorem mapM_id_iff : ∀ (l : List (Option Rat)) (out : List Rat), l.mapM id = some out ↔ l = out.map some
  | [], out => by cases out <;> simp
  | a :: l, out => by
    rw [List.mapM_cons]
    cases a with
    | none => cases out <;> simp
    | some a =>
      cases out with
      | nil => cases l.mapM id <;> simp
      | cons b out =>
        have := mapM_id_iff l out
        simp only [id, Option.pure_def, Option.bind_eq_bind, Option.bind_some, List.map_cons, List.cons.injEq, Option.some.injEq]
        rw [← this]
        simp only [Option.bind_eq_some_iff, Option.some.injEq, List.cons.injEq]
        constructor
        · rintro ⟨l', h, rfl, rfl⟩; exact ⟨rfl, h⟩
        · rintro ⟨rfl, h⟩; exact ⟨out, h, rfl, rfl⟩

private theorem filter_range (c j n : Nat) (h : j + n ≤ c) : (List.range c).filter (fun i => decide (j ≤ i ∧ i < j + n)) = (List.range n).map (j + ·) := by
  obtain ⟨r, rfl⟩ := Nat.exists_eq_add_of_le h
  rw [List.range_add, List.range_add, List.filter_append, List.filter_append]
  have h1 : (List.range j).filter (fun i => decide (j ≤ i ∧ i < j + n)) = [] := by
    rw [List.filter_eq_nil_iff]; intro i hi; simp only [List.mem_range] at hi; simp; omega
  have h2 : ((List.range n).map (j + ·)).filter (fun i => decide (j ≤ i ∧ i < j + n)) = (List.range n).map (j + ·) := by
    rw [List.filter_eq_self]; intro i hi; obtain ⟨k, hk, rfl⟩ := List.mem_map.1 hi; simp only [List.mem_range] at hk; simp; omega
  have h3 : ((List.range r).map (j + n + ·)).filter (fun i => decide (j ≤ i ∧ i < j + n)) = [] := by
    rw [List.filter_eq_nil_iff]; intro i hi; obtain ⟨k, hk, rfl⟩ := List.mem_map.1 hi; simp
  rw [h1, h2, h3]; simp

/-- Rows with equidistant labels. -/
private def spaced (a : Int) (M c : Nat) (g : Nat → Option Rat) : List Row := (List.range c).map fun i : Nat => (a + (i : Int) * (M : Int), g i)

private theorem select_spaced (T a : Int) (M n c : Nat) (hM : 0 < M) (hn : 0 < n) (g : Nat → Option Rat) (out : List Rat) :
    select T M n (spaced a M c g) = .ok out ↔
      ∃ j : Nat, a + (j : Int) * (M : Int) = T ∧ j + n ≤ c ∧ (List.range n).map (fun i => g (j + i)) = out.map some := by
  have key : ∀ j : Nat, a + (j : Int) * (M : Int) = T → ∀ i : Nat,
      (T ≤ a + (i : Int) * (M : Int) ∧ a + (i : Int) * (M : Int) ≤ T + ((n : Int) - 1) * (M : Int)) ↔ (j ≤ i ∧ i < j + n) := by
    intro j hj i
    have hM' : (0 : Int) < M := by exact_mod_cast hM
    rw [← hj]
    constructor
    · rintro ⟨h1, h2⟩
      have h3 : (j : Int) * M ≤ (i : Int) * M := by linarith
      have h4 := le_of_mul_le_mul_right h3 hM'
      have h5 : (i : Int) * M ≤ ((j : Int) + ((n : Int) - 1)) * M := by nlinarith
      have h6 := le_of_mul_le_mul_right h5 hM'
      omega
    · rintro ⟨h1, h2⟩
      have h3 : (j : Int) * M ≤ (i : Int) * M := mul_le_mul_of_nonneg_right (by omega) hM'.le
      have h4 : (i : Int) * M ≤ ((j : Int) + ((n : Int) - 1)) * M := mul_le_mul_of_nonneg_right (by omega) hM'.le
      constructor
      · linarith
      · nlinarith
  have filt : ∀ j : Nat, a + (j : Int) * (M : Int) = T → j + n ≤ c →
      (spaced a M c g).filter (fun r => decide (T ≤ r.1 ∧ r.1 ≤ T + ((n : Int) - 1) * (M : Int))) =
        (List.range n).map fun i : Nat => (T + (i : Int) * (M : Int), g (j + i)) := by
    intro j hj hc
    unfold spaced
    rw [List.filter_map]
    have : (List.range c).filter ((fun r : Row => decide (T ≤ r.1 ∧ r.1 ≤ T + ((n : Int) - 1) * (M : Int))) ∘ fun i : Nat => (a + (i : Int) * (M : Int), g i)) =
        (List.range c).filter (fun i => decide (j ≤ i ∧ i < j + n)) := by
      apply List.filter_congr
      intro i _
      simp only [Function.comp]
      exact decide_eq_decide.2 (key j hj i)
    rw [this, filter_range c j n hc, List.map_map]
    apply List.map_congr_left
    intro i _
    simp only [Function.comp, Prod.mk.injEq, and_true]
    rw [← hj]; push_cast; ring
  unfold select
  rw [if_neg (by omega)]
  simp only
  constructor
  · intro h
    by_cases c1 : ((spaced a M c g).filter (fun r => decide (T ≤ r.1 ∧ r.1 ≤ T + ((n : Int) - 1) * (M : Int)))).map Prod.fst =
        (List.range n).map (fun i : Nat => T + (i : Int) * (M : Int))
    · rw [if_neg (by rw [c1]; simp)] at h
      have mem : ∀ i : Nat, i < n → ∃ j : Nat, j < c ∧ a + (j : Int) * (M : Int) = T + (i : Int) * (M : Int) := by
        intro i hi
        have : T + (i : Int) * (M : Int) ∈ (List.range n).map (fun i : Nat => T + (i : Int) * (M : Int)) := List.mem_map.2 ⟨i, List.mem_range.2 hi, rfl⟩
        rw [← c1] at this
        obtain ⟨r, hr, he⟩ := List.mem_map.1 this
        obtain ⟨j, hj, rfl⟩ := List.mem_map.1 (List.mem_filter.1 hr).1
        exact ⟨j, List.mem_range.1 hj, he⟩
      obtain ⟨j, hj, he⟩ := mem 0 hn
      obtain ⟨z, hz, hez⟩ := mem (n - 1) (by omega)
      have hj0 : a + (j : Int) * (M : Int) = T := by simpa using he
      have hzj : z = j + (n - 1) := by
        have hM' : (0 : Int) < M := by exact_mod_cast hM
        have h1 : (z : Int) * M = ((j : Int) + ((n - 1 : Nat) : Int)) * M := by rw [← hj0] at hez; linarith
        have h2 := mul_right_cancel₀ hM'.ne' h1
        omega
      refine ⟨j, hj0, by omega, ?_⟩
      rw [filt j hj0 (by omega)] at h
      split at h
      · cases h
      · rename_i o ho
        cases h
        rw [mapM_id_iff] at ho
        rw [← ho, List.map_map]; rfl
    · rw [if_pos c1] at h; cases h
  · rintro ⟨j, hj, hc, hg⟩
    rw [filt j hj hc, if_neg (by simp [List.map_map, Function.comp_def])]
    have : (((List.range n).map fun i : Nat => (T + (i : Int) * (M : Int), g (j + i))).map Prod.snd).mapM id = some out := by
      rw [mapM_id_iff, ← hg, List.map_map]; rfl
    rw [this]

/-! ### Rows in a period -/

private theorem zip_within : ∀ (vs : List (Option Rat)) (j lo hi : Nat),
    ((vs.zipIdx j).filter fun q => decide (lo ≤ q.2 ∧ q.2 < hi)).map Prod.fst = (vs.drop (lo - j)).take (hi - max lo j)
  | [], j, lo, hi => by simp
  | v :: vs, j, lo, hi => by
    rw [List.zipIdx_cons]
    by_cases c : lo ≤ j ∧ j < hi
    · rw [List.filter_cons_of_pos (by simpa using c), List.map_cons, zip_within vs (j + 1) lo hi]
      have e1 : lo - j = 0 := by omega
      have e2 : lo - (j + 1) = 0 := by omega
      have e3 : hi - max lo j = (hi - max lo (j + 1)) + 1 := by omega
      rw [e1, e2, e3]; simp
    · rw [List.filter_cons_of_neg (by simpa using c), zip_within vs (j + 1) lo hi]
      by_cases c1 : lo ≤ j
      · have e1 : hi - max lo j = 0 := by omega
        have e2 : hi - max lo (j + 1) = 0 := by omega
        rw [e1, e2]; simp
      · have e1 : lo - j = (lo - (j + 1)) + 1 := by omega
        have e2 : max lo j = max lo (j + 1) := by omega
        rw [e1, e2]; simp

/-- The values of the rows number `k` to `k + q - 1`. -/
private theorem within_tick (s : Int) (f : Nat) (vs : List (Option Rat)) (hf : 0 < f) (k q : Nat) :
    within (tickRows s f vs) (s + (k : Int) * (f : Int)) (s + ((k + q : Nat) : Int) * (f : Int)) = (vs.drop k).take q := by
  unfold within tickRows
  rw [List.filter_map, List.map_map]
  have hf' : (0 : Int) < f := by exact_mod_cast hf
  have e : (vs.zipIdx.filter ((fun r : Row => decide (s + (k : Int) * (f : Int) ≤ r.1 ∧ r.1 < s + ((k + q : Nat) : Int) * (f : Int))) ∘ fun q => (s + (q.2 : Int) * (f : Int), q.1))) =
      vs.zipIdx.filter fun x => decide (k ≤ x.2 ∧ x.2 < k + q) := by
    apply List.filter_congr
    intro x _
    simp only [Function.comp]
    apply decide_eq_decide.2
    constructor
    · rintro ⟨h1, h2⟩
      have h3 := le_of_mul_le_mul_right (show (k : Int) * f ≤ (x.2 : Int) * f by linarith) hf'
      have h4 := lt_of_mul_lt_mul_right (show (x.2 : Int) * f < ((k + q : Nat) : Int) * f by linarith) hf'.le
      omega
    · rintro ⟨h1, h2⟩
      have h3 : (k : Int) * f ≤ (x.2 : Int) * f := mul_le_mul_of_nonneg_right (by omega) hf'.le
      have h4 : (x.2 : Int) * f < ((k + q : Nat) : Int) * f := mul_lt_mul_of_pos_right (by omega) hf'
      constructor <;> linarith
  rw [e]
  have := zip_within vs 0 k (k + q)
  simp only [Nat.sub_zero, Nat.max_zero, Nat.add_sub_cancel_left] at this
  rw [← this]; rfl

private theorem tick_mem {s : Int} {f : Nat} {vs : List (Option Rat)} {r : Row} (h : r ∈ tickRows s f vs) :
    ∃ k : Nat, k < vs.length ∧ r.1 = s + (k : Int) * (f : Int) ∧ vs[k]? = some r.2 := by
  obtain ⟨q, hq, rfl⟩ := List.mem_map.1 h
  have := List.mem_zipIdx' hq
  exact ⟨q.2, this.1, rfl, by rw [this.2, List.getElem?_eq_getElem this.1]⟩

private theorem tick_get {s : Int} {f : Nat} {vs : List (Option Rat)} {k : Nat} {v : Option Rat} (h : vs[k]? = some v) :
    (s + (k : Int) * (f : Int), v) ∈ tickRows s f vs := by
  refine List.mem_map.2 ⟨(v, k), ?_, rfl⟩
  rw [List.mem_iff_getElem?]
  exact ⟨k, by rw [List.getElem?_zipIdx, h]; simp⟩

private theorem tick_sorted (s : Int) (f : Nat) (hf : 0 < f) (vs : List (Option Rat)) : (tickRows s f vs).Pairwise fun x y => x.1 < y.1 := by
  unfold tickRows
  rw [List.pairwise_map, List.pairwise_iff_getElem]
  intro i j hi hj hij
  simp only [List.getElem_zipIdx, Nat.zero_add]
  have : (i : Int) * f < (j : Int) * f := mul_lt_mul_of_pos_right (by exact_mod_cast hij) (by exact_mod_cast hf)
  linarith

private theorem within_sliced (T : Int) (M n : Nat) (rows : List Row) (i : Nat) (hi : i < n) :
    within (sliced T M n rows) (T + (i : Int) * (M : Int)) (T + ((i : Int) + 1) * (M : Int)) =
      within rows (T + (i : Int) * (M : Int)) (T + ((i : Int) + 1) * (M : Int)) := by
  unfold within sliced
  rw [List.filter_filter]
  congr 1
  apply List.filter_congr
  intro r _
  have h1 : (0 : Int) ≤ (i : Int) * M := by positivity
  have h2 : ((i : Int) + 1) * M ≤ (n : Int) * M := mul_le_mul_of_nonneg_right (by omega) (by positivity)
  rw [Bool.eq_iff_iff]
  simp only [Bool.and_eq_true, decide_eq_true_eq]
  constructor
  · exact fun h => h.1
  · intro h
    exact ⟨h, by linarith [h.1], by linarith [h.2]⟩

private theorem mean_some {l : List (Option Rat)} {v : Rat} (h : meanSkip l = some v) : ∃ x : Rat, some x ∈ l := by
  unfold meanSkip at h
  by_cases c : l.filterMap id = []
  · rw [if_pos c] at h; cases h
  · obtain ⟨x, hx⟩ := List.exists_mem_of_ne_nil _ c
    exact ⟨x, by simpa using hx⟩

private theorem map_range_get {n : Nat} {g : Nat → Option Rat} {out : List Rat} (h : (List.range n).map g = out.map some) :
    out.length = n ∧ ∀ i v, out[i]? = some v → i < n ∧ g i = some v := by
  have hl : out.length = n := by have := congrArg List.length h; simpa using this.symm
  refine ⟨hl, ?_⟩
  intro i v hv
  have hi : i < n := by rw [← hl]; exact (List.getElem?_eq_some_iff.1 hv).1
  refine ⟨hi, ?_⟩
  have := congrArg (·[i]?) h
  simp only [List.getElem?_map, List.getElem?_range hi, Option.map_some, hv] at this
  exact Option.some.inj this

private theorem map_range_some {n : Nat} {g : Nat → Option Rat} (h : ∀ i < n, ∃ v, g i = some v) : ∃ out : List Rat, (List.range n).map g = out.map some := by
  refine ⟨(List.range n).map fun i => (g i).getD 0, ?_⟩
  rw [List.map_map]
  apply List.map_congr_left
  intro i hi
  obtain ⟨v, hv⟩ := h i (List.mem_range.1 hi)
  simp [hv]

private theorem select_nil (T : Int) (M n : Nat) (hn : 0 < n) (out : List Rat) : select T M n [] ≠ .ok out := by
  unfold select
  rw [if_neg (by omega)]
  simp only [List.filter_nil, List.map_nil]
  rw [if_pos]
  · intro h; cases h
  · intro h
    have := congrArg List.length h
    simp at this; omega

private theorem down_iff (s : Int) (f : Nat) (vs : List (Option Rat)) (T : Int) (M n : Nat) (hf : 0 < f) (hM : 0 < M) (hn : 0 < n) (out : List Rat) :
    downTick s f vs T M n = .ok out ↔ (∃ k : Nat, s + (k : Int) * (f : Int) = T) ∧
      (List.range n).map (fun i : Nat => meanSkip (within (tickRows s f vs) (T + (i : Int) * (M : Int)) (T + ((i : Int) + 1) * (M : Int)))) = out.map some := by
  have hM' : (0 : Int) < M := by exact_mod_cast hM
  have hf' : (0 : Int) < f := by exact_mod_cast hf
  have same : ∀ out' : List Rat, ((List.range n).map (fun i : Nat => meanSkip (within (sliced T M n (tickRows s f vs)) (T + (i : Int) * (M : Int)) (T + ((i : Int) + 1) * (M : Int)))) = out'.map some) ↔
      ((List.range n).map (fun i : Nat => meanSkip (within (tickRows s f vs) (T + (i : Int) * (M : Int)) (T + ((i : Int) + 1) * (M : Int)))) = out'.map some) := by
    intro out'
    rw [List.map_congr_left fun i hi => by rw [within_sliced T M n _ i (List.mem_range.1 hi)]]
  have mem : ∀ r, r ∈ sliced T M n (tickRows s f vs) ↔ r ∈ tickRows s f vs ∧ T ≤ r.1 ∧ r.1 ≤ T + (n : Int) * (M : Int) - 1 := by
    intro r; unfold sliced; rw [List.mem_filter]; simp
  have srt : (sliced T M n (tickRows s f vs)).Pairwise fun x y => x.1 < y.1 := (tick_sorted s f hf vs).filter _
  unfold downTick
  generalize hp : sliced T M n (tickRows s f vs) = picked at *
  cases picked with
  | nil =>
    constructor
    · intro h; exact absurd h (select_nil T M n hn out)
    · rintro ⟨-, h⟩
      rw [← same] at h
      obtain ⟨hl, hg⟩ := map_range_get h
      obtain ⟨v, hv⟩ : ∃ v, out[0]? = some v := ⟨out[0], List.getElem?_eq_getElem _⟩
      have := (hg 0 v hv).2
      simp [within, meanSkip] at this
  | cons a rest =>
    obtain ⟨z, hz⟩ : ∃ z, (a :: rest).getLast? = some z := ⟨_, List.getLast?_eq_some_getLast (by simp)⟩
    have hzm : z ∈ a :: rest := List.mem_of_getLast? hz
    have hzmax : ∀ r ∈ a :: rest, r.1 ≤ z.1 := by
      intro r hr
      obtain ⟨i, hi⟩ := List.mem_iff_getElem?.1 hr
      rw [List.getLast?_eq_getElem?] at hz
      obtain ⟨h1, h2⟩ := List.getElem?_eq_some_iff.1 hi
      obtain ⟨h3, h4⟩ := List.getElem?_eq_some_iff.1 hz
      rcases Nat.lt_or_ge i ((a :: rest).length - 1) with c | c
      · have := (List.pairwise_iff_getElem.1 srt) i _ h1 h3 c
        rw [h2, h4] at this; exact this.le
      · have : i = (a :: rest).length - 1 := by omega
        subst this
        rw [← h2, h4]
    have hre : resample M (a :: rest) = spaced a.1 M (((z.1 - a.1) / (M : Int)).toNat + 1)
        (fun i : Nat => meanSkip (within (a :: rest) (a.1 + (i : Int) * (M : Int)) (a.1 + ((i : Int) + 1) * (M : Int)))) := by
      unfold resample
      rw [hz]; rfl
    rw [hre, select_spaced T a.1 M n _ hM hn]
    constructor
    · rintro ⟨j, hj, hc, hg⟩
      have haT := (mem a).1 (by simp)
      have hj0 : j = 0 := by
        by_contra h0
        have : (1 : Int) * M ≤ (j : Int) * M := mul_le_mul_of_nonneg_right (by omega) hM'.le
        linarith [haT.2.1]
      subst hj0
      have haT' : a.1 = T := by simpa using hj
      obtain ⟨k, -, hk, -⟩ := tick_mem haT.1
      refine ⟨⟨k, by rw [← hk, haT']⟩, ?_⟩
      rw [← same, ← hg]
      simp only [Nat.zero_add, haT']
    · rintro ⟨⟨k, hk⟩, hg⟩
      rw [← same] at hg
      obtain ⟨hl, hget⟩ := map_range_get hg
      have row : ∀ i < n, ∃ r ∈ a :: rest, T + (i : Int) * (M : Int) ≤ r.1 := by
        intro i hi
        obtain ⟨v, hv⟩ : ∃ v, out[i]? = some v := ⟨out[i], List.getElem?_eq_getElem _⟩
        obtain ⟨x, hx⟩ := mean_some (hget i v hv).2
        obtain ⟨r, hr, -⟩ := List.mem_map.1 hx
        rw [List.mem_filter] at hr
        exact ⟨r, hr.1, (of_decide_eq_true hr.2).1⟩
      have haT := (mem a).1 (by simp)
      -- the row at the first day of the target
      obtain ⟨ka, hka1, hka2, -⟩ := tick_mem haT.1
      have hkk : k ≤ ka := by
        have h1 : (k : Int) * f ≤ (ka : Int) * f := by linarith [haT.2.1]
        have := le_of_mul_le_mul_right h1 hf'
        omega
      obtain ⟨v0, hv0⟩ : ∃ v, vs[k]? = some v := ⟨vs[k], List.getElem?_eq_getElem _⟩
      have hm0 : (T, v0) ∈ a :: rest := by
        rw [mem]
        refine ⟨by rw [← hk]; exact tick_get hv0, le_refl _, ?_⟩
        have : (1 : Int) * M ≤ (n : Int) * M := mul_le_mul_of_nonneg_right (by omega) hM'.le
        show T ≤ _
        omega
      have haT' : a.1 = T := by
        rcases List.mem_cons.1 hm0 with h | h
        · rw [← h]
        · have := (List.pairwise_cons.1 srt).1 _ h
          exact absurd this (not_lt.2 haT.2.1)
      refine ⟨0, by simpa using haT', ?_, ?_⟩
      · obtain ⟨r, hr, hr2⟩ := row (n - 1) (by omega)
        have h1 := hzmax r hr
        have h2 : ((n - 1 : Nat) : Int) ≤ (z.1 - a.1) / (M : Int) := by
          rw [Int.le_ediv_iff_mul_le hM', haT']; linarith
        omega
      · rw [← hg, haT']
        simp only [Nat.zero_add]

/-! ### Means of days -/

private theorem flat_get (f : Nat) (hf : 0 < f) : ∀ (xs : List Rat) (t : Nat), (xs.flatMap (List.replicate f))[t]? = xs[t / f]?
  | [], t => by simp
  | x :: xs, t => by
    rw [List.flatMap_cons]
    rcases Nat.lt_or_ge t f with h | h
    · rw [List.getElem?_append_left (by simpa using h), Nat.div_eq_of_lt h]
      simp [h]
    · rw [List.getElem?_append_right (by simpa using h), List.length_replicate, flat_get f hf xs (t - f), Nat.div_eq_sub_div hf h, List.getElem?_cons_succ]

private theorem flat_sum (f : Nat) : ∀ xs : List Rat, (xs.flatMap (List.replicate f)).sum = (f : Rat) * xs.sum
  | [] => by simp
  | x :: xs => by
    rw [List.flatMap_cons, List.sum_append, flat_sum f xs, List.sum_cons, List.sum_replicate, nsmul_eq_mul]; ring

private theorem flat_length (f : Nat) : ∀ xs : List Rat, (xs.flatMap (List.replicate f)).length = xs.length * f
  | [] => by simp
  | x :: xs => by rw [List.flatMap_cons, List.length_append, flat_length f xs, List.length_replicate, List.length_cons]; ring

private theorem filterMap_some : ∀ xs : List Rat, (xs.map some).filterMap id = xs
  | [] => rfl
  | x :: xs => by rw [List.map_cons, List.filterMap_cons]; simp

private theorem day_row {s : Int} {f : Nat} {vs : List (Option Rat)} {k u : Nat} {x : Rat} (hu : u < f)
    (h : Day s f vs (s + (k : Int) * (f : Int) + (u : Int)) x) : vs[k]? = some (some x) := by
  obtain ⟨k', h1, h2, h3⟩ := h
  have hf' : (0 : Int) < f := by omega
  have hk : k' = k := by
    have a1 : (k' : Int) * f < ((k : Int) + 1) * f := by nlinarith
    have a2 : (k : Int) * f < ((k' : Int) + 1) * f := by nlinarith
    have b1 := lt_of_mul_lt_mul_right a1 hf'.le
    have b2 := lt_of_mul_lt_mul_right a2 hf'.le
    omega
  rw [← hk]; exact h3

/-- The mean of the rows `k`, …, `k + q - 1` is the mean over their days. -/
private theorem rows_mean (s : Int) (f : Nat) (vs : List (Option Rat)) (hf : 0 < f) (k q : Nat) (hq : 0 < q)
    (hd : ∀ t : Nat, t < q * f → ∃ x, Day s f vs (s + (k : Int) * (f : Int) + (t : Int)) x) :
    ∃ v, meanSkip ((vs.drop k).take q) = some v ∧ IsMean (Day s f vs) (s + (k : Int) * (f : Int)) (q * f) v := by
  have hrow : ∀ u < q, ∃ x, vs[k + u]? = some (some x) := by
    intro u hu
    have hlt : u * f < q * f := Nat.mul_lt_mul_of_pos_right hu hf
    obtain ⟨x, hx⟩ := hd (u * f) hlt
    refine ⟨x, day_row (s := s) (u := 0) hf ?_⟩
    have e : s + ((k + u : Nat) : Int) * (f : Int) + ((0 : Nat) : Int) = s + (k : Int) * (f : Int) + ((u * f : Nat) : Int) := by push_cast; ring
    rw [e]; exact hx
  obtain ⟨xs, hxl, hxs⟩ : ∃ xs : List Rat, xs.length = q ∧ (vs.drop k).take q = xs.map some := by
    refine ⟨(List.range q).map fun u => ((vs[k + u]?).join).getD 0, by simp, ?_⟩
    apply List.ext_getElem?
    intro u
    rw [List.getElem?_map, List.getElem?_map]
    rcases Nat.lt_or_ge u q with h | h
    · obtain ⟨x, hx⟩ := hrow u h
      rw [List.getElem?_take_of_lt h, List.getElem?_drop, hx, List.getElem?_range h]
      simp [hx]
    · rw [List.getElem?_eq_none (by simp; omega), List.getElem?_eq_none (by simp; omega)]; rfl
  refine ⟨xs.sum / (q : Rat), ?_, xs.flatMap (List.replicate f), by rw [flat_length, hxl], ?_, ?_⟩
  · unfold meanSkip
    rw [hxs, filterMap_some, if_neg (by intro h; rw [h] at hxl; simp at hxl; omega), hxl]
  · intro t x hx
    rw [flat_get f hf] at hx
    have ht : t / f < q := by rw [← hxl]; exact (List.getElem?_eq_some_iff.1 hx).1
    have hv : vs[k + t / f]? = some (some x) := by
      have := congrArg (·[t / f]?) hxs
      simp only [List.getElem?_map, hx, Option.map_some] at this
      rw [List.getElem?_take_of_lt ht, List.getElem?_drop] at this
      exact this
    have hdm := Nat.div_add_mod t f
    have hmod := Nat.mod_lt t hf
    refine ⟨k + t / f, ?_, ?_, hv⟩
    · have : ((t / f : Nat) : Int) * f ≤ t := by exact_mod_cast Nat.div_mul_le_self t f
      push_cast at *; linarith
    · have : (t : Int) < (((t / f : Nat) : Int) + 1) * f := by
        have h : t < (t / f + 1) * f := by rw [Nat.add_mul, Nat.one_mul, Nat.mul_comm (t / f) f]; omega
        exact_mod_cast h
      push_cast at *; linarith
  · rw [flat_sum]
    have : (q : Rat) ≠ 0 := by exact_mod_cast hq.ne'
    push_cast; field_simp

private theorem tick_spaced (s : Int) (f : Nat) (vs : List (Option Rat)) : tickRows s f vs = spaced s f vs.length fun i => (vs[i]?).join := by
  unfold tickRows spaced
  apply List.ext_getElem?
  intro i
  rw [List.getElem?_map, List.getElem?_map, List.getElem?_zipIdx]
  rcases Nat.lt_or_ge i vs.length with h | h
  · rw [List.getElem?_range h]; simp [List.getElem?_eq_getElem h]
  · rw [List.getElem?_eq_none (by omega), List.getElem?_eq_none (by simp; omega)]; rfl

private theorem within_mem {s : Int} {f : Nat} {vs : List (Option Rat)} {lo hi : Int} {x : Rat} (hf : 0 < f) (h : some x ∈ within (tickRows s f vs) lo hi) :
    ∃ d, lo ≤ d ∧ d < hi ∧ Day s f vs d x := by
  obtain ⟨r, hr, hx⟩ := List.mem_map.1 h
  rw [List.mem_filter] at hr
  obtain ⟨k, -, h1, h2⟩ := tick_mem hr.1
  have h3 := of_decide_eq_true hr.2
  refine ⟨r.1, h3.1, h3.2, k, h1.ge, ?_, by rw [h2, hx]⟩
  have : (0 : Int) < f := by exact_mod_cast hf
  rw [h1]; linarith

/-- One coarser timestep whose days all have data. -/
private theorem bin_mean (s : Int) (f : Nat) (vs : List (Option Rat)) (hf : 0 < f) (T : Int) (q k i : Nat) (hq : 0 < q) (hk : s + (k : Int) * (f : Int) = T)
    (hd : ∀ t : Nat, t < q * f → ∃ x, Day s f vs (T + (i : Int) * ((q * f : Nat) : Int) + (t : Int)) x) :
    ∃ v, meanSkip (within (tickRows s f vs) (T + (i : Int) * ((q * f : Nat) : Int)) (T + ((i : Int) + 1) * ((q * f : Nat) : Int))) = some v ∧
      IsMean (Day s f vs) (T + (i : Int) * ((q * f : Nat) : Int)) (q * f) v := by
  have e1 : T + (i : Int) * ((q * f : Nat) : Int) = s + ((k + i * q : Nat) : Int) * (f : Int) := by rw [← hk]; push_cast; ring
  have e2 : T + ((i : Int) + 1) * ((q * f : Nat) : Int) = s + ((k + i * q + q : Nat) : Int) * (f : Int) := by rw [← hk]; push_cast; ring
  rw [e1] at hd
  rw [e2, e1, within_tick s f vs hf]
  exact rows_mean s f vs hf (k + i * q) q hq hd

private theorem up_iff (s : Int) (f : Nat) (vs : List (Option Rat)) (T : Int) (M n : Nat) (hM : 0 < M) (hn : 0 < n) (out : List Rat) :
    upTick s f vs T M n = .ok out ↔ vs ≠ [] ∧ ∃ j : Nat, s + (j : Int) * (M : Int) = T ∧ j + n ≤ (vs.length * f - 1) / M + 1 ∧
      (List.range n).map (fun i => (vs[(j + i) * M / f]?).join) = out.map some := by
  unfold upTick ffill
  by_cases h : vs = []
  · rw [if_pos h]
    exact ⟨fun c => absurd c (select_nil T M n hn out), fun c => absurd h c.1⟩
  · rw [if_neg h]
    have := select_spaced T s M n ((vs.length * f - 1) / M + 1) hM hn (fun i => (vs[i * M / f]?).join) out
    unfold spaced at this
    rw [this]
    exact ⟨fun c => ⟨h, c⟩, fun c => c.2⟩

private theorem day_at (s : Int) (f : Nat) (hf : 0 < f) (vs : List (Option Rat)) (e : Nat) (x : Rat) : Day s f vs (s + (e : Int)) x ↔ vs[e / f]? = some (some x) := by
  constructor
  · intro h
    refine day_row (s := s) (u := e % f) (Nat.mod_lt e hf) ?_
    have : (e : Int) = ((e / f : Nat) : Int) * (f : Int) + ((e % f : Nat) : Int) := by
      have := Nat.div_add_mod e f
      rw [Nat.mul_comm] at this
      exact_mod_cast this.symm
    rw [add_assoc, ← this]; exact h
  · intro h
    refine ⟨e / f, ?_, ?_, h⟩
    · have : ((e / f : Nat) : Int) * f ≤ e := by exact_mod_cast Nat.div_mul_le_self e f
      linarith
    · have : (e : Int) < (((e / f : Nat) : Int) + 1) * f := by
        have h1 := Nat.div_add_mod e f
        have h2 := Nat.mod_lt e hf
        have h : e < (e / f + 1) * f := by rw [Nat.add_mul, Nat.one_mul, Nat.mul_comm (e / f) f]; omega
        exact_mod_cast h
      linarith

private theorem join_some {o : Option (Option Rat)} {x : Rat} : o.join = some x ↔ o = some (some x) := by
  rcases o with _ | _ | y <;> simp

/-- **C77.**  Data with rows every `f` days on a model with timesteps of `M` days, where one is a multiple of the other: when the data frame is accepted, there is one value per timestep; the value of a
timestep all of whose days have data is the mean over those days of the data; and no value is made up: a timestep has a day with data.  Partial: a timestep of which some days have no data is not refused, see
`C77_gap_fails` and `C77_end_fails`; and with lengths that do not divide one another the value is not the mean, see `C77_uneven_fails`. -/
theorem C77_tick_partial (s : Int) (f : Nat) (vs : List (Option Rat)) (T : Int) (M n : Nat) (hf : 0 < f) (hM : 0 < M) (hdiv : f ∣ M ∨ M ∣ f)
    {out : List Rat} (h : tickTick s f vs T M n = .ok out) :
    out.length = n ∧ ∀ (i : Nat) (v : Rat), out[i]? = some v →
      ((∀ t : Nat, t < M → ∃ x, Day s f vs (T + (i : Int) * (M : Int) + (t : Int)) x) → IsMean (Day s f vs) (T + (i : Int) * (M : Int)) M v) ∧
      ∃ d x, T + (i : Int) * (M : Int) ≤ d ∧ d < T + ((i : Int) + 1) * (M : Int) ∧ Day s f vs d x := by
  have hM' : (0 : Int) < M := by exact_mod_cast hM
  have hn : 0 < n := by
    rcases Nat.eq_zero_or_pos n with c | c
    · subst c; unfold tickTick downTick upTick select at h; simp at h
    · exact c
  unfold tickTick at h
  by_cases hge : M ≥ f
  · rw [if_pos hge, down_iff s f vs T M n hf hM hn] at h
    obtain ⟨⟨k, hk⟩, h⟩ := h
    obtain ⟨hl, hg⟩ := map_range_get h
    refine ⟨hl, ?_⟩
    intro i v hv
    obtain ⟨hi, hv⟩ := hg i v hv
    refine ⟨?_, ?_⟩
    · intro hd
      obtain ⟨q, hq⟩ : f ∣ M := by
        rcases hdiv with c | c
        · exact c
        · rw [Nat.dvd_antisymm c (by have := Nat.le_of_dvd hf c; have : M = f := by omega
                                     rw [this])]
      have hq' : M = q * f := by rw [hq, Nat.mul_comm]
      subst hq'
      have hq0 : 0 < q := Nat.pos_of_mul_pos_right hM
      obtain ⟨v', h1, h2⟩ := bin_mean s f vs hf T q k i hq0 hk hd
      rw [h1] at hv
      rw [← Option.some.inj hv]; exact h2
    · obtain ⟨x, hx⟩ := mean_some hv
      obtain ⟨d, h1, h2, h3⟩ := within_mem hf hx
      exact ⟨d, x, h1, h2, h3⟩
  · rw [if_neg hge, up_iff s f vs T M n hM hn] at h
    obtain ⟨-, j, hj, -, h⟩ := h
    obtain ⟨hl, hg⟩ := map_range_get h
    refine ⟨hl, ?_⟩
    intro i v hv
    obtain ⟨hi, hv⟩ := hg i v hv
    rw [join_some] at hv
    have e0 : ∀ t : Nat, T + (i : Int) * (M : Int) + (t : Int) = s + (((j + i) * M + t : Nat) : Int) := by intro t; rw [← hj]; push_cast; ring
    have hday : Day s f vs (T + (i : Int) * (M : Int)) v := by
      have := e0 0
      simp only [Nat.cast_zero, add_zero] at this
      rw [this, day_at s f hf]; exact hv
    refine ⟨?_, T + (i : Int) * (M : Int), v, le_refl _, by linarith, hday⟩
    intro _
    obtain ⟨p, rfl⟩ : M ∣ f := by
      rcases hdiv with c | c
      · exact absurd (Nat.le_of_dvd hM c) (by omega)
      · exact c
    refine ⟨List.replicate M v, by simp, ?_, by simp; ring⟩
    intro t x hx
    rw [List.getElem?_replicate] at hx
    split at hx
    · rename_i ht
      rw [← Option.some.inj hx, e0 t, day_at s _ hf, ← Nat.div_div_eq_div_mul, Nat.add_comm, Nat.add_mul_div_right _ _ hM, Nat.div_eq_of_lt ht, Nat.zero_add]
      rw [← Nat.div_div_eq_div_mul, Nat.mul_div_cancel _ hM] at hv
      exact hv
    · cases hx

/-- **C77.**  Data with a value for every day of the run, and which start or go on a row (with coarser data: a timestep) on the first day of the run, are accepted. -/
theorem C77_accepts (s : Int) (f : Nat) (vs : List (Option Rat)) (T : Int) (M n : Nat) (hf : 0 < f) (hM : 0 < M) (hn : 0 < n)
    (hcase : (f ∣ M ∧ (f : Int) ∣ T - s) ∨ (M ≤ f ∧ (M : Int) ∣ T - s))
    (hd : ∀ t : Nat, t < n * M → ∃ x, Day s f vs (T + (t : Int)) x) : ∃ out, tickTick s f vs T M n = .ok out := by
  have hf' : (0 : Int) < f := by exact_mod_cast hf
  have hM' : (0 : Int) < M := by exact_mod_cast hM
  have hsT : s ≤ T := by
    obtain ⟨x, k, h1, -, -⟩ := hd 0 (Nat.mul_pos hn hM)
    have : (0 : Int) ≤ (k : Int) * f := by positivity
    simp only [Nat.cast_zero, add_zero] at h1
    linarith
  unfold tickTick
  by_cases hge : M ≥ f
  · obtain ⟨⟨q, hq⟩, c, hc⟩ : f ∣ M ∧ (f : Int) ∣ T - s := by
      rcases hcase with h | ⟨h1, h2⟩
      · exact h
      · have : M = f := by omega
        subst this; exact ⟨dvd_refl _, h2⟩
    have hq' : M = q * f := by rw [hq, Nat.mul_comm]
    subst hq'
    have hq0 : 0 < q := Nat.pos_of_mul_pos_right hM
    have hc0 : 0 ≤ c := by
      by_contra hneg
      have : (f : Int) * c < 0 := mul_neg_of_pos_of_neg hf' (by omega)
      linarith
    obtain ⟨k, rfl⟩ := Int.eq_ofNat_of_zero_le hc0
    have hk : s + (k : Int) * (f : Int) = T := by linarith
    rw [if_pos hge]
    obtain ⟨out, hout⟩ := map_range_some (n := n) (g := fun i : Nat => meanSkip (within (tickRows s f vs) (T + (i : Int) * ((q * f : Nat) : Int)) (T + ((i : Int) + 1) * ((q * f : Nat) : Int)))) (by
      intro i hi
      obtain ⟨v, hv, -⟩ := bin_mean s f vs hf T q k i hq0 hk (by
        intro t ht
        obtain ⟨x, hx⟩ := hd (i * (q * f) + t) (by nlinarith)
        refine ⟨x, ?_⟩
        have e : T + (i : Int) * ((q * f : Nat) : Int) + (t : Int) = T + ((i * (q * f) + t : Nat) : Int) := by push_cast; ring
        rw [e]; exact hx)
      exact ⟨v, hv⟩)
    exact ⟨out, (down_iff s f vs T _ n hf hM hn out).2 ⟨⟨k, hk⟩, hout⟩⟩
  · obtain ⟨-, c, hc⟩ : M ≤ f ∧ (M : Int) ∣ T - s := by
      rcases hcase with h | h
      · exact absurd (Nat.le_of_dvd hM h.1) (by omega)
      · exact h
    have hc0 : 0 ≤ c := by
      by_contra hneg
      have : (M : Int) * c < 0 := mul_neg_of_pos_of_neg hM' (by omega)
      linarith
    obtain ⟨j, rfl⟩ := Int.eq_ofNat_of_zero_le hc0
    have hj : s + (j : Int) * (M : Int) = T := by linarith
    have hval : ∀ i < n, ∃ x, vs[(j + i) * M / f]? = some (some x) := by
      intro i hi
      obtain ⟨x, hx⟩ := hd (i * M) (Nat.mul_lt_mul_of_pos_right hi hM)
      refine ⟨x, ?_⟩
      rw [← day_at s f hf]
      have e : s + (((j + i) * M : Nat) : Int) = T + ((i * M : Nat) : Int) := by rw [← hj]; push_cast; ring
      rw [e]; exact hx
    rw [if_neg hge]
    obtain ⟨out, hout⟩ := map_range_some (n := n) (g := fun i : Nat => (vs[(j + i) * M / f]?).join) (by
      intro i hi
      obtain ⟨x, hx⟩ := hval i hi
      exact ⟨x, join_some.2 hx⟩)
    refine ⟨out, (up_iff s f vs T M n hM hn out).2 ⟨?_, j, hj, ?_, hout⟩⟩
    · rintro rfl
      obtain ⟨x, hx⟩ := hval 0 hn
      simp at hx
    · obtain ⟨x, hx⟩ := hval (n - 1) (by omega)
      have h1 := (List.getElem?_eq_some_iff.1 hx).1
      rw [Nat.div_lt_iff_lt_mul hf] at h1
      have : j + (n - 1) ≤ (vs.length * f - 1) / M := by rw [Nat.le_div_iff_mul_le hM]; omega
      omega

/-! ### Calendar periods -/

private theorem daily_get : ∀ (rows : List (Nat × Option Rat)) (s : Int) (k : Nat) (x : Rat), (daily rows)[k]? = some (some x) ↔ DayOf s rows (s + (k : Int)) x
  | [], s, k, x => by
    simp only [daily, List.flatMap_nil, List.getElem?_nil]
    constructor
    · intro h; cases h
    · rintro ⟨b, r, a, h, -⟩; cases b <;> simp at h
  | r :: rows, s, k, x => by
    have e : daily (r :: rows) = List.replicate r.1 r.2 ++ daily rows := rfl
    rw [e]
    rcases Nat.lt_or_ge k r.1 with h | h
    · rw [List.getElem?_append_left (by simpa using h), List.getElem?_replicate, if_pos h]
      constructor
      · intro hx
        exact ⟨[], r, rows, rfl, by simp, by simp; omega, Option.some.inj hx⟩
      · rintro ⟨b, r', a, hr, h1, h2, h3⟩
        cases b with
        | nil =>
          obtain ⟨rfl, -⟩ := List.cons.inj hr
          rw [h3]
        | cons b0 b =>
          obtain ⟨rfl, -⟩ := List.cons.inj hr
          simp only [List.map_cons, List.sum_cons] at h1
          omega
    · rw [List.getElem?_append_right (by simpa using h), List.length_replicate, daily_get rows (s + (r.1 : Int)) (k - r.1) x]
      have e2 : s + (r.1 : Int) + ((k - r.1 : Nat) : Int) = s + (k : Int) := by omega
      rw [e2]
      constructor
      · rintro ⟨b, r', a, hr, h1, h2, h3⟩
        refine ⟨r :: b, r', a, by rw [hr]; rfl, ?_, ?_, h3⟩ <;> simp only [List.map_cons, List.sum_cons] <;> omega
      · rintro ⟨b, r', a, hr, h1, h2, h3⟩
        cases b with
        | nil =>
          obtain ⟨rfl, -⟩ := List.cons.inj hr
          simp only [List.map_nil, List.sum_nil] at h2
          omega
        | cons b0 b =>
          obtain ⟨rfl, hrest⟩ := List.cons.inj hr
          simp only [List.map_cons, List.sum_cons] at h1 h2
          exact ⟨b, r', a, hrest, by omega, by omega, h3⟩

private theorem day_daily (s : Int) (rows : List (Nat × Option Rat)) (d : Int) (x : Rat) : Day s 1 (daily rows) d x ↔ DayOf s rows d x := by
  constructor
  · rintro ⟨k, h1, h2, h3⟩
    have : d = s + (k : Int) := by push_cast at *; omega
    rw [this]; exact (daily_get rows s k x).1 h3
  · intro h
    obtain ⟨b, r, a, hr, h1, h2, h3⟩ := h
    obtain ⟨k, hk⟩ := Int.eq_ofNat_of_zero_le (a := d - s) (by omega)
    have : d = s + (k : Int) := by omega
    subst this
    exact ⟨k, by push_cast; omega, by push_cast; omega, (daily_get rows s k x).2 ⟨b, r, a, hr, h1, h2, h3⟩⟩

private theorem isMean_congr {day day' : Int → Rat → Prop} (h : ∀ d x, day d x ↔ day' d x) {a : Int} {len : Nat} {v : Rat} (hm : IsMean day a len v) : IsMean day' a len v := by
  obtain ⟨xs, h1, h2, h3⟩ := hm
  exact ⟨xs, h1, fun t x hx => (h _ _).1 (h2 t x hx), h3⟩

/-- Daily timesteps: the aggregation to days changes nothing. -/
private theorem offset_down (s : Int) (rows : List (Nat × Option Rat)) (T : Int) (M n : Nat) (hM : 0 < M) (hn : 0 < n) (out : List Rat)
    (h : offsetTick s rows T M n = .ok out) : (∃ k : Nat, s + (k : Int) * ((1 : Nat) : Int) = T) ∧
      (List.range n).map (fun i : Nat => meanSkip (within (tickRows s 1 (daily rows)) (T + (i : Int) * (M : Int)) (T + ((i : Int) + 1) * (M : Int)))) = out.map some := by
  unfold offsetTick at h
  simp only at h
  by_cases c : M > 1
  · rw [if_pos c] at h
    exact (down_iff s 1 (daily rows) T M n Nat.one_pos hM hn out).1 h
  · rw [if_neg c] at h
    have hM1 : M = 1 := by omega
    subst hM1
    have e : select T 1 n (sliced T 1 n (tickRows s 1 (daily rows))) = select T 1 n (tickRows s 1 (daily rows)) := by
      unfold select sliced
      rw [List.filter_filter]
      have e : (tickRows s 1 (daily rows)).filter (fun a => decide (T ≤ a.1 ∧ a.1 ≤ T + ((n : Int) - 1) * ((1 : Nat) : Int)) && decide (T ≤ a.1 ∧ a.1 ≤ T + (n : Int) * ((1 : Nat) : Int) - 1)) =
          (tickRows s 1 (daily rows)).filter (fun r => decide (T ≤ r.1 ∧ r.1 ≤ T + ((n : Int) - 1) * ((1 : Nat) : Int))) := by
        refine List.filter_congr fun r _ => ?_
        rw [Bool.eq_iff_iff]; simp only [Bool.and_eq_true, decide_eq_true_eq]
        push_cast
        omega
      rw [e]
    rw [e, tick_spaced, select_spaced T s 1 n _ Nat.one_pos hn] at h
    obtain ⟨j, hj, -, h⟩ := h
    refine ⟨⟨j, hj⟩, ?_⟩
    rw [← h]
    apply List.map_congr_left
    intro i _
    have e1 : T + (i : Int) * ((1 : Nat) : Int) = s + ((j + i : Nat) : Int) * ((1 : Nat) : Int) := by rw [← hj]; push_cast; ring
    have e2 : T + ((i : Int) + 1) * ((1 : Nat) : Int) = s + ((j + i + 1 : Nat) : Int) * ((1 : Nat) : Int) := by rw [← hj]; push_cast; ring
    rw [e1, e2, within_tick s 1 _ Nat.one_pos]
    cases hv : (daily rows)[j + i]? with
    | none =>
      rw [List.drop_eq_nil_of_le (List.getElem?_eq_none_iff.1 hv)]
      simp [meanSkip]
    | some v =>
      obtain ⟨h1, h2⟩ := List.getElem?_eq_some_iff.1 hv
      rw [List.drop_eq_getElem_cons h1, h2]
      cases v <;> simp [meanSkip]

/-- **C77.**  Data for calendar periods (months, weeks, years) on a model with timesteps of `M` days: when accepted, there is one value per timestep, and it is the mean over the days of the timestep of the
value of the period each day lies in. -/
theorem C77_periods_partial (s : Int) (rows : List (Nat × Option Rat)) (T : Int) (M n : Nat) (hM : 0 < M) {out : List Rat} (h : offsetTick s rows T M n = .ok out) :
    out.length = n ∧ ∀ (i : Nat) (v : Rat), out[i]? = some v →
      ((∀ t : Nat, t < M → ∃ x, DayOf s rows (T + (i : Int) * (M : Int) + (t : Int)) x) → IsMean (DayOf s rows) (T + (i : Int) * (M : Int)) M v) ∧
      ∃ d x, T + (i : Int) * (M : Int) ≤ d ∧ d < T + ((i : Int) + 1) * (M : Int) ∧ DayOf s rows d x := by
  have hn : 0 < n := by
    rcases Nat.eq_zero_or_pos n with c | c
    · subst c; unfold offsetTick select at h; simp at h
    · exact c
  obtain ⟨⟨k, hk⟩, h⟩ := offset_down s rows T M n hM hn out h
  obtain ⟨hl, hg⟩ := map_range_get h
  refine ⟨hl, ?_⟩
  intro i v hv
  obtain ⟨hi, hv⟩ := hg i v hv
  refine ⟨?_, ?_⟩
  · intro hd
    obtain ⟨v', h1, h2⟩ := bin_mean s 1 (daily rows) Nat.one_pos T M k i hM hk (by
      intro t ht
      obtain ⟨x, hx⟩ := hd t (by omega)
      exact ⟨x, by rw [Nat.mul_one]; exact (day_daily s rows _ x).2 hx⟩)
    rw [Nat.mul_one] at h1 h2
    rw [h1] at hv
    rw [← Option.some.inj hv]
    exact isMean_congr (day_daily s rows) h2
  · obtain ⟨x, hx⟩ := mean_some hv
    obtain ⟨d, h1, h2, h3⟩ := within_mem Nat.one_pos hx
    exact ⟨d, x, h1, h2, (day_daily s rows d x).1 h3⟩

/-- **C77.**  Daily data on a model with calendar timesteps (months): when accepted, there is one value per timestep, and it is the mean over the days of the period.  `period d` is the number of the period
day `d` lies in; period `m + i` has the days `[b, b + len)`. -/
theorem C77_calendar_partial (period : Int → Int) (s : Int) (vs : List (Option Rat)) (m : Int) (n : Nat) {out : List Rat} (h : tickOffset period s 1 vs m n = .ok out) :
    out.length = n ∧ ∀ (i : Nat) (v : Rat) (b : Int) (len : Nat), out[i]? = some v → 0 < len → (∀ d, period d = m + (i : Int) ↔ b ≤ d ∧ d < b + (len : Int)) →
      ((∀ t : Nat, t < len → ∃ x, Day s 1 vs (b + (t : Int)) x) → IsMean (Day s 1 vs) b len v) ∧ ∃ d x, b ≤ d ∧ d < b + (len : Int) ∧ Day s 1 vs d x := by
  have hn : 0 < n := by
    rcases Nat.eq_zero_or_pos n with c | c
    · subst c; unfold tickOffset select at h; simp at h
    · exact c
  unfold tickOffset at h
  generalize hr : tickRows s 1 vs = rows at h
  cases rows with
  | nil => exact absurd h (select_nil m 1 n hn out)
  | cons a rest =>
    obtain ⟨z, hz⟩ : ∃ z, (a :: rest).getLast? = some z := ⟨_, List.getLast?_eq_some_getLast (by simp)⟩
    have hre : calendar period (a :: rest) = spaced (period a.1) 1 ((period z.1 - period a.1).toNat + 1)
        (fun i : Nat => meanSkip (((a :: rest).filter fun r => decide (period r.1 = period a.1 + (i : Int))).map Prod.snd)) := by
      unfold calendar spaced
      rw [hz]
      simp
    rw [hre, select_spaced m _ 1 n _ Nat.one_pos hn] at h
    obtain ⟨j, hj, -, h⟩ := h
    obtain ⟨hl, hg⟩ := map_range_get h
    refine ⟨hl, ?_⟩
    intro i v b len hv hlen hb
    obtain ⟨hi, hv⟩ := hg i v hv
    have e : ((a :: rest).filter fun r => decide (period r.1 = period a.1 + ((j + i : Nat) : Int))).map Prod.snd = within (tickRows s 1 vs) b (b + (len : Int)) := by
      unfold within
      rw [hr]
      congr 1
      refine List.filter_congr fun r _ => ?_
      rw [Bool.eq_iff_iff]
      simp only [decide_eq_true_eq]
      rw [← hb r.1]
      push_cast at *
      omega
    rw [e] at hv
    refine ⟨?_, ?_⟩
    · intro hd
      obtain ⟨x0, k, h1, h2, -⟩ := hd 0 hlen
      have hk : s + (k : Int) * ((1 : Nat) : Int) = b := by push_cast at *; omega
      obtain ⟨v', h3, h4⟩ := bin_mean s 1 vs Nat.one_pos b len k 0 hlen hk (by
        intro t ht
        obtain ⟨x, hx⟩ := hd t (by omega)
        exact ⟨x, by simpa using hx⟩)
      simp only [Nat.mul_one, Nat.cast_zero, zero_mul, add_zero, zero_add, one_mul] at h3 h4
      rw [h3] at hv
      rw [← Option.some.inj hv]; exact h4
    · obtain ⟨x, hx⟩ := mean_some hv
      obtain ⟨d, h1, h2, h3⟩ := within_mem Nat.one_pos hx
      exact ⟨d, x, h1, h2, h3⟩

/-! ### Cases -/

/-- Daily data from day -1 on, timesteps of two days from day 0 on; and weekly data on a daily model. -/
example : tickTick (-1) 1 [some 9, some 1, some 3, some 5, some 8] 0 2 2 = .ok [2, 13 / 2] ∧
    tickTick 0 3 [some 4, some 7] 1 1 4 = .ok [4, 4, 7, 7] := by decide +kernel

example : ∀ t : Nat, t < 2 * 2 → ∃ x, Day (-1) 1 [some 9, some 1, some 3, some 5, some 8] (0 + (t : Int)) x := by
  intro t ht
  have h : t = 0 ∨ t = 1 ∨ t = 2 ∨ t = 3 := by omega
  rcases h with rfl | rfl | rfl | rfl
  · exact ⟨1, 1, by norm_num, by norm_num, rfl⟩
  · exact ⟨3, 2, by norm_num, by norm_num, rfl⟩
  · exact ⟨5, 3, by norm_num, by norm_num, rfl⟩
  · exact ⟨8, 4, by norm_num, by norm_num, rfl⟩

/-- January and February on timesteps of seven days: the fifth week lies in both months. -/
example : offsetTick 0 [(31, some 7), (28, some 14)] 28 7 2 = .ok [11, 14] := by decide +kernel

/-- Daily data on periods of three days. -/
example : tickOffset (fun d => d / 3) 0 1 [some 1, some 2, some 3, some 4, some 5, some 6] 0 2 = .ok [2, 5] := by decide +kernel

/-- **C77, fails.**  A gap in daily data is refused on a daily model, but not on a model with longer timesteps: the mean is taken over the days that are left. -/
theorem C77_gap_fails : tickTick 0 1 [some 10, none, some 1, some 1] 0 1 4 = .error .missing ∧
    tickTick 0 1 [some 10, none, some 1, some 1] 0 2 2 = .ok [10, 1] ∧ ¬ ∃ x, Day 0 1 [some 10, none, some 1, some 1] 1 x := by
  refine ⟨by decide +kernel, by decide +kernel, ?_⟩
  rintro ⟨x, k, h1, h2, h3⟩
  have : k = 1 := by push_cast at *; omega
  subst this
  simp at h3

/-- **C77, fails.**  Data that end before the run are refused only if a whole timestep has none: here the run has 14 days and the data 8, and the second week gets the value of its first day. -/
theorem C77_end_fails : tickTick 0 1 [some 1, some 1, some 1, some 1, some 1, some 1, some 1, some 50] 0 7 2 = .ok [1, 50] ∧
    ¬ ∃ x, Day 0 1 [some 1, some 1, some 1, some 1, some 1, some 1, some 1, some 50] 8 x := by
  refine ⟨by decide +kernel, ?_⟩
  rintro ⟨x, k, h1, h2, h3⟩
  have : k = 8 := by push_cast at *; omega
  subst this
  simp at h3

/-- **C77, fails.**  Rows of two days on timesteps of three days: every day has data and the frame is accepted, but a row counts only for the timestep in which it starts, and then as much as a whole row: the
first timestep (days with 0, 0, 6: mean 2) gets 3 and the second (6, 9, 9: mean 8) gets 9. -/
theorem C77_uneven_fails : tickTick 0 2 [some 0, some 6, some 9] 0 3 2 = .ok [3, 9] ∧ ¬ IsMean (Day 0 2 [some 0, some 6, some 9]) 0 3 3 := by
  refine ⟨by decide +kernel, ?_⟩
  rintro ⟨xs, hl, hx, hs⟩
  obtain ⟨a, b, c, rfl⟩ : ∃ a b c, xs = [a, b, c] := by
    match xs, hl with
    | [a, b, c], _ => exact ⟨a, b, c, rfl⟩
  have h0 := (day_at 0 2 (by norm_num) _ 0 a).1 (hx 0 a rfl)
  have h1 := (day_at 0 2 (by norm_num) _ 1 b).1 (hx 1 b rfl)
  have h2 := (day_at 0 2 (by norm_num) _ 2 c).1 (hx 2 c rfl)
  simp at h0 h1 h2
  subst h0 h1 h2
  norm_num at hs

/-- **C77, fails.**  Annual data on a monthly model: the documentation promises forward filling, but the default aggregation leaves every month but the first of a year missing, and the frame is refused. -/
theorem C77_annual_fails (p : Int) (y : Nat) (x : Rat) (rest : List (Nat × Option Rat)) (n : Nat) (hy : 2 ≤ y) (hn : 2 ≤ n) (out : List Rat) :
    offsetOffset p ((y, some x) :: rest) p n ≠ .ok out := by
  unfold offsetOffset
  rw [tick_spaced, Ne, select_spaced p p 1 n _ Nat.one_pos (by omega)]
  rintro ⟨j, hj, -, h⟩
  have hj0 : j = 0 := by push_cast at hj; omega
  subst hj0
  have := congrArg (·[1]?) h
  rw [List.getElem?_map, List.getElem?_map, List.getElem?_range (by omega)] at this
  simp only [List.flatMap_cons, Nat.zero_add, Option.map_some] at this
  rw [List.getElem?_append_left (by simp; omega)] at this
  rw [List.getElem?_map, List.getElem?_range (by omega)] at this
  cases h1 : out[1]? <;> simp [h1] at this

end Verif.Resample

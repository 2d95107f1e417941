import Verif.Proof.EdgeLines
import Verif.Proof.Parts
import Mathlib.Tactic.Linarith
import Mathlib.Tactic.Ring
import Mathlib.Algebra.Order.Field.Basic
/-!
# Linear programmes attain their least value

Elimination of one column after the other (Fourier and Motzkin).  Used for the rows of both solvers.
-/

namespace Verif.Lp

open Verif Verif.Bounds

/-- `Σ f·x ≤ b + g·t`, over columns that are not negative, with a parameter `t`. -/
structure Con (α : Type) where
  f : α → Rat
  b : Rat
  g : Rat

/-- The constraint holds. -/
def Con.Sat {α : Type} (k : Con α) (l : List α) (x : List Rat) (t : Rat) : Prop := S l x k.f ≤ k.b + k.g * t

theorem S_cons {α : Type} (c : α) (l : List α) (a : Rat) (x : List Rat) (f : α → Rat) : S (c :: l) (a :: x) f = f c * a + S l x f := by
  rw [S_zip, S_zip, List.zip_cons_cons, List.map_cons, List.sum_cons]

private def combine {α : Type} (c : α) (p q : Con α) : Con α :=
  ⟨fun a => -q.f c * p.f a + p.f c * q.f a, -q.f c * p.b + p.f c * q.b, -q.f c * p.g + p.f c * q.g⟩

private def eliminate {α : Type} (c : α) (L : List (Con α)) : List (Con α) :=
  L.filter (fun k => 0 ≤ k.f c) ++ (L.filter fun k => 0 < k.f c).flatMap fun p => (L.filter fun k => k.f c < 0).map (combine c p)

private theorem greatest : ∀ (l : List Rat), l ≠ [] → ∃ m ∈ l, ∀ a ∈ l, a ≤ m
  | [], h => absurd rfl h
  | [a], _ => ⟨a, by simp, by simp⟩
  | a :: b :: l, _ => by
    obtain ⟨m, hm, h⟩ := greatest (b :: l) (by simp)
    rcases le_total a m with h' | h'
    · refine ⟨m, List.mem_cons_of_mem _ hm, fun c hc => ?_⟩
      rcases List.mem_cons.1 hc with rfl | hc
      · exact h'
      · exact h c hc
    · refine ⟨a, by simp, fun c hc => ?_⟩
      rcases List.mem_cons.1 hc with rfl | hc
      · exact le_refl _
      · exact (h c hc).trans h'

private theorem eliminate_iff {α : Type} (c : α) (L : List (Con α)) (l : List α) (x : List Rat) (t : Rat) :
    (∃ a, 0 ≤ a ∧ ∀ k ∈ L, k.Sat (c :: l) (a :: x) t) ↔ ∀ k ∈ eliminate c L, k.Sat l x t := by
  unfold Con.Sat
  simp only [S_cons]
  constructor
  · rintro ⟨a, ha, h⟩ k hk
    rcases List.mem_append.1 hk with hk | hk
    · obtain ⟨hk, h0⟩ := List.mem_filter.1 hk
      have h1 : 0 ≤ k.f c := by simpa using h0
      have := h k hk
      have := mul_nonneg h1 ha
      linarith
    · obtain ⟨p, hp, hk⟩ := List.mem_flatMap.1 hk
      obtain ⟨q, hq, rfl⟩ := List.mem_map.1 hk
      obtain ⟨hp, p0⟩ := List.mem_filter.1 hp
      obtain ⟨hq, q0⟩ := List.mem_filter.1 hq
      have p1 : 0 < p.f c := by simpa using p0
      have q1 : q.f c < 0 := by simpa using q0
      have h1 := mul_le_mul_of_nonneg_left (h p hp) (by linarith : 0 ≤ -q.f c)
      have h2 := mul_le_mul_of_nonneg_left (h q hq) p1.le
      show S l x (fun a => -q.f c * p.f a + p.f c * q.f a) ≤ (-q.f c * p.b + p.f c * q.b) + (-q.f c * p.g + p.f c * q.g) * t
      rw [S_add, S_mul, S_mul]
      linarith
  · intro h
    obtain ⟨m, hm, hmax⟩ := greatest (0 :: (L.filter fun k => k.f c < 0).map fun q => (q.b + q.g * t - S l x q.f) / q.f c) (by simp)
    refine ⟨m, hmax 0 (by simp), fun k hk => ?_⟩
    rcases lt_trichotomy (k.f c) 0 with hc | hc | hc
    · have := hmax ((k.b + k.g * t - S l x k.f) / k.f c) (List.mem_cons_of_mem _ (List.mem_map.2 ⟨k, List.mem_filter.2 ⟨hk, by simpa using hc⟩, rfl⟩))
      rw [div_le_iff_of_neg hc] at this
      linarith
    · have := h k (List.mem_append_left _ (List.mem_filter.2 ⟨hk, by simp [hc]⟩))
      rw [hc]; linarith
    · have key : m ≤ (k.b + k.g * t - S l x k.f) / k.f c := by
        rcases List.mem_cons.1 hm with rfl | hm
        · have := h k (List.mem_append_left _ (List.mem_filter.2 ⟨hk, by simpa using hc.le⟩))
          exact div_nonneg (by linarith) hc.le
        · obtain ⟨q, hq, rfl⟩ := List.mem_map.1 hm
          have hq0 : q.f c < 0 := by simpa using (List.mem_filter.1 hq).2
          have := h (combine c k q) (List.mem_append_right _ (List.mem_flatMap.2 ⟨k, List.mem_filter.2 ⟨hk, by simpa using hc⟩, List.mem_map.2 ⟨q, hq, rfl⟩⟩))
          change S l x (fun a => -q.f c * k.f a + k.f c * q.f a) ≤ (-q.f c * k.b + k.f c * q.b) + (-q.f c * k.g + k.f c * q.g) * t at this
          rw [S_add, S_mul, S_mul] at this
          rw [le_div_iff₀ hc, div_mul_eq_mul_div, div_le_iff_of_neg hq0]
          linarith
      rw [le_div_iff₀ hc] at key
      linarith

private def project {α : Type} : List α → List (Con α) → List (Rat × Rat)
  | [], L => L.map fun k => (k.b, k.g)
  | c :: l, L => project l (eliminate c L)

private theorem project_iff {α : Type} (l : List α) (L : List (Con α)) (t : Rat) :
    (∃ x : List Rat, x.length = l.length ∧ (∀ v ∈ x, 0 ≤ v) ∧ ∀ k ∈ L, k.Sat l x t) ↔ ∀ p ∈ project l L, 0 ≤ p.1 + p.2 * t := by
  induction l generalizing L with
  | nil =>
    constructor
    · rintro ⟨x, -, -, h⟩ p hp
      obtain ⟨k, hk, rfl⟩ := List.mem_map.1 hp
      have := h k hk
      unfold Con.Sat at this
      rw [S_zip, List.zip_nil_left] at this
      simpa using this
    · intro h
      refine ⟨[], rfl, by simp, fun k hk => ?_⟩
      have := h _ (List.mem_map.2 ⟨k, hk, rfl⟩)
      unfold Con.Sat
      rw [S_zip]
      simpa using this
  | cons c l ih =>
    rw [project, ← ih]
    constructor
    · rintro ⟨x, hl, hx, h⟩
      cases x with
      | nil => cases hl
      | cons a x =>
        refine ⟨x, by simpa using hl, fun v hv => hx v (List.mem_cons_of_mem _ hv), ?_⟩
        exact (eliminate_iff c L l x t).1 ⟨a, hx a (by simp), h⟩
    · rintro ⟨x, hl, hx, h⟩
      obtain ⟨a, ha, h⟩ := (eliminate_iff c L l x t).2 h
      refine ⟨a :: x, by simpa using hl, fun v hv => ?_, h⟩
      rcases List.mem_cons.1 hv with rfl | hv
      · exact ha
      · exact hx v hv

private theorem least (P : List (Rat × Rat)) (t0 : Rat) (h0 : ∀ p ∈ P, 0 ≤ p.1 + p.2 * t0) (B : Rat) (hB : ∀ t, (∀ p ∈ P, 0 ≤ p.1 + p.2 * t) → B ≤ t) :
    ∃ t, (∀ p ∈ P, 0 ≤ p.1 + p.2 * t) ∧ ∀ s, (∀ p ∈ P, 0 ≤ p.1 + p.2 * s) → t ≤ s := by
  by_cases hn : (P.filter fun p => 0 < p.2) = []
  · exfalso
    have hle : ∀ p ∈ P, p.2 ≤ 0 := by
      intro p hp
      by_contra hc
      have : p ∈ P.filter fun p => 0 < p.2 := List.mem_filter.2 ⟨hp, by simpa using hc⟩
      rw [hn] at this
      cases this
    have := hB (min t0 (B - 1)) fun p hp => by
      have h1 := h0 p hp
      have h2 := mul_le_mul_of_nonpos_left (min_le_left t0 (B - 1)) (hle p hp)
      linarith
    have := min_le_right t0 (B - 1)
    linarith
  · obtain ⟨m, hm, hmax⟩ := greatest ((P.filter fun p => 0 < p.2).map fun p => -p.1 / p.2) (by simpa using hn)
    have low : ∀ s, (∀ p ∈ P, 0 ≤ p.1 + p.2 * s) → m ≤ s := by
      intro s hs
      obtain ⟨p, hp, rfl⟩ := List.mem_map.1 hm
      obtain ⟨hp, h⟩ := List.mem_filter.1 hp
      have h' : 0 < p.2 := by simpa using h
      rw [div_le_iff₀ h']
      linarith [hs p hp]
    refine ⟨m, fun p hp => ?_, low⟩
    rcases lt_or_ge 0 p.2 with h | h
    · have := hmax (-p.1 / p.2) (List.mem_map.2 ⟨p, List.mem_filter.2 ⟨hp, by simpa using h⟩, rfl⟩)
      rw [div_le_iff₀ h] at this
      linarith
    · have h1 := mul_le_mul_of_nonpos_left (low t0 h0) h
      linarith [h0 p hp]

private theorem least_cons {α : Type} (l : List α) (L : List (Con α)) (hL : ∀ k ∈ L, k.g = 0) (c : α → Rat) (x0 : List Rat) (l0 : x0.length = l.length) (p0 : ∀ v ∈ x0, 0 ≤ v)
    (h0 : ∀ k ∈ L, k.Sat l x0 0) (B : Rat) (hB : ∀ x : List Rat, x.length = l.length → (∀ v ∈ x, 0 ≤ v) → (∀ k ∈ L, k.Sat l x 0) → B ≤ S l x c) :
    ∃ x : List Rat, x.length = l.length ∧ (∀ v ∈ x, 0 ≤ v) ∧ (∀ k ∈ L, k.Sat l x 0) ∧
      ∀ y : List Rat, y.length = l.length → (∀ v ∈ y, 0 ≤ v) → (∀ k ∈ L, k.Sat l y 0) → S l x c ≤ S l y c := by
  have any : ∀ k ∈ L, ∀ x t, k.Sat l x t ↔ k.Sat l x 0 := by
    intro k hk x t; unfold Con.Sat; rw [hL k hk]; simp
  have key := fun t => project_iff l (⟨c, 0, 1⟩ :: L) t
  have both : ∀ t (x : List Rat), (∀ k ∈ (⟨c, 0, 1⟩ : Con α) :: L, k.Sat l x t) ↔ S l x c ≤ t ∧ ∀ k ∈ L, k.Sat l x 0 := by
    intro t x
    constructor
    · intro h
      refine ⟨?_, fun k hk => (any k hk x t).1 (h k (List.mem_cons_of_mem _ hk))⟩
      have := h _ (List.mem_cons_self ..)
      unfold Con.Sat at this
      simpa using this
    · rintro ⟨h1, h2⟩ k hk
      rcases List.mem_cons.1 hk with rfl | hk
      · unfold Con.Sat; simpa using h1
      · exact (any k hk x t).2 (h2 k hk)
  obtain ⟨t, ht, hmin⟩ := least (project l (⟨c, 0, 1⟩ :: L)) (S l x0 c) ((key _).1 ⟨x0, l0, p0, (both _ _).2 ⟨le_refl _, h0⟩⟩) B (fun t ht => by
    obtain ⟨x, hl, hx, h⟩ := (key t).2 ht
    obtain ⟨h1, h2⟩ := (both t x).1 h
    exact (hB x hl hx h2).trans h1)
  obtain ⟨x, hl, hx, h⟩ := (key t).2 ht
  obtain ⟨h1, h2⟩ := (both t x).1 h
  refine ⟨x, hl, hx, h2, fun y ly py hy => h1.trans (hmin _ ((key _).1 ⟨y, ly, py, (both _ _).2 ⟨le_refl _, hy⟩⟩))⟩

/-- The constraints of a row. -/
private def consOf {α : Type} (r : Row) (f : α → Rat) : List (Con α) :=
  match r.type with
  | .fr => []
  | .lo => [⟨fun a => -f a, -r.lb, 0⟩]
  | .up => [⟨f, r.ub, 0⟩]
  | .db => [⟨fun a => -f a, -r.lb, 0⟩, ⟨f, r.ub, 0⟩]
  | .fx => [⟨fun a => -f a, -r.lb, 0⟩, ⟨f, r.lb, 0⟩]

private theorem consOf_iff {α : Type} (r : Row) (f : α → Rat) (l : List α) (x : List Rat) : (∀ k ∈ consOf r f, k.Sat l x 0) ↔ r.Admits (S l x f) := by
  obtain ⟨ty, lb, ub⟩ := r
  cases ty <;> simp [consOf, Con.Sat, Row.Admits, S_neg]
  · constructor
    · rintro ⟨h1, h2⟩; linarith
    · intro h; constructor <;> linarith

private theorem consOf_g {α : Type} (r : Row) (f : α → Rat) : ∀ k ∈ consOf r f, k.g = 0 := by
  obtain ⟨ty, lb, ub⟩ := r
  cases ty <;> simp [consOf]

/-- If some values satisfy the rows and the cost is bounded below on all that do, one of them has the least cost. -/
theorem attained {α : Type} (lines : List (Option (Line α))) (l : List α) (c : α → Rat) (x0 : List Rat) (l0 : x0.length = l.length) (p0 : ∀ v ∈ x0, 0 ≤ v) (h0 : AllHold lines l x0)
    (B : Rat) (hB : ∀ x : List Rat, x.length = l.length → (∀ v ∈ x, 0 ≤ v) → AllHold lines l x → B ≤ S l x c) :
    ∃ x : List Rat, (x.length = l.length ∧ (∀ v ∈ x, 0 ≤ v) ∧ AllHold lines l x) ∧
      ∀ y : List Rat, y.length = l.length → (∀ v ∈ y, 0 ≤ v) → AllHold lines l y → S l x c ≤ S l y c := by
  have key : ∀ x : List Rat, (∀ k ∈ lines.flatMap (fun o => o.elim [] fun L => consOf L.bounds L.coef), k.Sat l x 0) ↔ AllHold lines l x := by
    intro x
    constructor
    · intro h o ho
      obtain ⟨L, rfl, hb, -⟩ := h0 o ho
      refine ⟨L, rfl, hb, ?_⟩
      exact (consOf_iff L.bounds L.coef l x).1 fun k hk => h k (List.mem_flatMap.2 ⟨_, ho, hk⟩)
    · intro h k hk
      obtain ⟨o, ho, hk⟩ := List.mem_flatMap.1 hk
      obtain ⟨L, rfl, -, hh⟩ := h o ho
      exact (consOf_iff L.bounds L.coef l x).2 hh k hk
  obtain ⟨x, a1, a2, a3, a4⟩ := least_cons l _ (by
      intro k hk
      obtain ⟨o, ho, hk⟩ := List.mem_flatMap.1 hk
      cases o with
      | none => cases hk
      | some L => exact consOf_g _ _ k hk) c x0 l0 p0 ((key x0).2 h0) B (fun x h1 h2 h3 => hB x h1 h2 ((key x).1 h3))
  exact ⟨x, ⟨a1, a2, (key x).1 a3⟩, fun y h1 h2 h3 => a4 y h1 h2 ((key y).2 h3)⟩

end Verif.Lp

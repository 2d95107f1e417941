import Verif.Spec.LicencePeriods
import Verif.Proof.Storage
import Verif.Proof.Rolling
import Mathlib.Tactic.Linarith
import Mathlib.Tactic.Ring
/-! # Lemmas about licences with a volume for a year, a season or some months -/

namespace Verif.VirtualStorage

open Verif.Bounds Verif.Storage

/-- The volume is within the bounds, and the array of the parameter holds the maximum unless this is the first timestep. -/
structure Good (i : Storage.Initial) (mx mn : Rat) (first : Bool) (n : Node) : Prop where
  low : mn ≤ n.store.volume
  high : n.store.volume ≤ mx
  held : first = false → n.held = mx

/-- A reset to the maximum does not happen in the first timestep if the maximum is a parameter. -/
def Guarded (i : Storage.Initial) (n : Node) (t : Stamp) : Prop := isParam i = true → (n.clock.tick t).2 ≠ .reset false

theorem maxNow_fixed {i : Storage.Initial} {mx mn : Rat} (h : Fixed i mx mn) (d : Day) : maxNow i d = mx := by
  unfold maxNow
  rcases h.maximum with e | e <;> rw [e]

theorem pc_ok {i : Storage.Initial} {mx mn v : Rat} (h : Fixed i mx mn) (hv : getInitialVolume i = .ok v) : ∃ p, getInitialPc i = .ok p := by
  unfold getInitialVolume at hv
  unfold getInitialPc
  rcases h.maximum with e | e <;> rw [e] at hv ⊢ <;> dsimp only at hv ⊢ <;> cases hp : i.pc <;> cases hw : i.volume <;> rw [hp] at hv <;>
    simp_all

/-- What `before` does to the volume. -/
theorem before_spec {i : Storage.Initial} {mx mn : Rat} (h : Fixed i mx mn) {first : Bool} {n : Node} (g : Good i mx mn first n) {t : Stamp}
    (hg : first = true → Guarded i n t) :
    ∃ b, n.before i t = .ok b ∧ b.clock = (n.clock.tick t).1 ∧ mn ≤ b.store.volume ∧ b.store.volume ≤ mx ∧
      ((n.clock.tick t).2 = .none → b.store.volume = n.store.volume) := by
  unfold Node.before
  cases e : (n.clock.tick t).2 with
  | none => exact ⟨_, rfl, rfl, g.low, g.high, fun _ => rfl⟩
  | reset u =>
    obtain ⟨v, hv, h1, h2⟩ := h.initial
    obtain ⟨p, hp⟩ := pc_ok h hv
    have hmm : mn ≤ mx := h1.trans h2
    cases u with
    | true =>
      simp only [resetStorageOnly, if_true, hv, hp]
      exact ⟨_, rfl, rfl, h1, h2, fun x => by cases x⟩
    | false =>
      simp only [resetStorageOnly, Bool.false_eq_true, if_false]
      have hm : n.heldMax i = mx := by
        unfold Node.heldMax
        rcases h.maximum with e1 | e1 <;> rw [e1]
        refine g.held ?_
        by_contra c
        have c : first = true := by simpa using c
        exact hg c (by unfold isParam; rw [e1]) e
      rw [hm]
      exact ⟨_, rfl, rfl, hmm, le_refl _, fun x => by cases x⟩

/-- What is left after a timestep. -/
theorem after_spec {tol : Rat} {i : Storage.Initial} {mx mn : Rat} (h : Fixed i mx mn) {b : Node} {d : Day} (h1 : mn ≤ b.store.volume) (h2 : b.store.volume ≤ mx)
    (hmn : d.mn = mn) (hd : 0 < d.days) (htol : tol * d.days < e6) (hbig : (mx - mn) / d.days < dblMax)
    (hr : Respects tol (vRow b.clock.active b.store.volume (maxNow i d) d.mn d.days) (-(d.uses.map fun u => u.factor * u.flow).sum)) :
    Good i mx mn false (b.after i d) ∧ (b.after i d).clock = b.clock ∧
      (if b.clock.active = true then d.used else 0) ≤ b.store.volume - (b.after i d).store.volume + e6 := by
  have e6p := e6_pos
  have hmm : mn ≤ mx := h1.trans h2
  rw [maxNow_fixed h, hmn] at hr
  cases ha : b.clock.active with
  | false =>
    have e : (b.after i d).store = b.store := by simp [Node.after, VState.after, ha]
    refine ⟨⟨by rw [e]; exact h1, by rw [e]; exact h2, fun _ => maxNow_fixed h d⟩, rfl, ?_⟩
    rw [e]
    simp only [Bool.false_eq_true, if_false]
    linarith
  | true =>
    have e : (b.after i d).store.volume = snap mx mn (b.store.volume - d.used) := by
      unfold Node.after VState.after State.after Day.used
      simp only [ha, if_true, maxNow_fixed h, hmn, depletion_eq]
      congr 1
      ring
    have hs : mn - e6 < b.store.volume - d.used ∧ b.store.volume - d.used < mx + e6 := by
      obtain ⟨y, hy, hxy⟩ := hr
      have hy' : (storageRow b.store.volume mx mn d.days).Admits y := by
        unfold vRow at hy
        rw [ha] at hy
        by_cases c : mx = mn
        · rw [if_pos c] at hy; unfold storageRow; rw [if_pos c]; exact hy
        · rw [if_neg c, if_neg (by simp)] at hy; exact hy
      obtain ⟨a1, a2⟩ := storageRow_admits h1 h2 hd hbig hy'
      rw [abs_le] at hxy
      have m1 := mul_le_mul_of_nonneg_right hxy.1 hd.le
      have m2 := mul_le_mul_of_nonneg_right hxy.2 hd.le
      unfold Day.used
      constructor <;> linarith
    have hb := snap_mem hmm hs.1 hs.2
    refine ⟨⟨by rw [e]; exact hb.1, by rw [e]; exact hb.2, fun _ => maxNow_fixed h d⟩, rfl, ?_⟩
    rw [e, if_pos rfl]
    have := snap_err mx mn (b.store.volume - d.used) (h.wide.elim (fun c => .inr (.inl c)) fun c => .inl (by rw [abs_of_nonneg (by linarith)]; exact c))
    rw [abs_le] at this
    linarith [this.1]

/-- The replenishments fall between periods: no timestep whose period is that of the timestep before is one. -/
def Between (label : Stamp → Int) : Option Stamp → Clock → List Day → Prop
  | _, _, [] => True
  | p, c, d :: ds => (∀ q, p = some q → label q = label d.stamp → (c.tick d.stamp).2 = .none) ∧ Between label (some d.stamp) (c.tick d.stamp).1 ds

theorem spent_none (i : Storage.Initial) (sel : Stamp → Bool) (n : Node) (ds : List Day) (h : ∀ d ∈ ds, sel d.stamp = false) : spent i sel n ds = 0 := by
  induction ds generalizing n with
  | nil => rfl
  | cons d ds ih =>
    simp only [spent]
    cases n.before i d.stamp with
    | error e => rfl
    | ok b => simp [h d (by simp), ih _ fun x hx => h x (by simp [hx])]

/-- What is used in a period is at most what was there at its beginning. -/
theorem spent_le {tol : Rat} {i : Storage.Initial} {mx mn : Rat} (h : Fixed i mx mn) (label : Stamp → Int) (y : Int) (ds : List Day)
    (hmono : ds.Pairwise fun a b => label a.stamp ≤ label b.stamp)
    (hmn : ∀ d ∈ ds, d.mn = mn ∧ (mx - mn) / d.days < dblMax) :
    ∀ (p : Option Stamp) (n : Node), Good i mx mn p.isNone n → (∀ d, ds.head? = some d → p.isNone = true → Guarded i n d.stamp) →
      (∀ q, p = some q → ∀ d ∈ ds, label q ≤ label d.stamp) → Between label p n.clock ds → Obeys tol i n ds →
      spent i (fun t => decide (label t = y)) n ds ≤ mx - mn + (ds.filter fun d => decide (label d.stamp = y)).length * e6 ∧
      ((∃ q, p = some q ∧ label q = y) →
        spent i (fun t => decide (label t = y)) n ds ≤ n.store.volume - mn + (ds.filter fun d => decide (label d.stamp = y)).length * e6) := by
  have e6p := e6_pos
  induction ds with
  | nil =>
    intro p n g _ _ _ _
    have := g.low
    have := g.high
    simp only [spent, List.filter_nil, List.length_nil, Nat.cast_zero, zero_mul, add_zero]
    exact ⟨by linarith, fun _ => by linarith⟩
  | cons d ds ih =>
    intro p n g hg hp hb ho
    obtain ⟨b, eb, hd, htol, hr, ho⟩ := ho
    obtain ⟨b', eb', hc, b1, b2, b3⟩ := before_spec h g (t := d.stamp) (fun e => hg d rfl e)
    rw [eb] at eb'
    cases eb'
    obtain ⟨hm1, hm2⟩ := List.pairwise_cons.1 hmono
    obtain ⟨g2, c2, hu⟩ := after_spec h b1 b2 (hmn d (by simp)).1 hd htol (hmn d (by simp)).2 hr
    obtain ⟨i1, i2⟩ := ih hm2 (fun x hx => hmn x (by simp [hx])) (some d.stamp) (b.after i d) g2 (fun _ _ e => by cases e)
      (fun q e x hx => by cases e; exact hm1 x hx) (by rw [c2, hc]; exact hb.2) ho
    have e : spent i (fun t => decide (label t = y)) n (d :: ds) =
        (if label d.stamp = y ∧ b.clock.active = true then d.used else 0) + spent i (fun t => decide (label t = y)) (b.after i d) ds := by
      simp [spent, eb]
    rw [e]
    by_cases hy : label d.stamp = y
    · have i2 := i2 ⟨d.stamp, rfl, hy⟩
      have ef : (((d :: ds).filter fun d => decide (label d.stamp = y)).length : Rat) = (ds.filter fun d => decide (label d.stamp = y)).length + 1 := by
        rw [List.filter_cons_of_pos (by simpa using hy)]; push_cast [List.length_cons]; rfl
      rw [ef]
      have hu : (if label d.stamp = y ∧ b.clock.active = true then d.used else 0) ≤ b.store.volume - (b.after i d).store.volume + e6 := by
        simpa [hy] using hu
      refine ⟨by nlinarith, fun ⟨q, hq, hqy⟩ => ?_⟩
      have := b3 (hb.1 q hq (by rw [hqy, hy]))
      rw [← this]
      nlinarith
    · have ef : ((d :: ds).filter fun d => decide (label d.stamp = y)) = ds.filter fun d => decide (label d.stamp = y) := by
        rw [List.filter_cons_of_neg (by simpa using hy)]
      rw [ef, if_neg (fun c => hy c.1), zero_add]
      refine ⟨i1, fun ⟨q, hq, hqy⟩ => ?_⟩
      have hlt : y < label d.stamp := by
        have := hp q hq d (by simp)
        omega
      have hz : ∀ x ∈ ds, decide (label x.stamp = y) = false := by
        intro x hx
        have := hm1 x hx
        simp
        omega
      rw [spent_none _ _ _ _ hz, List.filter_eq_nil_iff.2 (by intro x hx; simp [hz x hx])]
      have := g.low
      simp
      linarith

end Verif.VirtualStorage

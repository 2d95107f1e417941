import Verif.Proof.DoubleLicence
import Mathlib.Data.List.Forall2
/-!
C114: licences in double precision.
-/

namespace Verif.Float64

open Verif.License

/-- What a licence may be exceeded by in each timestep: the tolerance `η` of the solver and rounding. -/
private theorem eps (u τ A η : Rat) (eu : u = 1 / 2 ^ 53) (eτ : τ = 1 / 2 ^ 1075) : 3 * (A + η) / 2 ^ 53 + 3 / 2 ^ 1075 = 3 * u * (A + η) + 3 * τ := by
  rw [div_eq_mul_one_div _ ((2 : Rat) ^ 53), div_eq_mul_one_div _ ((2 : Rat) ^ 1075), ← eu, ← eτ]
  ring

/-- **C114 (storage licence), partial.** If in no timestep the node takes more than the licence's value and a tolerance, it takes at most the amount in total, up to the tolerance and about 3·2⁻⁵³ of the amount in each timestep.
Without the error of rounding this does not hold (`C114_storage_fails`). -/
theorem C114_storage_partial (amount η : Rat) (ha : 0 ≤ amount) (hd : IsDouble amount) (hη : 0 ≤ η) (ts : List License.Step) (hv : ∀ t ∈ ts, 0 ≤ t.flow) (s : License.State)
    (hf : List.Forall₂ (fun t v => t.flow * (t.len : Rat) ≤ v + η) ts (storageLicenceValues (s.reset amount) ts)) :
    (ts.map fun t => t.flow * (t.len : Rat)).sum ≤ amount + ts.length * (η + (3 * (amount + η) / 2 ^ 53 + 3 / 2 ^ 1075)) := by
  obtain ⟨u, τ, eu, eτ, hu, hu1, hτ, -, hfl⟩ := rounding
  rw [eps u τ amount η eu eτ]
  have key : ∀ (ts : List License.Step) (s : License.State), (∀ t ∈ ts, 0 ≤ t.flow) → IsDouble s.remaining → 0 ≤ s.remaining → s.remaining ≤ amount →
      List.Forall₂ (fun t v => t.flow * (t.len : Rat) ≤ v + η) ts (storageLicenceValues s ts) →
      (ts.map fun t => t.flow * (t.len : Rat)).sum ≤ s.remaining + ts.length * (η + (3 * u * (amount + η) + 3 * τ)) := by
    intro ts
    induction ts with
    | nil => intro s _ _ h0 _ _; simpa using h0
    | cons t ts ih =>
      intro s hv hd h0 hA hf
      simp only [storageLicenceValues, List.forall₂_cons] at hf
      obtain ⟨a, b, c, d, -⟩ := licence_step hu hu1 hτ hfl amount η s t hd h0 hA hη (hv t (by simp)) hf.1
      have := ih (licenceAfter s t) (fun t' h' => hv t' (by simp [h'])) a b (c.trans hA) hf.2
      simp only [List.map_cons, List.sum_cons, List.length_cons]
      push_cast
      linarith
  exact key ts (s.reset amount) hv hd ha le_rfl hf

/-- **C114 (what is left).** The value of a storage licence is never negative, never grows, never more than the amount, and differs from the amount less what was taken by at most the tolerance and about 3·2⁻⁵³ of the amount for
each earlier timestep. -/
theorem C114_left (amount η : Rat) (ha : 0 ≤ amount) (hd : IsDouble amount) (hη : 0 ≤ η) (ts : List License.Step) (hv : ∀ t ∈ ts, 0 ≤ t.flow) (s : License.State)
    (hf : List.Forall₂ (fun t v => t.flow * (t.len : Rat) ≤ v + η) ts (storageLicenceValues (s.reset amount) ts)) (i : Nat) (v : Rat) (hi : (storageLicenceValues (s.reset amount) ts)[i]? = some v) :
    0 ≤ v ∧ v ≤ amount ∧ (∀ w, (storageLicenceValues (s.reset amount) ts)[i + 1]? = some w → w ≤ v) ∧
    amount - ((ts.take i).map fun t => t.flow * (t.len : Rat)).sum - i * (3 * (amount + η) / 2 ^ 53 + 3 / 2 ^ 1075) ≤ v ∧
    v ≤ amount - ((ts.take i).map fun t => t.flow * (t.len : Rat)).sum + i * (η + (3 * (amount + η) / 2 ^ 53 + 3 / 2 ^ 1075)) := by
  obtain ⟨u, τ, eu, eτ, hu, hu1, hτ, -, hfl⟩ := rounding
  rw [eps u τ amount η eu eτ]
  have key : ∀ (i : Nat) (ts : List License.Step) (s : License.State), (∀ t ∈ ts, 0 ≤ t.flow) → IsDouble s.remaining → 0 ≤ s.remaining → s.remaining ≤ amount →
      List.Forall₂ (fun t v => t.flow * (t.len : Rat) ≤ v + η) ts (storageLicenceValues s ts) → (storageLicenceValues s ts)[i]? = some v →
      0 ≤ v ∧ v ≤ s.remaining ∧ (∀ w, (storageLicenceValues s ts)[i + 1]? = some w → w ≤ v) ∧
      s.remaining - ((ts.take i).map fun t => t.flow * (t.len : Rat)).sum - i * (3 * u * (amount + η) + 3 * τ) ≤ v ∧
      v ≤ s.remaining - ((ts.take i).map fun t => t.flow * (t.len : Rat)).sum + i * (η + (3 * u * (amount + η) + 3 * τ)) := by
    intro i
    induction i with
    | zero =>
      intro ts s hv hd h0 hA hf hi
      cases ts with
      | nil => simp [storageLicenceValues] at hi
      | cons t ts =>
        simp only [storageLicenceValues, List.getElem?_cons_zero, Option.some.injEq] at hi
        subst hi
        refine ⟨h0, le_rfl, fun w hw => ?_, by simp, by simp⟩
        simp only [storageLicenceValues, List.forall₂_cons] at hf
        obtain ⟨-, -, c, -, -⟩ := licence_step hu hu1 hτ hfl amount η s t hd h0 hA hη (hv t (by simp)) hf.1
        cases ts with
        | nil => simp [storageLicenceValues] at hw
        | cons t' ts =>
          simp only [storageLicenceValues, zero_add, List.getElem?_cons_succ, List.getElem?_cons_zero, Option.some.injEq] at hw
          rw [← hw]
          exact c
    | succ i ih =>
      intro ts s hv hd h0 hA hf hi
      cases ts with
      | nil => simp [storageLicenceValues] at hi
      | cons t ts =>
        simp only [storageLicenceValues, List.forall₂_cons] at hf
        obtain ⟨a, b, c, d, e⟩ := licence_step hu hu1 hτ hfl amount η s t hd h0 hA hη (hv t (by simp)) hf.1
        simp only [storageLicenceValues, List.getElem?_cons_succ] at hi
        obtain ⟨r1, r2, r3, r4, r5⟩ := ih ts (licenceAfter s t) (fun t' h' => hv t' (by simp [h'])) a b (c.trans hA) hf.2 hi
        refine ⟨r1, r2.trans c, fun w hw => r3 w (by simpa [storageLicenceValues] using hw), ?_, ?_⟩ <;>
        · simp only [List.take_succ_cons, List.map_cons, List.sum_cons]
          push_cast
          linarith
  exact key i ts (s.reset amount) hv hd ha le_rfl hf hi

private theorem forall₂_of_zip {α β : Type} {R : α → β → Prop} {l : List α} {k : List β} (h1 : l.length = k.length) (h2 : ∀ p ∈ l.zip k, R p.1 p.2) : List.Forall₂ R l k :=
  List.forall₂_iff_zip.2 ⟨h1, fun {a b} h => h2 (a, b) h⟩

/-- **C114: a licence is exceeded by rounding.** Ten days with a flow of 0.1: the value of the licence (1 in total) is never exceeded, but all together is more than 1. -/
theorem C114_storage_fails : ∃ ts : List License.Step, (∀ t ∈ ts, 0 ≤ t.flow ∧ fl t.flow = t.flow) ∧
    List.Forall₂ (fun t v => t.flow * (t.len : Rat) ≤ v) ts (storageLicenceValues (State.new 1) ts) ∧ 1 < (ts.map fun t => t.flow * (t.len : Rat)).sum := by
  refine ⟨(List.range 10).map fun i => ⟨2001, i + 1, 1, fl (1 / 10), if i = 0 then 0 else fl (1 / 10)⟩, by decide +kernel, ?_, by decide +kernel⟩
  exact forall₂_of_zip (by decide +kernel) (by decide +kernel)

private theorem value_le {s : License.State} {t : License.Step} (hd : IsDouble s.remaining) (h0 : 0 ≤ s.remaining) (ht : t.Valid) : 0 ≤ licenceValue s t ∧ licenceValue s t ≤ s.remaining := by
  unfold licenceValue
  obtain ⟨h1, h2, -, -⟩ := ht
  split
  · exact ⟨h0, le_rfl⟩
  · have hn : 1 ≤ daysInYear t.year - (t.doy - 1) := by omega
    have hn' : (1 : Rat) ≤ ((daysInYear t.year - (t.doy - 1) : Nat) : Rat) := by exact_mod_cast hn
    have h3 := fl_mono (div_le_self h0 hn')
    rw [fl_self hd] at h3
    exact ⟨fl_nonneg (by positivity), h3⟩

private theorem years_ge (t : License.Step) (ts : List License.Step) (hc : Consecutive (t :: ts)) : ∀ x ∈ ts, t.year ≤ x.year := by
  induction ts generalizing t with
  | nil => simp
  | cons v ts ih =>
    have h1 : t.year ≤ v.year := by
      rcases hc.1.2 with h | h
      · exact h.2.1 ▸ le_rfl
      · omega
    intro x hx
    rcases List.mem_cons.1 hx with rfl | hx
    · exact h1
    · exact h1.trans (ih v hc.2 x hx)

/-- **C114 (annual licence, daily), partial.** With daily timesteps, if no flow is above the licence's value and a tolerance, the total of each calendar year is at most the amount, up to the tolerance and about 3·2⁻⁵³ of the amount
for each of its days; the values are never negative and never above the amount.  Without the error of rounding this does not hold (`C114_annual_fails`). -/
theorem C114_annual_partial (amount η : Rat) (ha : 0 ≤ amount) (hd : IsDouble amount) (hη : 0 ≤ η) (ts : List License.Step) (hc : Consecutive ts) (hv : ∀ t ∈ ts, t.Valid ∧ 0 ≤ t.flow) (hl : ∀ t ∈ ts, t.len = 1)
    (h0 : ∀ t ∈ ts.head?, t.prevFlow = 0) (s : License.State) (hf : List.Forall₂ (fun t v => t.flow ≤ v + η) ts (annualValues amount (s.reset amount) ts)) :
    (∀ y, ((ts.filter fun t => t.year = y).map License.Step.flow).sum ≤ amount + (ts.filter fun t => t.year = y).length * (η + (3 * (amount + η) / 2 ^ 53 + 3 / 2 ^ 1075))) ∧
    ∀ v ∈ annualValues amount (s.reset amount) ts, 0 ≤ v ∧ v ≤ amount := by
  obtain ⟨u, τ, eu, eτ, hu, hu1, hτ, -, hfl⟩ := rounding
  rw [eps u τ amount η eu eτ]
  have hε : 0 ≤ η + (3 * u * (amount + η) + 3 * τ) := by positivity
  generalize hE : 3 * u * (amount + η) + 3 * τ = ε at *
  have key : ∀ (ts : List License.Step) (s : License.State), Consecutive ts → (∀ t ∈ ts, t.Valid ∧ 0 ≤ t.flow ∧ t.len = 1) → IsDouble s.remaining → 0 ≤ s.remaining → s.remaining ≤ amount →
      (∀ t ∈ ts.head?, s.prevYear = some t.year ∨ ((t.doy - 1 : Nat) : Rat) * t.prevFlow = 0) → (∀ t ∈ ts.head?, ∀ z, s.prevYear = some z → z ≤ t.year ∨ s.remaining = amount) →
      List.Forall₂ (fun t v => t.flow ≤ v + η) ts (annualValues amount s ts) →
      (∀ y, ((ts.filter fun t => t.year = y).map License.Step.flow).sum ≤ (if s.prevYear = some y then s.remaining else amount) + (ts.filter fun t => t.year = y).length * (η + ε)) ∧
      ∀ v ∈ annualValues amount s ts, 0 ≤ v ∧ v ≤ amount := by
    intro ts
    induction ts with
    | nil =>
      intro s _ _ _ h0 _ _ _ _
      refine ⟨fun y => ?_, by simp [annualValues]⟩
      simp only [List.filter_nil, List.map_nil, List.sum_nil, List.length_nil, Nat.cast_zero, zero_mul, add_zero]
      split
      · exact h0
      · exact ha
    | cons t ts ih =>
      intro s hc hv hds h0 hA hh hz hf
      simp only [annualValues, List.forall₂_cons] at hf
      obtain ⟨hval, hflow, hlen⟩ := hv t (by simp)
      -- the state after `before`
      have hb : (licenceBefore amount s t).prevYear = some t.year ∧ IsDouble (licenceBefore amount s t).remaining ∧ 0 ≤ (licenceBefore amount s t).remaining ∧ (licenceBefore amount s t).remaining ≤ amount ∧
          (licenceBefore amount s t).remaining = if s.prevYear = some t.year then s.remaining else amount := by
        unfold licenceBefore
        by_cases hy : s.prevYear = some t.year
        · simp only [hy, ne_eq, not_true_eq_false, if_false, if_true]
          exact ⟨trivial, hds, h0, hA, trivial⟩
        · rcases hh t (by simp) with h | h
          · exact absurd h hy
          · simp only [ne_eq, hy, not_false_eq_true, if_true, if_false, h, fl_zero, sub_zero, fl_self hd]
            exact ⟨trivial, hd, ha, le_rfl, trivial⟩
      obtain ⟨b1, b2, b3, b4, b5⟩ := hb
      obtain ⟨v1, v2⟩ := value_le b2 b3 hval
      have hw1 := v1
      have hw2 := v2.trans b4
      have hav : annualValues amount s (t :: ts) = licenceValue (licenceBefore amount s t) t :: annualValues amount (licenceAfter (licenceBefore amount s t) t) ts := rfl
      rw [hav]
      generalize licenceBefore amount s t = s1 at *
      have hp : t.flow * t.len ≤ s1.remaining + η := by
        rw [hlen, Nat.cast_one, mul_one]
        linarith [hf.1]
      obtain ⟨a, b, c, d, -⟩ := licence_step hu hu1 hτ hfl amount η s1 t b2 b3 b4 hη hflow hp
      rw [hE, hlen, Nat.cast_one, mul_one] at d
      have hpy : (licenceAfter s1 t).prevYear = some t.year := b1
      have hrec := ih (licenceAfter s1 t) (by cases ts with
          | nil => trivial
          | cons => exact hc.2) (fun x hx => hv x (by simp [hx])) a b (c.trans b4) (by
        intro x hx
        cases ts with
        | nil => simp at hx
        | cons v ts =>
          simp only [List.head?_cons, Option.mem_some_iff] at hx
          subst hx
          rw [hpy]
          rcases hc.1.2 with h | h
          · exact Or.inl (by rw [h.2.1])
          · have : v.doy - 1 = 0 := by
              have := hval.2.1
              omega
            exact Or.inr (by rw [this]; simp)) (by
        intro x hx z hz'
        rw [hpy] at hz'
        cases hz'
        exact Or.inl (years_ge t ts hc x (List.mem_of_mem_head? hx))) hf.2
      constructor
      · intro y
        by_cases hy : t.year = y
        · subst hy
          have := hrec.1 t.year
          rw [if_pos hpy] at this
          simp only [decide_true, List.filter_cons_of_pos, List.map_cons, List.sum_cons, List.length_cons, ← b5]
          push_cast
          linarith
        · have hfil : (t :: ts).filter (fun t => decide (t.year = y)) = ts.filter fun t => decide (t.year = y) := by simp [hy]
          rw [hfil]
          by_cases hp : s.prevYear = some y
          · rw [if_pos hp]
            rcases hz t (by simp) y hp with hle | he
            · -- an earlier year does not come back
              have hlt : y < t.year := lt_of_le_of_ne hle (Ne.symm hy)
              have : ts.filter (fun t => decide (t.year = y)) = [] := by
                rw [List.filter_eq_nil_iff]
                intro x hx
                have := years_ge t ts hc x hx
                simp only [decide_eq_true_eq]
                omega
              rw [this]
              simpa using h0
            · have := hrec.1 y
              rw [if_neg (by rw [hpy]; simpa using hy)] at this
              rw [he]
              exact this
          · have := hrec.1 y
            rw [if_neg (by rw [hpy]; simpa using hy)] at this
            rw [if_neg hp]
            exact this
      · intro w hw
        rcases List.mem_cons.1 hw with rfl | hw
        · exact ⟨hw1, hw2⟩
        · exact hrec.2 w hw
  have h := key ts (s.reset amount) hc (fun t ht => ⟨(hv t ht).1, (hv t ht).2, hl t ht⟩) hd ha le_rfl
    (fun t ht => Or.inr (by rw [h0 t ht, mul_zero])) (fun _ _ _ _ => Or.inr rfl) hf
  refine ⟨fun y => ?_, h.2⟩
  have := h.1 y
  rwa [show (if (s.reset amount).prevYear = some y then (s.reset amount).remaining else amount) = amount from ite_self amount] at this

/-- **C114: an annual licence is exceeded by rounding.** The last three days of a year, each with the flow that the licence allows. -/
theorem C114_annual_fails : ∃ ts : List License.Step, Consecutive ts ∧ (∀ t ∈ ts, 0 ≤ t.flow ∧ fl t.flow = t.flow ∧ t.year = 2001 ∧ t.len = 1) ∧
    List.Forall₂ (fun t v => t.flow ≤ v) ts (annualValues 1 (State.new 1) ts) ∧ 1 < (ts.map License.Step.flow).sum := by
  refine ⟨[⟨2001, 363, 1, fl (1 / 3), 0⟩, ⟨2001, 364, 1, fl (fl (1 - fl (1 / 3)) / 2), fl (1 / 3)⟩, ⟨2001, 365, 1, fl (fl (1 - fl (1 / 3)) / 2), fl (fl (1 - fl (1 / 3)) / 2)⟩], ?_, by decide +kernel,
    forall₂_of_zip (by decide +kernel) (by decide +kernel), by decide +kernel⟩
  exact ⟨⟨rfl, by decide +kernel⟩, ⟨rfl, by decide +kernel⟩, trivial⟩

/-- **C114 (rest of a year).** For timesteps of any whole length within one year, after the licence has been reset: the total is at most what remained, up to the tolerance and rounding. -/
theorem C114_year (amount η : Rat) (hη : 0 ≤ η) (y : Nat) (ts : List License.Step) (hv : ∀ t ∈ ts, t.Valid ∧ 0 ≤ t.flow ∧ t.year = y ∧ t.doy + t.len - 1 ≤ daysInYear y) (s : License.State) (hy : s.prevYear = some y)
    (hd : IsDouble s.remaining) (h0 : 0 ≤ s.remaining) (hA : s.remaining ≤ amount) (hf : List.Forall₂ (fun t v => t.flow ≤ v + η) ts (annualValues amount s ts)) :
    (ts.map fun t => t.flow * (t.len : Rat)).sum ≤ s.remaining + ts.length * (2 * (366 * η + (4 * amount / 2 ^ 53 + 400 / 2 ^ 1075))) := by
  obtain ⟨u, τ, eu, eτ, hu, hu1, hτ, -, hfl⟩ := rounding
  have e : 4 * amount / 2 ^ 53 + 400 / 2 ^ 1075 = 4 * u * amount + 400 * τ := by
    rw [div_eq_mul_one_div _ ((2 : Rat) ^ 53), div_eq_mul_one_div _ ((2 : Rat) ^ 1075), ← eu, ← eτ]
    ring
  rw [e]
  clear e eu eτ
  have ha : 0 ≤ amount := h0.trans hA
  induction ts generalizing s with
  | nil => simpa using h0
  | cons t ts ih =>
    obtain ⟨hval, hflow, hty, hin⟩ := hv t (by simp)
    have hb : licenceBefore amount s t = s := by unfold licenceBefore; rw [if_neg (by rw [hy, hty]; simp)]
    simp only [annualValues, List.forall₂_cons, hb] at hf
    -- the flow over the timestep
    have hlen : (t.len : Rat) ≤ 366 := by
      have : t.len ≤ 366 := by have := hval.2.2.2; omega
      exact_mod_cast this
    have hl0 : (0 : Rat) ≤ t.len := by positivity
    have hvl : licenceValue s t * t.len ≤ s.remaining + (u * amount + 366 * τ) := by
      have hx0 : 0 ≤ u * amount + 366 * τ := by positivity
      obtain ⟨h1, h2, h3, h4⟩ := hval
      unfold licenceValue
      split
      · rename_i hq
        have : t.len = 1 := by rw [hty] at hq; omega
        rw [this]
        simp only [Nat.cast_one, mul_one]
        linarith
      · rename_i hq
        rw [hty] at h2 hq ⊢
        have hn : t.len ≤ daysInYear y - (t.doy - 1) := by omega
        have hn0 : 1 ≤ daysInYear y - (t.doy - 1) := by omega
        generalize daysInYear y - (t.doy - 1) = n at *
        have hn' : (t.len : Rat) ≤ n := by exact_mod_cast hn
        have hnp : (0 : Rat) < n := by exact_mod_cast hn0
        have hle := hfl (s.remaining / n)
        rw [abs_of_nonneg (show 0 ≤ s.remaining / n by positivity), abs_le] at hle
        have k1 : s.remaining / n * t.len ≤ s.remaining := by
          rw [div_mul_eq_mul_div, div_le_iff₀ hnp]
          exact mul_le_mul_of_nonneg_left hn' h0
        have k2 : fl (s.remaining / n) * t.len ≤ (s.remaining / n + (u * (s.remaining / n) + τ)) * t.len := mul_le_mul_of_nonneg_right (by linarith [hle.2]) hl0
        have k3 : u * (s.remaining / n * t.len) ≤ u * amount := mul_le_mul_of_nonneg_left (k1.trans hA) hu.le
        have k4 : τ * t.len ≤ τ * 366 := mul_le_mul_of_nonneg_left hlen hτ.le
        linarith
    have hηl : η * t.len ≤ η * 366 := mul_le_mul_of_nonneg_left hlen hη
    have hft : t.flow * t.len ≤ (licenceValue s t + η) * t.len := mul_le_mul_of_nonneg_right hf.1 hl0
    obtain ⟨a, b, c, d, -⟩ := licence_step hu hu1 hτ hfl amount (366 * η + (u * amount + 366 * τ)) s t hd h0 hA (by positivity) hflow (by linarith)
    have hrec := ih (fun x hx => hv x (by simp [hx])) (licenceAfter s t) hy a b (c.trans hA) hf.2
    simp only [List.map_cons, List.sum_cons, List.length_cons]
    push_cast
    have k5 : u * (u * amount) ≤ 1 / 1000 * (u * amount) := mul_le_mul_of_nonneg_right hu1 (by positivity)
    have k6 : u * τ ≤ 1 / 1000 * τ := mul_le_mul_of_nonneg_right hu1 hτ.le
    have k7 : u * η ≤ 1 / 1000 * η := mul_le_mul_of_nonneg_right hu1 hη
    have k8 : 0 ≤ u * amount := by positivity
    linarith

/-! ## Cases that meet the hypotheses -/

private def days : List License.Step := [⟨2001, 364, 1, 3 / 8, 0⟩, ⟨2001, 365, 1, 5 / 8, 3 / 8⟩, ⟨2002, 1, 1, fl (1 / 365), 5 / 8⟩]

example : List.Forall₂ (fun t v => t.flow * (t.len : Rat) ≤ v + 1 / 1000000) (days.take 2) (storageLicenceValues (State.reset 1 (State.new 1)) (days.take 2)) := forall₂_of_zip (by decide +kernel) (by decide +kernel)

example : (∀ t ∈ days, t.Valid ∧ 0 ≤ t.flow) ∧ (∀ t ∈ days, t.len = 1) ∧ (∀ t ∈ days.head?, t.prevFlow = 0) := by
  unfold License.Step.Valid
  decide +kernel

example : Consecutive days := ⟨⟨rfl, by decide +kernel⟩, ⟨rfl, by decide +kernel⟩, trivial⟩

example : List.Forall₂ (fun t v => t.flow ≤ v + 1 / 1000000) days (annualValues 1 (State.reset 1 ⟨1 / 2, some 2007⟩) days) := forall₂_of_zip (by decide +kernel) (by decide +kernel)

/-- Two weeks from the 1st of October. -/
private def weeks : List License.Step := [⟨2001, 274, 7, 1, 2⟩, ⟨2001, 281, 7, 1, 1⟩]

example : (∀ t ∈ weeks, t.Valid ∧ 0 ≤ t.flow ∧ t.year = 2001 ∧ t.doy + t.len - 1 ≤ daysInYear 2001) ∧ List.Forall₂ (fun t v => t.flow ≤ v + 0) weeks (annualValues 1000 ⟨92, some 2001⟩ weeks) := by
  constructor
  · unfold License.Step.Valid
    decide +kernel
  · exact forall₂_of_zip (by decide +kernel) (by decide +kernel)

end Verif.Float64

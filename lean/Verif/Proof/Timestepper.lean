import Verif.Model.Timestepper
import Verif.Spec.Timestepper
import Mathlib.Tactic.Linarith
import Mathlib.Tactic.NormNum

/-! # Lemmas about the timestepper -/

namespace Verif.Timestepper

variable {Freq : Type}

theorem good_seconds {p : Period} (h : GoodPeriod p) : 0 < p.seconds := by
  unfold GoodPeriod at h; unfold Period.seconds roundSeconds; omega

theorem mk_good {p : Period} (h : GoodPeriod p) (i : Nat) : mkTimestep p i p.seconds = .ok ⟨p, i, p.seconds⟩ := by
  have := good_seconds h
  unfold mkTimestep; rw [if_neg (by omega)]

/-- The state is positioned so that the next call of `next` uses index `k ≤ len`. -/
structure At (s : State Freq) (k : Nat) : Prop where
  le : k ≤ s.periods.length
  next : ∃ p sec, s.next = some ⟨p, k, sec⟩ ∧ (∀ q, s.periods[k]? = some q → p = q ∧ sec = q.seconds)

theorem next_in (pd : Pandas Freq) {s : State Freq} {k : Nat} (hg : ∀ p ∈ s.periods, GoodPeriod p)
    (hsh : ∀ p, GoodPeriod p → GoodPeriod (pd.shift s.freq p)) (h : At s k) (hk : k < s.periods.length) :
    ∃ p, s.periods[k]? = some p ∧ (s.nextStep pd).1 = .ok ⟨p, k, p.seconds⟩ ∧ At (s.nextStep pd).2 (k + 1) ∧
      (s.nextStep pd).2.periods = s.periods ∧ (s.nextStep pd).2.freq = s.freq ∧
      (s.nextStep pd).2.current = some ⟨p, k, p.seconds⟩ := by
  obtain ⟨hle, p, sec, hn, hp⟩ := h
  obtain ⟨q, hq⟩ : ∃ q, s.periods[k]? = some q := ⟨_, List.getElem?_eq_getElem hk⟩
  obtain ⟨rfl, rfl⟩ := hp q hq
  have hpg := hg _ (List.mem_of_getElem? hq)
  refine ⟨p, hq, ?_⟩
  by_cases hl : s.periods.length ≤ k + 1
  · have he : s.nextStep pd = (.ok ⟨p, k, p.seconds⟩, { s with
        current := some ⟨p, k, p.seconds⟩
        next := some ⟨pd.shift s.freq p, k + 1, (pd.shift s.freq p).seconds⟩ }) := by
      unfold State.nextStep
      simp only [hn, ge_iff_le, not_le.2 hk, if_false, hl, if_true, mk_good (hsh p hpg)]
    rw [he]
    refine ⟨rfl, ⟨?_, _, _, rfl, ?_⟩, rfl, rfl, rfl⟩
    · simp only; omega
    · intro q' hq'
      simp only at hq'
      rw [List.getElem?_eq_none hl] at hq'; cases hq'
  · obtain ⟨q', hq'⟩ : ∃ q', s.periods[k + 1]? = some q' := ⟨_, List.getElem?_eq_getElem (by omega)⟩
    have he : s.nextStep pd = (.ok ⟨p, k, p.seconds⟩, { s with
        current := some ⟨p, k, p.seconds⟩
        next := some ⟨q', k + 1, q'.seconds⟩ }) := by
      unfold State.nextStep
      simp only [hn, ge_iff_le, not_le.2 hk, if_false, hl, hq', mk_good (hg _ (List.mem_of_getElem? hq'))]
    rw [he]
    refine ⟨rfl, ⟨?_, _, _, rfl, ?_⟩, rfl, rfl, rfl⟩
    · simp only; omega
    · intro q'' hq''
      simp only at hq''
      rw [hq'] at hq''; cases hq''; exact ⟨rfl, rfl⟩

theorem next_out (pd : Pandas Freq) {s : State Freq} (h : At s s.periods.length) :
    (s.nextStep pd).1 = .error .stopIteration ∧ At (s.nextStep pd).2 s.periods.length ∧
      (s.nextStep pd).2.periods = s.periods ∧ (s.nextStep pd).2.freq = s.freq ∧
      ∃ p sec, (s.nextStep pd).2.current = some ⟨p, s.periods.length, sec⟩ := by
  obtain ⟨hle, p, sec, hn, hp⟩ := h
  have he : s.nextStep pd = (.error .stopIteration, { s with current := some ⟨p, s.periods.length, sec⟩ }) := by
    unfold State.nextStep
    simp only [hn, ge_iff_le, le_refl, if_true]
  rw [he]
  exact ⟨rfl, ⟨le_refl _, p, sec, hn, hp⟩, rfl, rfl, p, sec, rfl⟩

theorem nexts_succ (pd : Pandas Freq) (s : State Freq) (n : Nat) :
    s.nexts pd (n + 1) = ((s.nextStep pd).1 :: ((s.nextStep pd).2.nexts pd n).1, ((s.nextStep pd).2.nexts pd n).2) := rfl

theorem nexts_spec (pd : Pandas Freq) (n : Nat) : ∀ {s : State Freq} {k : Nat},
    (∀ p ∈ s.periods, GoodPeriod p) → (∀ p, GoodPeriod p → GoodPeriod (pd.shift s.freq p)) → At s k →
    (s.nexts pd n).1.map observe = (List.range n).map (expected s.periods k) ∧
    (0 < n → ∃ ts, (s.nexts pd n).2.current = some ts ∧ ts.index = min (k + n - 1) s.periods.length ∧
      (∀ q, s.periods[ts.index]? = some q → ts.period = q ∧ ts.seconds = q.seconds)) ∧
    (s.nexts pd n).2.periods = s.periods := by
  induction n with
  | zero => intro s k _ _ _; simp [State.nexts]
  | succ n ih =>
    intro s k hg hsh h
    rw [nexts_succ]
    rcases lt_or_eq_of_le h.le with hk | hk
    · obtain ⟨p, hp, h1, h2, h3, h4, h5⟩ := next_in pd hg hsh h hk
      obtain ⟨a, b, c⟩ := ih (s := (s.nextStep pd).2) (k := k + 1) (by rw [h3]; exact hg) (by rw [h4]; exact hsh) h2
      refine ⟨?_, ?_, by simp only; rw [c, h3]⟩
      · simp only [List.map_cons, a, h1, h3, List.range_succ_eq_map, List.map_map]
        congr 1
        · simp [observe, expected, hp]
        · apply List.map_congr_left; intro i _
          simp only [Function.comp, expected]
          rw [show k + 1 + i = k + (i + 1) by omega]
      · intro _
        rcases Nat.eq_zero_or_pos n with rfl | hn
        · simp only [State.nexts, h5]
          refine ⟨_, rfl, by simp; omega, ?_⟩
          intro q hq; simp only at hq; rw [hp] at hq; cases hq; exact ⟨rfl, rfl⟩
        · obtain ⟨ts, e1, e2, e3⟩ := b hn
          refine ⟨ts, e1, ?_, ?_⟩
          · rw [e2, h3]; congr 1; omega
          · rw [h3] at e3; exact e3
    · subst hk
      obtain ⟨h1, h2, h3, h4, p, sec, h5⟩ := next_out pd h
      have h2' : At (s.nextStep pd).2 s.periods.length := h2
      obtain ⟨a, b, c⟩ := ih (s := (s.nextStep pd).2) (k := s.periods.length) (by rw [h3]; exact hg)
        (by rw [h4]; exact hsh) h2'
      have none_of : ∀ i, s.periods[s.periods.length + i]? = none := fun i =>
        List.getElem?_eq_none (by omega)
      refine ⟨?_, ?_, by simp only; rw [c, h3]⟩
      · simp only [List.map_cons, a, h1, h3, List.range_succ_eq_map, List.map_map]
        congr 1
        · have := none_of 0; simp only [Nat.add_zero] at this; simp [observe, expected]
        · apply List.map_congr_left; intro i _
          simp [Function.comp, expected]
      · intro _
        rcases Nat.eq_zero_or_pos n with rfl | hn
        · simp only [State.nexts, h5]
          refine ⟨_, rfl, by simp, ?_⟩
          intro q hq; simp at hq
        · obtain ⟨ts, e1, e2, e3⟩ := b hn
          refine ⟨ts, e1, ?_, ?_⟩
          · rw [e2, h3]; omega
          · rw [h3] at e3; exact e3

theorem reset_eq {s : State Freq} (hg : ∀ p ∈ s.periods, GoodPeriod p) (t : Option Int) (k : Nat)
    (hidx : startIndex s.periods t = some k)
    {p : Period} (hp : s.periods[k]? = some p) :
    s.reset t = (.ok (s.lastLength ≠ some s.periods.length),
      { s with current := none, next := some ⟨p, k, p.seconds⟩, lastLength := some s.periods.length }) := by
  have hpg := hg _ (List.mem_of_getElem? hp)
  unfold State.reset
  simp only [hidx, hp, mk_good hpg]

theorem reset_at {s : State Freq} (hg : ∀ p ∈ s.periods, GoodPeriod p) (t : Option Int) (k : Nat)
    (hk : k < s.periods.length)
    (hidx : startIndex s.periods t = some k) :
    (∃ b, (s.reset t).1 = .ok b) ∧ At (s.reset t).2 k ∧ (s.reset t).2.periods = s.periods ∧
      (s.reset t).2.freq = s.freq ∧ (s.reset t).2.current = none := by
  obtain ⟨p, hp⟩ : ∃ p, s.periods[k]? = some p := ⟨_, List.getElem?_eq_getElem hk⟩
  rw [reset_eq hg t k hidx hp]
  refine ⟨⟨_, rfl⟩, ⟨hk.le, _, _, rfl, ?_⟩, rfl, rfl, rfl⟩
  intro q hq; simp only at hq; rw [hp] at hq; cases hq; exact ⟨rfl, rfl⟩

end Verif.Timestepper

import Verif.Model.Timestepper
import Verif.Spec.Timestepper
import Verif.Proof.Timestepper
import Mathlib.Tactic.Linarith
import Mathlib.Tactic.NormNum

/-! # C06, C07: the timestepper -/

namespace Verif.Timestepper

variable {Freq : Type}

private theorem findPeriod_some {t : Int} : ∀ {ps : List Period} {i k : Nat}, findPeriod t ps i = some k →
    i ≤ k ∧ ∃ p, ps[k - i]? = some p ∧ p.start ≤ t ∧ t < p.last := by
  intro ps
  induction ps with
  | nil => intro i k h; cases h
  | cons p ps ih =>
    intro i k h
    unfold findPeriod at h
    split at h
    · rename_i hc; cases h; exact ⟨le_refl _, p, by simp, hc⟩
    · obtain ⟨h1, q, h2, h3⟩ := ih h
      refine ⟨by omega, q, ?_, h3⟩
      rw [show k - i = (k - (i + 1)) + 1 by omega]; simpa using h2

private theorem findPeriod_none {t : Int} : ∀ {ps : List Period} {i : Nat}, findPeriod t ps i = none ↔
    ∀ p ∈ ps, ¬ (p.start ≤ t ∧ t < p.last) := by
  intro ps
  induction ps with
  | nil => intro i; simp [findPeriod]
  | cons p ps ih =>
    intro i
    unfold findPeriod
    split
    · rename_i h; simp [h]
    · rename_i h; rw [ih]; simp only [List.mem_cons, forall_eq_or_imp]; tauto

private theorem contiguous_lt : ∀ {ps : List Period}, Contiguous ps → ∀ {i j : Nat} {p q : Period},
    ps[i]? = some p → ps[j]? = some q → i < j → p.last < q.start ∧ p.start ≤ p.last ∧ q.start ≤ q.last := by
  have hall : ∀ {ps : List Period}, Contiguous ps → ∀ p ∈ ps, p.start ≤ p.last := by
    intro ps h
    induction ps with
    | nil => simp
    | cons p ps ih =>
      cases ps with
      | nil => intro x hx; simp at hx; subst hx; exact h
      | cons q ps =>
        intro x hx
        rcases List.mem_cons.1 hx with rfl | hx
        · exact h.1
        · exact ih h.2.2 x hx
  have hhead : ∀ {ps : List Period} {p : Period}, Contiguous (p :: ps) → ∀ q ∈ ps, p.last < q.start := by
    intro ps
    induction ps with
    | nil => simp
    | cons q ps ih =>
      intro p h x hx
      obtain ⟨h1, h2, h3⟩ := h
      rcases List.mem_cons.1 hx with rfl | hx
      · omega
      · have := ih h3 x hx
        have := hall h3 q (by simp)
        omega
  intro ps
  induction ps with
  | nil => intro _ i j p q hi; simp at hi
  | cons a ps ih =>
    intro h i j p q hi hj hij
    refine ⟨?_, hall h p (List.mem_of_getElem? hi), hall h q (List.mem_of_getElem? hj)⟩
    cases j with
    | zero => omega
    | succ j =>
      cases i with
      | zero =>
        simp at hi hj; subst hi
        exact hhead h q (List.mem_of_getElem? hj)
      | succ i =>
        simp at hi hj
        have hc : Contiguous ps := by
          cases ps with
          | nil => trivial
          | cons => exact h.2.2
        exact (ih hc hi hj (by omega)).1


private theorem findPeriod_unique {t : Int} {ps : List Period} (hc : Contiguous ps) {k : Nat} {p : Period}
    (hp : ps[k]? = some p) (h1 : p.start ≤ t) (h2 : t < p.last) : findPeriod t ps 0 = some k := by
  cases hf : findPeriod t ps 0 with
  | none => exact absurd ⟨h1, h2⟩ (findPeriod_none.1 hf p (List.mem_of_getElem? hp))
  | some j =>
    obtain ⟨-, q, hq, h3, h4⟩ := findPeriod_some hf
    simp only [Nat.sub_zero] at hq
    rcases lt_trichotomy j k with h | h | h
    · have := contiguous_lt hc hq hp h; omega
    · rw [h]
    · have := contiguous_lt hc hp hq h; omega

/-- **C06.** In every state (hence after any history of calls), a `reset` (to the beginning, or to a date in period `k`) followed by
`n` calls of `next` yields exactly period `k`, `k+1`, ..., `len-1` with their indices, and then signals exhaustion for
all further calls; `current` is `None` right after the reset, the last timestep yielded while iterating, and has index
`len` once exhausted. As the right hand sides do not mention the history, iterating after another reset yields the same
sequence again. -/
theorem C06_iterates (pd : Pandas Freq) (s : State Freq) (t : Option Int) (k n : Nat)
    (hg : ∀ p ∈ s.periods, GoodPeriod p) (hc : Contiguous s.periods)
    (hsh : ∀ p, GoodPeriod p → GoodPeriod (pd.shift s.freq p)) (ht : StartsAt s.periods k t) :
    let s' := (s.reset t).2
    (∃ b, (s.reset t).1 = .ok b) ∧ s'.current = none ∧
    (s'.nexts pd n).1.map observe = (List.range n).map (expected s.periods k) ∧
    (0 < n → ∃ ts, (s'.nexts pd n).2.current = some ts ∧ ts.index = min (k + n - 1) s.periods.length ∧
      (∀ q, s.periods[ts.index]? = some q → ts.period = q ∧ ts.seconds = q.seconds)) := by
  have hk : k < s.periods.length := by
    cases t with
    | none => rw [ht.1]; exact List.length_pos_iff.2 ht.2
    | some t => obtain ⟨p, hp, -⟩ := ht; exact (List.getElem?_eq_some_iff.1 hp).1
  have hidx : startIndex s.periods t = some k := by
    clear hk
    cases t with
    | none => rw [ht.1]; rfl
    | some t => obtain ⟨p, hp, h1, h2⟩ := ht; exact findPeriod_unique hc hp h1 h2
  obtain ⟨h1, h2, h3, h4, h5⟩ := reset_at hg t k hk hidx
  intro s'
  obtain ⟨a, b, -⟩ := nexts_spec pd n (s := s') (k := k) (by rw [h3]; exact hg) (by rw [h4]; exact hsh) h2
  rw [h3] at a b
  exact ⟨h1, h5, a, b⟩

/-- **C06 (full pass).** Iterating from a reset to the beginning yields the periods of the simulation, in order. -/
theorem C06_full_pass (pd : Pandas Freq) (s : State Freq) (hg : ∀ p ∈ s.periods, GoodPeriod p)
    (hc : Contiguous s.periods) (hsh : ∀ p, GoodPeriod p → GoodPeriod (pd.shift s.freq p)) (hne : s.periods ≠ []) :
    ((s.reset none).2.nexts pd s.periods.length).1.map observe =
      s.periods.zipIdx.map (fun p => .ok p) := by
  obtain ⟨-, -, h, -⟩ := C06_iterates pd s none 0 s.periods.length hg hc hsh ⟨rfl, hne⟩
  rw [h]
  apply List.ext_getElem?
  intro i
  by_cases hi : i < s.periods.length
  · simp [expected, hi]
  · simp [hi]

/-- **C06 (periods are those of the last setup).** Changing start, end or delta has no effect on the periods until the
next `setup`; only the flag `dirty` shows it. -/
theorem C06_setters_deferred (pd : Pandas Freq) (s : State Freq) (op : Op Freq) (hop : op ≠ .setup) :
    (s.step pd op).periods = s.periods := by
  cases op with
  | setup => exact absurd rfl hop
  | next =>
    simp only [State.step, State.nextStep]
    split
    · rfl
    · split
      · rfl
      · split <;> rfl
  | reset t =>
    simp only [State.step, State.reset]
    split
    · rfl
    · split
      · rfl
      · split <;> rfl
  | setStart t => rfl
  | setEnd t => rfl
  | setDelta f => rfl

private theorem reset_fields (s : State Freq) (t : Option Int) :
    (s.reset t).2.periods = s.periods ∧ (s.reset t).2.start = s.start ∧ (s.reset t).2.stop = s.stop ∧
    (s.reset t).2.freq = s.freq ∧ (s.reset t).2.dirty = s.dirty := by
  simp only [State.reset]
  split
  · exact ⟨rfl, rfl, rfl, rfl, rfl⟩
  · split
    · exact ⟨rfl, rfl, rfl, rfl, rfl⟩
    · split <;> exact ⟨rfl, rfl, rfl, rfl, rfl⟩

/-- **C06 (never stale unnoticed).** After every history of calls: unless the stepper reports itself dirty, its periods are those
of the current start, end and delta. -/
theorem C06_not_stale (pd : Pandas Freq) (s : State Freq) (ops : List (Op Freq))
    (h0 : s.dirty = false → s.periods = pd.periodRange s.start s.stop s.freq)
    (h : (s.run pd ops).dirty = false) :
    (s.run pd ops).periods = pd.periodRange (s.run pd ops).start (s.run pd ops).stop (s.run pd ops).freq := by
  induction ops generalizing s with
  | nil => exact h0 h
  | cons op ops ih =>
    refine ih (s.step pd op) ?_ h
    intro hd
    cases op with
    | setup =>
      simp only [State.step, State.setup] at hd ⊢
      have hf := reset_fields { s with periods := pd.periodRange s.start s.stop s.freq } none
      simp only at hf
      split at hd <;> rename_i he <;> rw [he] at hf <;> simp only at hf ⊢ <;> rw [hf.1, hf.2.1, hf.2.2.1, hf.2.2.2.1]
    | next =>
      have hn : (s.step pd .next).periods = s.periods ∧ (s.step pd .next).start = s.start ∧
          (s.step pd .next).stop = s.stop ∧ (s.step pd .next).freq = s.freq ∧ (s.step pd .next).dirty = s.dirty := by
        simp only [State.step, State.nextStep]
        split
        · exact ⟨rfl, rfl, rfl, rfl, rfl⟩
        · split
          · exact ⟨rfl, rfl, rfl, rfl, rfl⟩
          · split <;> exact ⟨rfl, rfl, rfl, rfl, rfl⟩
      rw [hn.1, hn.2.1, hn.2.2.1, hn.2.2.2.1]
      exact h0 (by rw [← hn.2.2.2.2]; exact hd)
    | reset t =>
      have hf := reset_fields s t
      simp only [State.step] at hd ⊢
      rw [hf.1, hf.2.1, hf.2.2.1, hf.2.2.2.1]
      exact h0 (by rw [← hf.2.2.2.2]; exact hd)
    | setStart t => simp [State.step] at hd
    | setEnd t => simp [State.step] at hd
    | setDelta f => simp [State.step] at hd

/-- **C06 (a setter is noticed).** -/
theorem C06_setter_dirty (pd : Pandas Freq) (s : State Freq) (t : Int) (f : Freq) :
    (s.step pd (.setStart t)).dirty = true ∧ (s.step pd (.setEnd t)).dirty = true ∧
    (s.step pd (.setDelta f)).dirty = true := ⟨rfl, rfl, rfl⟩

/-! ## C07 -/

/-- Full statement of C07: `reset(t)` succeeds exactly when some model period contains `t`, and positions on the one that
does. -/
def C07_statement : Prop :=
  ∀ (Freq : Type) (s : State Freq) (t : Int), (∀ p ∈ s.periods, GoodPeriod p) → Contiguous s.periods →
    ((∃ b, (s.reset (some t)).1 = .ok b) ↔ ∃ p ∈ s.periods, p.Contains t) ∧
    ((s.reset (some t)).1 = .error .valueError ↔ ¬ ∃ p ∈ s.periods, p.Contains t) ∧
    ∀ b, (s.reset (some t)).1 = .ok b →
      ∃ ts, (s.reset (some t)).2.next = some ts ∧ s.periods[ts.index]? = some ts.period ∧ ts.period.Contains t

/-- **C07 fails:** the last nanosecond of a period is refused, because `start < period.end_time` excludes it. -/
theorem C07_fails : ¬ C07_statement := by
  intro h
  have h1 := (h Unit ⟨0, 0, (), [⟨0, 86399999999999⟩, ⟨86400000000000, 172799999999999⟩], none, none, none, false⟩
    86399999999999 (by intro p hp; simp at hp; rcases hp with rfl | rfl <;> (unfold GoodPeriod; norm_num))
    (by unfold Contiguous; exact ⟨by norm_num, by norm_num, by unfold Contiguous; norm_num⟩)).1
  have : ∃ p ∈ [(⟨0, 86399999999999⟩ : Period), ⟨86400000000000, 172799999999999⟩], p.Contains 86399999999999 :=
    ⟨⟨0, 86399999999999⟩, by simp, by unfold Period.Contains; norm_num⟩
  obtain ⟨b, hb⟩ := h1.2 this
  revert hb
  simp [State.reset, startIndex, findPeriod]

/-- **C07, partial.** For every instant that is not the last nanosecond of a model period (in particular for every instant
of microsecond resolution, `C07_microseconds`), `reset(t)` succeeds iff a model period contains `t`, raises `ValueError`
otherwise, and positions on the (unique) period containing `t`. Missing: the last nanosecond of each period. -/
theorem C07_partial (s : State Freq) (t : Int) (hg : ∀ p ∈ s.periods, GoodPeriod p) (_hc : Contiguous s.periods)
    (hlast : ∀ p ∈ s.periods, t ≠ p.last) :
    ((∃ b, (s.reset (some t)).1 = .ok b) ↔ ∃ p ∈ s.periods, p.Contains t) ∧
    ((s.reset (some t)).1 = .error .valueError ↔ ¬ ∃ p ∈ s.periods, p.Contains t) ∧
    ∀ b, (s.reset (some t)).1 = .ok b →
      ∃ ts, (s.reset (some t)).2.next = some ts ∧ s.periods[ts.index]? = some ts.period ∧ ts.period.Contains t := by
  cases hf : findPeriod t s.periods 0 with
  | none =>
    have hno := findPeriod_none.1 hf
    have hno' : ¬ ∃ p ∈ s.periods, p.Contains t := by
      rintro ⟨p, hp, h1, h2⟩
      have := hlast p hp
      exact hno p hp ⟨h1, by omega⟩
    have : (s.reset (some t)).1 = .error .valueError := by simp [State.reset, startIndex, hf]
    simp [this, hno']
  | some k =>
    obtain ⟨-, p, hp, h1, h2⟩ := findPeriod_some hf
    simp only [Nat.sub_zero] at hp
    have hk : k < s.periods.length := (List.getElem?_eq_some_iff.1 hp).1
    have hin : ∃ p ∈ s.periods, p.Contains t := ⟨p, List.mem_of_getElem? hp, h1, by omega⟩
    obtain ⟨⟨b, hb⟩, ⟨-, p', sec, hn, hp'⟩, hper, -, -⟩ := reset_at hg (some t) k hk hf
    rw [hper] at hp'
    obtain ⟨rfl, -⟩ := hp' p hp
    refine ⟨by simp [hb, hin], by simp [hb, hin], ?_⟩
    intro _ _
    exact ⟨_, hn, hp, h1, by simp only; omega⟩

/-- The containing period is unique. -/
theorem C07_unique (ps : List Period) (hc : Contiguous ps) (t : Int) (i j : Nat) (p q : Period)
    (hi : ps[i]? = some p) (hj : ps[j]? = some q) (hp : p.Contains t) (hq : q.Contains t) : i = j := by
  unfold Period.Contains at hp hq
  rcases lt_trichotomy i j with h | h | h
  · have := contiguous_lt hc hi hj h; omega
  · exact h
  · have := contiguous_lt hc hj hi h; omega

/-- **C07 (microsecond instants).** Python `datetime` instants (whole microseconds), with periods ending just before a whole
microsecond, are never the excluded last nanosecond. -/
theorem C07_microseconds (s : State Freq) (t : Int) (hg : ∀ p ∈ s.periods, GoodPeriod p) (hc : Contiguous s.periods)
    (ht : 1000 ∣ t) (hper : ∀ p ∈ s.periods, 1000 ∣ p.last + 1) :
    ((∃ b, (s.reset (some t)).1 = .ok b) ↔ ∃ p ∈ s.periods, p.Contains t) ∧
    ∀ b, (s.reset (some t)).1 = .ok b →
      ∃ ts, (s.reset (some t)).2.next = some ts ∧ s.periods[ts.index]? = some ts.period ∧ ts.period.Contains t := by
  obtain ⟨a, -, c⟩ := C07_partial s t hg hc (by
    intro p hp h
    have := hper p hp
    omega)
  exact ⟨a, c⟩

example : Contiguous [⟨0, 86399999999999⟩, ⟨86400000000000, 172799999999999⟩] ∧
    (∀ p ∈ [(⟨0, 86399999999999⟩ : Period), ⟨86400000000000, 172799999999999⟩], GoodPeriod p ∧ 1000 ∣ p.last + 1) := by
  refine ⟨⟨by norm_num, by norm_num, by unfold Contiguous; norm_num⟩, ?_⟩
  intro p hp; simp at hp; rcases hp with rfl | rfl <;> (unfold GoodPeriod; norm_num)

/-- **C06 (length).** Whatever is set and called, in whatever order, and whatever periods pandas makes: a timestep lasts longer than no time. -/
theorem C06_length (pd : Pandas Freq) (s : State Freq) (h : ∀ t, s.current = some t ∨ s.next = some t → 0 < t.seconds) (ops : List (Op Freq)) :
    ∀ t, (s.run pd ops).current = some t ∨ (s.run pd ops).next = some t → 0 < t.seconds := by
  have hmk : ∀ {p i x t}, mkTimestep p i x = .ok t → 0 < t.seconds := by
    intro p i x t he
    unfold mkTimestep at he
    split at he
    · cases he
    · cases he; simp only; omega
  have hreset : ∀ (s : State Freq) (t : Option Int), (∀ t, s.current = some t ∨ s.next = some t → 0 < t.seconds) →
      ∀ x, (s.reset t).2.current = some x ∨ (s.reset t).2.next = some x → 0 < x.seconds := by
    intro s t h x hx
    unfold State.reset at hx
    simp only at hx
    split at hx
    · rcases hx with hx | hx
      · cases hx
      · exact h x (.inr hx)
    · split at hx
      · rcases hx with hx | hx
        · cases hx
        · exact h x (.inr hx)
      · split at hx
        · rcases hx with hx | hx
          · cases hx
          · exact h x (.inr hx)
        · rename_i he
          rcases hx with hx | hx
          · cases hx
          · cases hx; exact hmk he
  unfold State.run
  induction ops generalizing s with
  | nil => exact h
  | cons o ops ih =>
    refine ih _ ?_
    intro t ht
    cases o with
    | setStart => exact h t ht
    | setEnd => exact h t ht
    | setDelta => exact h t ht
    | reset x => exact hreset s x h t ht
    | setup =>
      simp only [State.step, State.setup] at ht
      have hr := hreset { s with periods := pd.periodRange s.start s.stop s.freq } none h t
      rcases hx : State.reset { s with periods := pd.periodRange s.start s.stop s.freq } none with ⟨_ | _, s2⟩
      · rw [hx] at ht hr; exact hr ht
      · rw [hx] at ht hr; exact hr ht
    | next =>
      simp only [State.step, State.nextStep] at ht
      rcases hn : s.next with _ | cur
      · rw [hn] at ht; exact h t (by rcases ht with ht | ht; exacts [.inl ht, .inr ht])
      · rw [hn] at ht
        simp only at ht
        have hcur := h cur (.inr hn)
        split at ht
        · rcases ht with ht | ht
          · cases ht; exact hcur
          · cases ht; exact hcur
        · split at ht
          · rcases ht with ht | ht
            · cases ht; exact hcur
            · cases ht; exact hcur
          · rename_i he
            rcases ht with ht | ht
            · cases ht; exact hcur
            · cases ht
              split at he
              · exact hmk he
              · split at he
                · cases he
                · exact hmk he

end Verif.Timestepper

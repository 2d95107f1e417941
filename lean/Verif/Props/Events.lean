import Verif.Model.Events
import Verif.Proof.Recorders
import Verif.Props.Recorders
import Mathlib.Data.List.Induction
import Mathlib.Tactic.NormNum

/-!
# Event recorder (C42)
-/

namespace Verif.Events

open Verif.Run Verif.Recorders

/-- `[a, b)` is a maximal run of consecutive timesteps in which the trigger is on, among timesteps `0 … n - 1`. -/
def MaximalRun (T : Nat → Bool) (n a b : Nat) : Prop :=
  a < b ∧ b ≤ n ∧ (∀ k, a ≤ k → k < b → T k = true) ∧ (a = 0 ∨ T (a - 1) = false) ∧ (b = n ∨ T b = false)

/-! ## One combination -/

private def machine (minLength si : Nat) (T : Nat → Bool) (V : Nat → Rat) :
    Nat → Option (Nat × List Rat) × List Event
  | 0 => (none, [])
  | k + 1 =>
    let s := machine minLength si T V k
    let x := one minLength k si (T k) (V k) s.1
    (x.1, s.2 ++ x.2)

private def Open (T : Nat → Bool) (V : Nat → Rat) (n : Nat) : Option (Nat × List Rat) → Prop
  | none => n = 0 ∨ T (n - 1) = false
  | some (a, vs) => a < n ∧ (∀ k, a ≤ k → k < n → T k = true) ∧ (a = 0 ∨ T (a - 1) = false) ∧
      vs = (List.range' a (n - a)).map V

private theorem machine_open (minLength si : Nat) (T : Nat → Bool) (V : Nat → Rat) (n : Nat) :
    Open T V n (machine minLength si T V n).1 := by
  induction n with
  | zero => exact Or.inl rfl
  | succ n ih =>
    simp only [machine, one]
    generalize machine minLength si T V n = s at ih ⊢
    obtain ⟨c, es⟩ := s
    cases c with
    | none =>
      cases hT : T n with
      | false => exact Or.inr hT
      | true =>
        refine ⟨by omega, fun k h1 h2 => ?_, ?_, ?_⟩
        · obtain rfl : k = n := by omega
          exact hT
        · rcases ih with h | h
          · exact Or.inl h
          · exact Or.inr h
        · simp
    | some p =>
      obtain ⟨a, vs⟩ := p
      obtain ⟨h1, h2, h3, h4⟩ := ih
      cases hT : T n with
      | false => exact Or.inr hT
      | true =>
        refine ⟨by omega, fun k h5 h6 => ?_, h3, ?_⟩
        · by_cases hk : k = n
          · rw [hk]; exact hT
          · exact h2 k h5 (by omega)
        · rw [h4, show n + 1 - a = (n - a) + 1 by omega, List.range'_concat, List.map_append]
          simp only [List.map_cons, List.map_nil]
          rw [show a + 1 * (n - a) = n by omega]

private theorem machine_events (minLength si : Nat) (T : Nat → Bool) (V : Nat → Rat) (n : Nat) :
    (∀ e, e ∈ (machine minLength si T V n).2 ↔ e.scenario = si ∧ e.start < e.stop ∧ e.stop < n ∧
      (∀ k, e.start ≤ k → k < e.stop → T k = true) ∧ (e.start = 0 ∨ T (e.start - 1) = false) ∧ T e.stop = false ∧
      minLength ≤ e.stop - e.start ∧ e.values = (List.range' e.start (e.stop - e.start)).map V) ∧
    (machine minLength si T V n).2.Pairwise (fun e f => e.stop < f.start) := by
  induction n with
  | zero => exact ⟨fun e => by simp [machine], List.Pairwise.nil⟩
  | succ n ih =>
    have ho := machine_open minLength si T V n
    simp only [machine]
    generalize hs : machine minLength si T V n = s at ih ho ⊢
    obtain ⟨c, es⟩ := s
    obtain ⟨ih1, ih2⟩ := ih
    simp only at ih1 ih2 ho ⊢
    cases hT : T n with
    | true =>
      have hx : (one minLength n si true (V n) c).2 = [] := by
        cases c with
        | none => rfl
        | some p => rfl
      rw [hx, List.append_nil]
      refine ⟨fun e => ?_, ih2⟩
      rw [ih1 e]
      constructor
      · rintro ⟨h1, h2, h3, h4⟩
        exact ⟨h1, h2, by omega, h4⟩
      · rintro ⟨h1, h2, h3, h4, h5, h6, h7⟩
        have : e.stop ≠ n := by rintro rfl; rw [hT] at h6; cases h6
        exact ⟨h1, h2, by omega, h4, h5, h6, h7⟩
    | false =>
      cases c with
      | none =>
        simp only [one, List.append_nil]
        refine ⟨fun e => ?_, ih2⟩
        rw [ih1 e]
        constructor
        · rintro ⟨h1, h2, h3, h4⟩
          exact ⟨h1, h2, by omega, h4⟩
        · rintro ⟨h1, h2, h3, h4, h5, h6, h7⟩
          have : e.stop ≠ n := by
            intro he
            rcases ho with ho | ho
            · omega
            · have := h4 (n - 1) (by omega) (by omega)
              rw [ho] at this; cases this
          exact ⟨h1, h2, by omega, h4, h5, h6, h7⟩
      | some p =>
        obtain ⟨a, vs⟩ := p
        obtain ⟨o1, o2, o3, o4⟩ := ho
        simp only [one]
        have huniq : ∀ e : Event, e.start < e.stop → e.stop = n → (∀ k, e.start ≤ k → k < e.stop → T k = true) →
            (e.start = 0 ∨ T (e.start - 1) = false) → e.start = a := by
          intro e h2 h3 h4 h5
          rcases Nat.lt_trichotomy e.start a with hlt | heq | hgt
          · rcases o3 with o3 | o3
            · omega
            · have := h4 (a - 1) (by omega) (by omega)
              rw [o3] at this; cases this
          · exact heq
          · rcases h5 with h5 | h5
            · omega
            · have := o2 (e.start - 1) (by omega) (by omega)
              rw [h5] at this; cases this
        refine ⟨fun e => ?_, ?_⟩
        · rw [List.mem_append, ih1 e]
          constructor
          · rintro (⟨h1, h2, h3, h4⟩ | h)
            · exact ⟨h1, h2, by omega, h4⟩
            · split_ifs at h with hl
              · obtain rfl := List.mem_singleton.1 h
                exact ⟨rfl, o1, by simp, o2, o3, hT, hl, o4⟩
              · cases h
          · rintro ⟨h1, h2, h3, h4, h5, h6, h7, h8⟩
            by_cases he : e.stop = n
            · right
              have hst := huniq e h2 he h4 h5
              rw [if_pos (by omega)]
              obtain ⟨e1, e2, e3, e4⟩ := e
              simp only at *
              subst h1 he hst
              rw [h8, o4]
              simp
            · left
              exact ⟨h1, h2, by omega, h4, h5, h6, h7, h8⟩
        · rw [List.pairwise_append]
          refine ⟨ih2, by split_ifs <;> simp, ?_⟩
          intro e he f hf
          split_ifs at hf with hl
          · obtain rfl := List.mem_singleton.1 hf
            obtain ⟨-, h2, h3, -, -, h6, -⟩ := (ih1 e).1 he
            simp only
            by_contra hlt
            have := o2 e.stop (by omega) (by omega)
            rw [h6] at this; cases this
          · cases hf

/-! ## All combinations -/

private theorem loop_entry (minLength ts : Nat) : ∀ (cs : List (Option (Nat × List Rat))) (os : List (Bool × Rat)) (si : Nat),
    cs.length = os.length →
    (loop minLength ts si cs os).1.length = cs.length ∧
    ∀ i < cs.length,
      (loop minLength ts si cs os).1.getD i none =
        (one minLength ts (si + i) (os.getD i (false, 0)).1 (os.getD i (false, 0)).2 (cs.getD i none)).1 ∧
      (loop minLength ts si cs os).2.filter (fun e => e.scenario = si + i) =
        (one minLength ts (si + i) (os.getD i (false, 0)).1 (os.getD i (false, 0)).2 (cs.getD i none)).2 ∧
      ∀ e ∈ (loop minLength ts si cs os).2, si ≤ e.scenario ∧ e.scenario < si + cs.length := by
  have hone : ∀ si t v c, ∀ e ∈ (one minLength ts si t v c).2, e.scenario = si := by
    intro si t v c e he
    cases c with
    | none => cases t <;> cases he
    | some p =>
      obtain ⟨a, vs⟩ := p
      cases t
      · simp only [one] at he
        split_ifs at he
        · obtain rfl := List.mem_singleton.1 he; rfl
        · cases he
      · cases he
  intro cs
  induction cs with
  | nil => intro os si h; exact ⟨by cases os <;> rfl, fun i hi => absurd hi (by simp)⟩
  | cons c cs ih =>
    intro os si h
    cases os with
    | nil => simp at h
    | cons o os =>
      obtain ⟨h1, h2⟩ := ih os (si + 1) (by simpa using h)
      simp only [loop]
      have hall : ∀ e ∈ (loop minLength ts (si + 1) cs os).2, si + 1 ≤ e.scenario ∧ e.scenario < si + 1 + cs.length := by
        by_cases hc : 0 < cs.length
        · exact (h2 0 hc).2.2
        · obtain rfl : cs = [] := List.length_eq_zero_iff.1 (by omega)
          intro e he; cases os <;> cases he
      refine ⟨by simp [h1], fun i hi => ?_⟩
      have hbound : ∀ e ∈ (one minLength ts si o.1 o.2 c).2 ++ (loop minLength ts (si + 1) cs os).2,
          si ≤ e.scenario ∧ e.scenario < si + (c :: cs).length := by
        intro e he
        rw [List.length_cons]
        rcases List.mem_append.1 he with he | he
        · have := hone _ _ _ _ e he; omega
        · have := hall e he; omega
      cases i with
      | zero =>
        simp only [List.getD_cons_zero, Nat.add_zero]
        refine ⟨trivial, ?_, hbound⟩
        rw [List.filter_append, List.filter_eq_self.2 (fun e he => by simpa using hone _ _ _ _ e he),
          List.filter_eq_nil_iff.2 (fun e he => by have := hall e he; simp; omega), List.append_nil]
      | succ i =>
        simp only [List.getD_cons_succ]
        obtain ⟨g1, g2, -⟩ := h2 i (by simpa using hi)
        rw [show si + 1 + i = si + (i + 1) by omega] at g1 g2
        refine ⟨g1, ?_, hbound⟩
        rw [List.filter_append, List.filter_eq_nil_iff.2 (fun e he => by have := hone _ _ _ _ e he; simp; omega),
          List.nil_append, g2]

private theorem events_fold (minLength ncomb : Nat) (os : List (List (Bool × Rat))) :
    (∀ o ∈ os, o.length = ncomb) →
    ∃ s, (eventRecorder minLength ncomb).fold 0 os (eventRecorder minLength ncomb).init = some s ∧
      s.current.length = ncomb ∧ (∀ e ∈ s.events, e.scenario < ncomb) ∧ ∀ i < ncomb,
        s.current.getD i none = (machine minLength i (fun k => ((os.getD k []).getD i (false, 0)).1)
          (fun k => ((os.getD k []).getD i (false, 0)).2) os.length).1 ∧
        s.events.filter (fun e => e.scenario = i) = (machine minLength i (fun k => ((os.getD k []).getD i (false, 0)).1)
          (fun k => ((os.getD k []).getD i (false, 0)).2) os.length).2 := by
  have hcongr : ∀ i (T T' : Nat → Bool) (V V' : Nat → Rat) n, (∀ k < n, T k = T' k ∧ V k = V' k) →
      machine minLength i T V n = machine minLength i T' V' n := by
    intro i T T' V V' n h
    induction n with
    | zero => rfl
    | succ n ih => simp only [machine, ih (fun k hk => h k (by omega)), (h n (by omega)).1, (h n (by omega)).2]
  induction os using List.reverseRecOn with
  | nil =>
    intro _
    refine ⟨_, rfl, by simp [eventRecorder], by simp [eventRecorder], fun i hi => ⟨?_, rfl⟩⟩
    simp only [eventRecorder, getD_replicate]
    rfl
  | append_singleton os o ih =>
    intro h
    obtain ⟨s, h1, h2, h3, h4⟩ := ih (fun x hx => h x (List.mem_append_left _ hx))
    have ho := h o (by simp)
    have hpre : ∀ k < os.length, (os ++ [o]).getD k [] = os.getD k [] := fun k hk => List.getD_append _ _ _ _ hk
    have hlast : (os ++ [o]).getD os.length [] = o := by
      rw [List.getD_eq_getElem?_getD, List.getElem?_append_right (le_refl _)]; simp
    obtain ⟨l1, l2⟩ := loop_entry minLength os.length s.current o 0 (by omega)
    rw [fold_snoc, h1, Option.bind_some, Nat.zero_add, List.length_append, List.length_singleton]
    refine ⟨_, rfl, by simp only; omega, ?_, fun i hi => ?_⟩
    · intro e he
      rcases List.mem_append.1 he with he | he
      · exact h3 e he
      · by_cases hc : 0 < ncomb
        · have := (l2 0 (by omega)).2.2 e he
          omega
        · have : s.current = [] := List.length_eq_zero_iff.1 (by omega)
          rw [this] at he
          cases o <;> cases he
    · obtain ⟨e1, e2, -⟩ := l2 i (by omega)
      obtain ⟨f1, f2⟩ := h4 i hi
      rw [Nat.zero_add] at e1 e2
      simp only [machine]
      rw [hcongr i _ (fun k => ((os.getD k []).getD i (false, 0)).1) _ (fun k => ((os.getD k []).getD i (false, 0)).2) _
        (fun k hk => by rw [hpre k hk]; exact ⟨rfl, rfl⟩), hlast, ← f1, ← f2]
      exact ⟨e1, by rw [List.filter_append, e2]⟩

private theorem unfinished_entry (ts : Nat) : ∀ (cs : List (Option (Nat × List Rat))) (si : Nat),
    (∀ e ∈ unfinished ts si cs, si ≤ e.scenario ∧ e.scenario < si + cs.length) ∧
    ∀ i < cs.length, (unfinished ts si cs).filter (fun e => e.scenario = si + i) =
      match cs.getD i none with
      | none => []
      | some (a, vs) => [⟨si + i, a, ts, vs⟩] := by
  intro cs
  induction cs with
  | nil => intro si; exact ⟨fun e he => (by cases he), fun i hi => absurd hi (by simp)⟩
  | cons c cs ih =>
    intro si
    obtain ⟨h1, h2⟩ := ih (si + 1)
    have hnil : (unfinished ts (si + 1) cs).filter (fun e => decide (e.scenario = si)) = [] :=
      List.filter_eq_nil_iff.2 (fun e he => by have := h1 e he; simp; omega)
    cases c with
    | none =>
      simp only [unfinished]
      refine ⟨fun e he => by have := h1 e he; rw [List.length_cons]; omega, fun i hi => ?_⟩
      cases i with
      | zero => simpa using hnil
      | succ i =>
        rw [List.getD_cons_succ, show si + (i + 1) = si + 1 + i by omega]
        exact h2 i (by simpa using hi)
    | some p =>
      obtain ⟨a, vs⟩ := p
      simp only [unfinished]
      refine ⟨?_, fun i hi => ?_⟩
      · intro e he
        rw [List.length_cons]
        rcases List.mem_cons.1 he with rfl | he
        · simp only; omega
        · have := h1 e he; omega
      · cases i with
        | zero =>
          rw [List.filter_cons]
          simp only [Nat.add_zero, decide_true, if_true, List.getD_cons_zero, hnil]
        | succ i =>
          rw [List.filter_cons_of_neg (by simp), List.getD_cons_succ, show si + (i + 1) = si + 1 + i by omega]
          exact h2 i (by simpa using hi)

/-- **C42, partial.** In every combination the recorded events are exactly the maximal runs of consecutive timesteps in
which the trigger was on and that either lasted at least the minimum length or were in progress at the end of the run;
each with its first timestep, the timestep after its last (those in progress: the timestep shown at the end, which after a
run of `n` timesteps is `n`, see `C40_run`), and the tracked values of its timesteps; and they are recorded in order.
Missing: the minimum length of events in progress at the end (`C42_unfinished_fails`); and the trigger is on when the
value, converted to an integer, is not zero (`C42_fraction_fails`). -/
theorem C42_partial (minLength ncomb : Nat) (os : List (List (Bool × Rat))) (hw : ∀ o ∈ os, o.length = ncomb) :
    ∃ v, (eventRecorder minLength ncomb).result os (some os.length) = some v ∧
      (∀ e ∈ v.events, e.scenario < ncomb) ∧ ∀ i < ncomb, ∀ T V,
        T = (fun k => ((os.getD k []).getD i (false, 0)).1) → V = (fun k => ((os.getD k []).getD i (false, 0)).2) →
        (∀ e, e ∈ v.events ∧ e.scenario = i ↔ e.scenario = i ∧ MaximalRun T os.length e.start e.stop ∧
          (minLength ≤ e.stop - e.start ∨ e.stop = os.length) ∧
          e.values = (List.range' e.start (e.stop - e.start)).map V) ∧
        (v.events.filter fun e => e.scenario = i).Pairwise (fun e f => e.stop < f.start) := by
  obtain ⟨s, h1, h2, h3, h4⟩ := events_fold minLength ncomb os hw
  obtain ⟨u1, u2⟩ := unfinished_entry os.length s.current 0
  refine ⟨⟨s.events ++ unfinished os.length 0 s.current, s.current.map fun _ => none⟩,
    by simp only [Rec.result, h1, Option.bind_some]; rfl, ?_, ?_⟩
  · intro e he
    rcases List.mem_append.1 he with he | he
    · exact h3 e he
    · have := u1 e he; omega
  · intro i hi T V hT hV
    obtain ⟨f1, f2⟩ := h4 i hi
    rw [← hT, ← hV] at f1 f2
    have ho := machine_open minLength i T V os.length
    obtain ⟨m1, m2⟩ := machine_events minLength i T V os.length
    rw [← f1] at ho
    rw [← f2] at m1 m2
    have u3 := u2 i (by omega)
    rw [Nat.zero_add] at u3
    generalize hn : os.length = n at *
    -- the events of this combination
    have hev : (s.events ++ unfinished n 0 s.current).filter (fun e => decide (e.scenario = i)) =
        s.events.filter (fun e => decide (e.scenario = i)) ++
        (match s.current.getD i none with
          | none => []
          | some (a, vs) => [⟨i, a, n, vs⟩]) := by
      rw [List.filter_append, u3]
    have hmem : ∀ e, e ∈ s.events ++ unfinished n 0 s.current ∧ e.scenario = i ↔
        e ∈ (s.events ++ unfinished n 0 s.current).filter (fun e => decide (e.scenario = i)) := by
      intro e; rw [List.mem_filter]; simp
    simp only
    refine ⟨fun e => ?_, ?_⟩
    · rw [hmem, hev, List.mem_append, m1 e]
      constructor
      · rintro (⟨c1, c2, c3, c4, c5, c6, c7, c8⟩ | he)
        · exact ⟨c1, ⟨c2, by omega, c4, c5, Or.inr c6⟩, Or.inl c7, c8⟩
        · cases hc : s.current.getD i none with
          | none => rw [hc] at he; cases he
          | some p =>
            obtain ⟨a, vs⟩ := p
            rw [hc] at he ho
            obtain ⟨o1, o2, o3, o4⟩ := ho
            obtain rfl := List.mem_singleton.1 he
            exact ⟨rfl, ⟨o1, le_refl _, o2, o3, Or.inl rfl⟩, Or.inr rfl, o4⟩
      · rintro ⟨c1, ⟨c2, c3, c4, c5, c6⟩, c7, c8⟩
        by_cases he : e.stop = n
        · right
          cases hc : s.current.getD i none with
          | none =>
            rw [hc] at ho
            exfalso
            rcases ho with ho | ho
            · omega
            · have := c4 (n - 1) (by omega) (by omega)
              rw [ho] at this; cases this
          | some p =>
            obtain ⟨a, vs⟩ := p
            rw [hc] at ho
            obtain ⟨o1, o2, o3, o4⟩ := ho
            have hst : e.start = a := by
              rcases Nat.lt_trichotomy e.start a with hlt | heq | hgt
              · rcases o3 with o3 | o3
                · omega
                · have := c4 (a - 1) (by omega) (by omega)
                  rw [o3] at this; cases this
              · exact heq
              · rcases c5 with c5 | c5
                · omega
                · have := o2 (e.start - 1) (by omega) (by omega)
                  rw [c5] at this; cases this
            obtain ⟨e1, e2, e3, e4⟩ := e
            simp only at *
            subst c1 he hst
            rw [c8, o4]
            simp
        · left
          have c6' : T e.stop = false := by
            rcases c6 with c6 | c6
            · exact absurd c6 he
            · exact c6
          have c7' : minLength ≤ e.stop - e.start := by
            rcases c7 with c7 | c7
            · exact c7
            · exact absurd c7 he
          exact ⟨c1, c2, by omega, c4, c5, c6', c7', c8⟩
    · rw [hev, List.pairwise_append]
      refine ⟨m2, by split <;> simp, ?_⟩
      intro e he f hf
      cases hc : s.current.getD i none with
      | none => rw [hc] at hf; cases hf
      | some p =>
        obtain ⟨a, vs⟩ := p
        rw [hc] at hf ho
        obtain ⟨o1, o2, o3, o4⟩ := ho
        obtain rfl := List.mem_singleton.1 hf
        obtain ⟨-, -, c3, -, -, c6, -⟩ := (m1 e).1 he
        simp only
        by_contra hlt
        have := o2 e.stop (by omega) (by omega)
        rw [c6] at this; cases this

/-- With the default minimum length 1 the minimum length is no restriction: the events are exactly the maximal runs. -/
theorem C42_default (ncomb : Nat) (os : List (List (Bool × Rat))) (hw : ∀ o ∈ os, o.length = ncomb) :
    ∃ v, (eventRecorder 1 ncomb).result os (some os.length) = some v ∧ ∀ i < ncomb, ∀ a b,
      (∃ e ∈ v.events, e.scenario = i ∧ e.start = a ∧ e.stop = b) ↔
        MaximalRun (fun k => ((os.getD k []).getD i (false, 0)).1) os.length a b := by
  obtain ⟨v, h1, -, h3⟩ := C42_partial 1 ncomb os hw
  refine ⟨v, h1, fun i hi a b => ?_⟩
  obtain ⟨h4, -⟩ := h3 i hi _ _ rfl rfl
  constructor
  · rintro ⟨e, he, hs, rfl, rfl⟩
    exact ((h4 e).1 ⟨he, hs⟩).2.1
  · intro h
    have := (h4 ⟨i, a, b, (List.range' a (b - a)).map fun k => ((os.getD k []).getD i (false, 0)).2⟩).2
      ⟨rfl, h, Or.inl (by have := h.1; simp only; omega), rfl⟩
    exact ⟨_, this.1, rfl, rfl, rfl⟩

/-- Two combinations; in the first an event of two timesteps and one in progress, in the second none long enough. -/
example : ∃ v, (eventRecorder 2 2).result [[(true, 1), (true, 5)], [(true, 2), (false, 5)], [(false, 3), (false, 5)],
    [(true, 4), (false, 5)]] (some 4) = some v ∧ v.events = [⟨0, 0, 2, [1, 2]⟩, ⟨0, 3, 4, [4]⟩] := ⟨_, rfl, by decide⟩

/-- **C42 fails for events in progress.** An event of one timestep that is in progress at the end is recorded although the
minimum length is three. -/
theorem C42_unfinished_fails : ∃ v, (eventRecorder 3 1).result [[(false, 0)], [(true, 0)]] (some 2) = some v ∧
    ∃ e ∈ v.events, e.stop - e.start < 3 := ⟨_, rfl, ⟨0, 1, 2, [0]⟩, by decide, by decide⟩

/-- **C42 fails for fractional values.** "An event is considered active while the value of the threshold is non-zero", but a
parameter value strictly between −1 and 1 never triggers. -/
theorem C42_fraction_fails (x : Rat) (h0 : -1 < x) (h1 : x < 1) : (Trigger.value x).on = false := by
  have hfloor : ∀ y : Rat, 0 ≤ y → y < 1 → y.floor = 0 := by
    intro y h2 h3
    have := Int.floor_eq_zero_iff.2 (Set.mem_Ico.2 ⟨h2, h3⟩)
    rw [Rat.floor_def'] at this
    rwa [Rat.floor_def]
  simp only [Trigger.on, truncate]
  split_ifs with h
  · rw [hfloor x h h1]; rfl
  · rw [hfloor (-x) (by linarith) (by linarith)]; rfl

/-- Indices and whole numbers trigger exactly when they are not zero. -/
theorem C42_trigger (i : Int) : ((Trigger.index i).on = true ↔ i ≠ 0) ∧ ((Trigger.value i).on = true ↔ i ≠ 0) := by
  constructor
  · simp [Trigger.on]
  · simp only [Trigger.on, truncate]
    have h1 : ((i : Rat)).floor = i := Rat.floor_intCast i
    have h2 : (-(i : Rat)).floor = -i := by rw [← Rat.intCast_neg]; exact Rat.floor_intCast _
    split_ifs
    · rw [h1]; simp
    · rw [h2]; simp

end Verif.Events

import Verif.Model.WeightedProfile
import Verif.Props.Profiles
import Mathlib.Algebra.BigOperators.Group.List.Basic
import Mathlib.Algebra.Order.Field.Rat
import Mathlib.Data.List.GetD
import Mathlib.Tactic.Linarith
import Mathlib.Tactic.Ring
/-! # C86: combined and recorded profiles -/

namespace Verif.WeightedProfile

open Verif.Profiles Verif.Calendar

/-- What the constructors of the profiles guarantee (C38). -/
def Profile.Good : Profile → Prop
  | .constant _ => True
  | .daily t => t.length = 366
  | .monthly _ vs => vs.length = 12
  | .other => False

private theorem index_lt {y m d : Nat} (h : ValidDate (isLeapYear y) m d) : (dateOf y m d).index < 366 := C08_range y m d h

private theorem array_spec (p : Profile) (hp : p.Good) : ∃ a, p.array = .ok a ∧ a.length = 366 ∧
    ∀ y m d, ValidDate (isLeapYear y) m d → a[(dateOf y m d).index]? = p.value (dateOf y m d) ∧ (p.value (dateOf y m d)).isSome := by
  have get : ∀ a : List Rat, a.length = 366 → ∀ y m d, ValidDate (isLeapYear y) m d → (a[(dateOf y m d).index]?).isSome := by
    intro a ha y m d h
    simp [ha, index_lt h]
  match p, hp with
  | .constant v, _ =>
    refine ⟨_, rfl, List.length_replicate, fun y m d h => ?_⟩
    rw [List.getElem?_replicate, if_pos (index_lt h)]
    exact ⟨rfl, rfl⟩
  | .daily t, hp => exact ⟨t, rfl, hp, fun y m d h => ⟨rfl, get t hp y m d h⟩⟩
  | .monthly none vs, hp =>
    refine ⟨_, rfl, (C38_daily_values vs hp 2000 1 1 ⟨by decide, by decide, by decide, by decide⟩).1, fun y m d h => ?_⟩
    have e := (C38_daily_values vs hp y m d h)
    exact ⟨e.2, by show (monthlyValue vs (dateOf y m d)).isSome; rw [← e.2]; exact get _ e.1 y m d h⟩
  | .monthly (some i) vs, hp =>
    have hl : (interpolated i vs).length = 366 := by simp [interpolated]
    exact ⟨_, rfl, hl, fun y m d h => ⟨rfl, get _ hl y m d h⟩⟩

private theorem loop_spec (l : List (Rat × Profile)) (hl : ∀ q ∈ l, q.2.Good) (total : Rat) (acc : List Rat) (ha : acc.length = 366) :
    ∃ acc', resetLoop (l.map fun q => (MaxVolume.number q.1, q.2)) total acc = .ok (total + (l.map (·.1)).sum, acc') ∧ acc'.length = 366 ∧
      ∀ y m d, ValidDate (isLeapYear y) m d → ∃ x, acc[(dateOf y m d).index]? = some x ∧
        acc'[(dateOf y m d).index]? = some (x + (l.map fun q => q.1 * (q.2.value (dateOf y m d)).getD 0).sum) := by
  induction l generalizing total acc with
  | nil =>
    refine ⟨acc, by simp [resetLoop], ha, fun y m d h => ?_⟩
    have hi := index_lt h
    exact ⟨acc[(dateOf y m d).index]'(by omega), by simp, by simp⟩
  | cons q l ih =>
    obtain ⟨a, h1, h2, h3⟩ := array_spec q.2 (hl q List.mem_cons_self)
    obtain ⟨acc', e1, e2, e3⟩ := ih (fun q hq => hl q (List.mem_cons_of_mem _ hq)) (total + q.1) (List.zipWith (· + ·) acc (a.map (· * q.1)))
      (by simp [ha, h2])
    refine ⟨acc', ?_, e2, fun y m d h => ?_⟩
    · simp only [List.map_cons, resetLoop, MaxVolume.read, h1, List.sum_cons, ← add_assoc]
      exact e1
    · obtain ⟨x, hx1, hx2⟩ := e3 y m d h
      obtain ⟨hv, hs⟩ := h3 y m d h
      obtain ⟨v, hv'⟩ := Option.isSome_iff_exists.1 hs
      have hi := index_lt h
      refine ⟨acc[(dateOf y m d).index]'(by omega), by simp, ?_⟩
      rw [hx2]
      rw [List.getElem?_zipWith, List.getElem?_map, hv, hv'] at hx1
      rw [List.getElem?_eq_getElem (by omega)] at hx1
      simp only [Option.map_some, Option.some.injEq] at hx1
      rw [← hx1, List.map_cons, List.sum_cons, hv', Option.getD_some]
      congr 1; ring

/-- **C86 (average).** With storages whose maximum volumes are numbers of non-zero sum, and constant, daily or monthly (stepped or interpolated)
profiles, on every date of every year the value times the sum of the volumes is the sum of each profile's own value on that date times the volume of
its storage. -/
theorem C86_average (l : List (Rat × Profile)) (hl : ∀ q ∈ l, q.2.Good) (ht : (l.map (·.1)).sum ≠ 0) (y m d : Nat)
    (h : ValidDate (isLeapYear y) m d) :
    ∃ dv v, reset (l.map fun q => .number q.1) (l.map (·.2)) = .ok dv ∧ value dv (dateOf y m d) = some v ∧
      (∀ q ∈ l, (q.2.value (dateOf y m d)).isSome) ∧
      v * (l.map (·.1)).sum = (l.map fun q => q.1 * (q.2.value (dateOf y m d)).getD 0).sum := by
  obtain ⟨acc', e1, e2, e3⟩ := loop_spec l hl 0 (List.replicate 366 0) List.length_replicate
  obtain ⟨x, hx1, hx2⟩ := e3 y m d h
  have hi := index_lt h
  have hx0 : x = 0 := by
    rw [List.getElem?_replicate, if_pos hi] at hx1
    exact (Option.some.inj hx1).symm
  subst hx0
  have hz : (l.map fun q => MaxVolume.number q.1).zip (l.map (·.2)) = l.map fun q => (MaxVolume.number q.1, q.2) := by
    rw [List.zip_map']
  refine ⟨acc'.map fun x => some (x / (l.map (·.1)).sum), (l.map fun q => q.1 * (q.2.value (dateOf y m d)).getD 0).sum / (l.map (·.1)).sum,
    ?_, ?_, fun q hq => ?_, ?_⟩
  · unfold reset
    rw [hz, e1]
    show Except.ok _ = Except.ok _
    congr 1
    apply List.map_congr_left
    intro a _
    rw [zero_add, if_neg ht]
  · unfold value
    rw [List.getElem?_map, hx2, zero_add]
    rfl
  · obtain ⟨_, _, _, h3⟩ := array_spec q.2 (hl q hq)
    exact (h3 y m d h).2
  · exact div_mul_cancel₀ _ ht

/-- **C86 (between).** With volumes that are not negative, the average lies between any bounds of the profiles' values on that date. -/
theorem C86_between (l : List (Rat × Profile)) (hl : ∀ q ∈ l, q.2.Good) (hv : ∀ q ∈ l, 0 ≤ q.1) (ht : (l.map (·.1)).sum ≠ 0) (y m d : Nat)
    (h : ValidDate (isLeapYear y) m d) (lo hi : Rat) (hb : ∀ q ∈ l, ∀ x, q.2.value (dateOf y m d) = some x → lo ≤ x ∧ x ≤ hi) :
    ∃ dv v, reset (l.map fun q => .number q.1) (l.map (·.2)) = .ok dv ∧ value dv (dateOf y m d) = some v ∧ lo ≤ v ∧ v ≤ hi := by
  obtain ⟨dv, v, h1, h2, h3, h4⟩ := C86_average l hl ht y m d h
  refine ⟨dv, v, h1, h2, ?_⟩
  have hs : ∀ l : List (Rat × Profile), (∀ q ∈ l, 0 ≤ q.1) → (∀ q ∈ l, (q.2.value (dateOf y m d)).isSome) →
      (∀ q ∈ l, ∀ x, q.2.value (dateOf y m d) = some x → lo ≤ x ∧ x ≤ hi) →
      0 ≤ (l.map (·.1)).sum ∧ lo * (l.map (·.1)).sum ≤ (l.map fun q => q.1 * (q.2.value (dateOf y m d)).getD 0).sum ∧
        (l.map fun q => q.1 * (q.2.value (dateOf y m d)).getD 0).sum ≤ hi * (l.map (·.1)).sum := by
    intro l
    induction l with
    | nil => intro _ _ _; simp
    | cons q l ih =>
      intro a b c
      obtain ⟨i1, i2, i3⟩ := ih (fun q hq => a q (List.mem_cons_of_mem _ hq)) (fun q hq => b q (List.mem_cons_of_mem _ hq))
        (fun q hq => c q (List.mem_cons_of_mem _ hq))
      obtain ⟨x, hx⟩ := Option.isSome_iff_exists.1 (b q List.mem_cons_self)
      obtain ⟨c1, c2⟩ := c q List.mem_cons_self x hx
      have a0 := a q List.mem_cons_self
      simp only [List.map_cons, List.sum_cons, hx, Option.getD_some]
      refine ⟨by linarith, ?_, ?_⟩
      · nlinarith [mul_le_mul_of_nonneg_left c1 a0]
      · nlinarith [mul_le_mul_of_nonneg_left c2 a0]
  obtain ⟨s0, s1, s2⟩ := hs l hv h3 hb
  have s0 : 0 < (l.map (·.1)).sum := lt_of_le_of_ne s0 (Ne.symm ht)
  rw [← h4] at s1 s2
  exact ⟨le_of_mul_le_mul_right s1 s0, le_of_mul_le_mul_right s2 s0⟩

/-- **C86 (refused).** The reset fails exactly if among the pairs there is a storage whose maximum volume is a parameter, or a profile that is none of the
three kinds. -/
theorem C86_refused (storages : List MaxVolume) (profiles : List Profile) :
    (∃ e, reset storages profiles = .error e) ↔
      ∃ q ∈ storages.zip profiles, (∃ c, q.1 = .parameter c) ∨ q.2 = .other := by
  have key : ∀ (l : List (MaxVolume × Profile)) (t : Rat) (acc : List Rat),
      (∃ e, resetLoop l t acc = .error e) ↔ ∃ q ∈ l, (∃ c, q.1 = .parameter c) ∨ q.2 = .other := by
    intro l
    induction l with
    | nil => intro t acc; simp [resetLoop]
    | cons q l ih =>
      intro t acc
      obtain ⟨mv, p⟩ := q
      cases mv with
      | parameter c =>
        constructor
        · intro _; exact ⟨_, List.mem_cons_self, Or.inl ⟨c, rfl⟩⟩
        · intro _; exact ⟨.type, rfl⟩
      | number v =>
        by_cases hp : p = .other
        · subst hp
          constructor
          · intro _; exact ⟨_, List.mem_cons_self, Or.inr rfl⟩
          · intro _; exact ⟨.value, rfl⟩
        · have ha : ∃ a, p.array = .ok a := by
            cases p with
            | constant v => exact ⟨_, rfl⟩
            | daily t => exact ⟨_, rfl⟩
            | monthly i vs => cases i <;> exact ⟨_, rfl⟩
            | other => exact absurd rfl hp
          obtain ⟨a, ha⟩ := ha
          have e : resetLoop ((MaxVolume.number v, p) :: l) t acc = resetLoop l (t + v) (List.zipWith (· + ·) acc (a.map (· * v))) := by
            simp only [resetLoop, MaxVolume.read, ha]; rfl
          rw [e, ih]
          constructor
          · rintro ⟨q, hq, h⟩; exact ⟨q, List.mem_cons_of_mem _ hq, h⟩
          · rintro ⟨q, hq, h⟩
            rcases List.mem_cons.1 hq with rfl | hq
            · rcases h with ⟨c, h⟩ | h
              · cases h
              · exact absurd h hp
            · exact ⟨q, hq, h⟩
  unfold reset
  rw [← key _ 0 (List.replicate 366 0)]
  cases resetLoop (storages.zip profiles) 0 (List.replicate 366 0) with
  | error e => exact ⟨fun _ => ⟨e, rfl⟩, fun _ => ⟨e, rfl⟩⟩
  | ok r => exact ⟨fun ⟨e, h⟩ => (by cases h), fun ⟨e, h⟩ => (by cases h)⟩

/-- **C86 fails (constant maximum volume).** A storage whose maximum volume is a constant parameter, which the code means to allow, is refused: `is_constant`
is called although it is an attribute. -/
theorem C86_parameter_fails : reset [.parameter (some 100)] [.constant (1/2)] = .error .type := rfl

/-- **C86 fails (lengths).** Storages and profiles of different number are accepted and the surplus silently dropped: here the profile of the second storage is
missing, and the average is that of the first alone. -/
theorem C86_lengths_fails : ∃ dv, reset [.number 100, .number 900] [.constant 1] = .ok dv ∧ value dv (dateOf 2021 1 1) = some 1 :=
  ⟨_, rfl, by decide +kernel⟩

/-! ## The recorder -/

private theorem recRun_append (n : Nat) (steps : List (Date × List Rat)) (s : Date × List Rat) :
    recRun n (steps ++ [s]) = recAfter (recRun n steps) s.1 s.2 := by simp [recRun]

private theorem recRun_length (n : Nat) (steps : List (Date × List Rat)) : (recRun n steps).length = 366 := by
  induction steps using List.reverseRecOn with
  | nil => exact List.length_replicate
  | append_singleton steps s ih => rw [recRun_append]; simp [recAfter, ih]

/-- **C86 (recorded).** After a run the recorder holds for each day of the year the values of the last timestep that started on this day, and zero
if there was none. -/
theorem C86_recorded (n : Nat) (pre post : List (Date × List Rat)) (s : Date × List Rat) (hpost : ∀ q ∈ post, q.1.index ≠ s.1.index) (k : Nat) (hk : k < 366) :
    (s.1.index < 366 → (recRun n (pre ++ s :: post))[s.1.index]? = some s.2) ∧
    ((∀ q ∈ pre ++ s :: post, q.1.index ≠ k) → (recRun n (pre ++ s :: post))[k]? = some (List.replicate n 0)) := by
  have keep : ∀ (post : List (Date × List Rat)) (acc : List (List Rat)) (i : Nat), (∀ q ∈ post, q.1.index ≠ i) →
      (post.foldl (fun a s => recAfter a s.1 s.2) acc)[i]? = acc[i]? := by
    intro post
    induction post with
    | nil => intro acc i _; rfl
    | cons q post ih =>
      intro acc i h
      rw [List.foldl_cons, ih _ _ fun q hq => h q (List.mem_cons_of_mem _ hq)]
      unfold recAfter
      rw [List.getElem?_set_ne (h q List.mem_cons_self)]
  constructor
  · intro hi
    unfold recRun
    rw [List.foldl_append, List.foldl_cons, keep _ _ _ hpost]
    have hlen := recRun_length n pre
    unfold recRun at hlen
    unfold recAfter
    rw [List.getElem?_set_self (by unfold recAfter at hlen; omega)]
  · intro h
    unfold recRun
    rw [keep _ _ _ h, recInit, List.getElem?_replicate, if_pos hk]

/-- **C86 (round trip).** The recorded profile of a parameter whose value depends on the calendar day only (each scenario its own), used as a daily profile, gives the
parameter's value on every date whose month and day occurred in the run, in whatever year. -/
theorem C86_roundtrip (n : Nat) (dates : List (Nat × Nat × Nat)) (hd : ∀ q ∈ dates, ValidDate (isLeapYear q.1) q.2.1 q.2.2)
    (f : Nat → Nat → List Rat) (y0 y m d : Nat) (hmem : (y0, m, d) ∈ dates) (hv : ValidDate (isLeapYear y) m d) (s : Nat) :
    dailyValue ((recRun n (dates.map fun q => (dateOf q.1 q.2.1 q.2.2, f q.2.1 q.2.2))).map fun r => r.getD s 0) (dateOf y m d) =
      some ((f m d).getD s 0) := by
  have inj : ∀ q ∈ dates, (dateOf q.1 q.2.1 q.2.2).index = (dateOf y m d).index → q.2 = (m, d) := by
    intro q hq he
    have h1 := index_date _ _ _ (hd q hq)
    have h2 := index_date y m d hv
    rw [he, h2] at h1
    obtain ⟨a1, a2, a3, a4⟩ := valid_true (hd q hq)
    obtain ⟨b1, b2, b3, b4⟩ := valid_true hv
    obtain ⟨_, m', d'⟩ := q
    simp only at *
    unfold dayOfYear at h1
    clear h2 he hd hmem hq hv
    have : m' = m := by
      have hm : ∀ m m' d d', 1 ≤ m → m ≤ 12 → 1 ≤ m' → m' ≤ 12 → 1 ≤ d → d ≤ monthLength true m → 1 ≤ d' → d' ≤ monthLength true m' → m' < m →
          daysBefore true m + d ≠ daysBefore true m' + d' := by
        intro m m' d d' a b c e f g i j k
        interval_cases m <;> interval_cases m' <;> simp [daysBefore, monthLength] at * <;> omega
      rcases Nat.lt_trichotomy m' m with h | h | h
      · exact absurd h1 (hm m m' d d' b1 b2 a1 a2 b3 b4 a3 a4 h)
      · exact h
      · exact absurd h1.symm (hm m' m d' d a1 a2 b1 b2 a3 a4 b3 b4 h)
    subst this
    rw [Prod.mk.injEq]
    exact ⟨rfl, by omega⟩
  have hi : (dateOf y m d).index < 366 := index_lt hv
  -- the last timestep on this day
  have hlast : ∀ l : List (Nat × Nat × Nat), (∀ q ∈ l, ValidDate (isLeapYear q.1) q.2.1 q.2.2) → (∀ q ∈ l, (dateOf q.1 q.2.1 q.2.2).index = (dateOf y m d).index → q.2 = (m, d)) →
      (y0, m, d) ∈ l → (recRun n (l.map fun q => (dateOf q.1 q.2.1 q.2.2, f q.2.1 q.2.2)))[(dateOf y m d).index]? = some (f m d) := by
    intro l
    induction l using List.reverseRecOn with
    | nil => intro _ _ h; cases h
    | append_singleton l q ih =>
      intro h1 h2 h3
      rw [List.map_append, List.map_cons, List.map_nil, recRun_append]
      unfold recAfter
      by_cases he : (dateOf q.1 q.2.1 q.2.2).index = (dateOf y m d).index
      · simp only [he]
        rw [List.getElem?_set_self (by rw [recRun_length]; exact hi), h2 q (by simp) he]
      · rw [List.getElem?_set_ne he]
        apply ih (fun q hq => h1 q (by simp [hq])) (fun q hq => h2 q (by simp [hq]))
        rcases List.mem_append.1 h3 with h3 | h3
        · exact h3
        · rw [List.mem_singleton] at h3
          subst h3
          exact absurd (C08_same_index y0 y m d (h1 (y0, m, d) (List.mem_append_right _ List.mem_cons_self)) hv) he
  unfold dailyValue
  rw [List.getElem?_map, hlast dates hd inj hmem]
  rfl

/-- Two storages, one with a monthly profile: on 29 February of a leap year. -/
example : (∀ q ∈ [((300 : Rat), Profile.constant (1/2)), (100, .monthly none [1, 2, 3, 4, 5, 6, 7, 8, 9, 10, 11, 12])], q.2.Good) ∧
    (reset [.number 300, .number 100] [.constant (1/2), .monthly none [1, 2, 3, 4, 5, 6, 7, 8, 9, 10, 11, 12]]).toOption.map
      (fun dv => value dv (dateOf 2020 2 29)) = some (some (7/8)) := by
  refine ⟨?_, by decide +kernel⟩
  intro q hq
  simp only [List.mem_cons, List.not_mem_nil, or_false] at hq
  rcases hq with rfl | rfl
  · trivial
  · rfl

example : (recRun 1 [(dateOf 2021 1 1, [5]), (dateOf 2021 1 2, [6]), (dateOf 2022 1 1, [7])])[0]? = some [7] := by decide +kernel

end Verif.WeightedProfile

import Verif.Model.AggregatedStart
import Mathlib.Algebra.Order.Field.Rat
import Mathlib.Tactic.Ring
import Mathlib.Tactic.FieldSimp
import Mathlib.Tactic.NormNum

/-! # C62 and C18: aggregated storages at the start of a run -/

namespace Verif.AggregatedStart

open Verif.Storage

/-- The volumes the storages have after their own reset, in the same order. -/
inductive Volumes : List Member → List Rat → Prop
  | nil : Volumes [] []
  | cons {m : Member} {ms : List Member} {s s' : State} {vs : List Rat} : Storage.reset m.initial s = .ok s' → Volumes ms vs → Volumes (m :: ms) (s'.volume :: vs)

private theorem reset_volume (i : Initial) (s : State) :
    (∀ s', Storage.reset i s = .ok s' → getInitialVolume i = .ok s'.volume) ∧
    (∀ e, getInitialVolume i = .error e → ∃ e', Storage.reset i s = .error e') ∧
    (∀ v, getInitialVolume i = .ok v → ∃ s', Storage.reset i s = .ok s' ∧ s'.volume = v) := by
  obtain ⟨v, p, mx⟩ := i
  cases mx <;> cases v <;> cases p <;> simp [Storage.reset, resetStorageOnly, getInitialVolume, getInitialPc] <;> (intro s' h; subst h; rfl)

private theorem initial_ok {ms : List Member} {v : Rat} (h : initialVolume ms = .ok v) (s : State) : ∃ vs, Volumes ms vs ∧ v = vs.sum := by
  induction ms generalizing v with
  | nil => simp only [initialVolume, Except.ok.injEq] at h; exact ⟨[], .nil, by simp [← h]⟩
  | cons m ms ih =>
    unfold initialVolume at h
    split at h
    · rename_i a b ha hb
      obtain ⟨vs, h1, h2⟩ := ih hb
      obtain ⟨s', e1, e2⟩ := (reset_volume m.initial s).2.2 a ha
      refine ⟨s'.volume :: vs, .cons e1 h1, ?_⟩
      simp only [Except.ok.injEq] at h
      simp [← h, e2, h2]
    · cases h

private theorem volumes_det {ms : List Member} {vs : List Rat} (h : Volumes ms vs) : initialVolume ms = .ok vs.sum := by
  induction h with
  | nil => rfl
  | cons h1 _ ih =>
    unfold initialVolume
    rw [(reset_volume _ _).1 _ h1, ih]
    simp

/-- **C62 (start, volume).** At the start of every run, whatever the arrays of the parameters hold, the volume of an aggregated storage is the sum of the volumes to which its storages are reset; it can be reset exactly when all of them can. -/
theorem C62_start_volume (ms : List Member) (junk : Nat → Rat) (n j : Nat) :
    (∀ vs, Volumes ms vs → ∃ pc, start ms junk n j = .ok (vs.sum, pc)) ∧
    (∀ v pc, start ms junk n j = .ok (v, pc) → ∃ vs, Volumes ms vs ∧ v = vs.sum) := by
  constructor
  · intro vs h
    refine ⟨fraction vs.sum ((ms.zipIdx.map fun p => maxNow p.1 (held ms junk n j p.2)).sum), ?_⟩
    unfold start reset
    rw [volumes_det h]
  · intro v pc h
    unfold start reset at h
    split at h
    · cases h
    · rename_i w hw
      simp only [Except.ok.injEq, Prod.mk.injEq] at h
      obtain ⟨vs, h1, h2⟩ := initial_ok hw ⟨0, 0, 0, none⟩
      exact ⟨vs, h1, by rw [← h.1, h2]⟩

private theorem max_numbers (ms : List Member) (mxs : List Rat) (h : ms.map (fun m => m.initial.mx) = mxs.map MaxVolume.number) (held : Nat → Rat) (k : Nat) :
    ((ms.zipIdx k).map fun p => maxNow p.1 (held p.2)) = mxs := by
  induction ms generalizing mxs k with
  | nil => cases mxs with
    | nil => rfl
    | cons _ _ => simp at h
  | cons m ms ih =>
    cases mxs with
    | nil => simp at h
    | cons x xs =>
      simp only [List.map_cons, List.cons.injEq] at h
      simp only [List.zipIdx_cons, List.map_cons, ih xs h.2]
      simp [maxNow, h.1]

/-- **C18 (aggregated storages), part.** When the maximum volumes are numbers, the fraction at the start of every run is the sum of the initial volumes over the sum of the maximum volumes (none if that is zero); hence it is the same in every run. -/
theorem C18_aggregated_partial (ms : List Member) (mxs vs : List Rat) (h : ms.map (fun m => m.initial.mx) = mxs.map MaxVolume.number) (hv : Volumes ms vs)
    (junk : Nat → Rat) (n j : Nat) :
    (mxs.sum ≠ 0 → start ms junk n j = .ok (vs.sum, some (vs.sum / mxs.sum))) ∧ (mxs.sum = 0 → start ms junk n j = .ok (vs.sum, none)) := by
  unfold start reset
  rw [volumes_det hv, show ((ms.zipIdx.map fun p => maxNow p.1 (held ms junk n j p.2))) = mxs from max_numbers ms mxs h _ 0]
  constructor
  · intro h0; simp [fraction, h0]
  · intro h0; simp [fraction, h0]

/-- **C18 fails for aggregated storages** over a storage whose maximum volume is a constant parameter: the fraction with which the first run starts depends on what happened to be in the memory, and can be anything but zero; that of later runs is right.
The storage itself starts with the right fraction. -/
theorem C18_aggregated_constant_fails (v mx : Rat) (hv : v ≠ 0) (hm : mx ≠ 0) (vals : Nat → Rat) (n : Nat) :
    let ms : List Member := [⟨⟨some v, none, .constantParam mx⟩, vals⟩]
    (∀ q : Rat, q ≠ 0 → ∃ junk : Nat → Rat, start ms junk n 0 = .ok (v, some q)) ∧
    (∀ (junk : Nat → Rat) (j : Nat), start ms junk n (j + 1) = .ok (v, some (v / mx))) ∧
    ∀ s, ∃ s', Storage.reset ⟨some v, none, .constantParam mx⟩ s = .ok s' ∧ s'.volume = v ∧ s'.pc = some (v / mx) := by
  refine ⟨fun q hq => ⟨fun _ => v / q, ?_⟩, fun junk j => ?_, fun s => ⟨_, rfl, rfl, ?_⟩⟩
  · have h1 : v / (v / q) = q := by field_simp
    simp [start, reset, initialVolume, getInitialVolume, maxNow, held, fraction, h1, hv, hq]
  · simp [start, reset, initialVolume, getInitialVolume, maxNow, held, Member.value, fraction, hm]
  · simp [fraction, hm]

/-- **C18 fails for aggregated storages** over a storage whose maximum volume varies: the second run starts with the fraction for the maximum of the last timestep, not with that given for the storage and not, in general, with that of the first run. -/
theorem C18_aggregated_varying_fails (v p : Rat) (vals : Nat → Rat) (n : Nat) (hl : vals n ≠ 0) :
    let ms : List Member := [⟨⟨some v, some p, .varyingParam⟩, vals⟩]
    (∀ (junk : Nat → Rat) (j : Nat), start ms junk n (j + 1) = .ok (v, some (v / vals n))) ∧
    (∀ junk : Nat → Rat, junk 0 ≠ 0 → start ms junk n 0 = .ok (v, some (v / junk 0))) ∧
    ∀ s, ∃ s', Storage.reset ⟨some v, some p, .varyingParam⟩ s = .ok s' ∧ s'.volume = v ∧ s'.pc = some p := by
  refine ⟨fun junk j => ?_, fun junk h => ?_, fun s => ⟨_, rfl, rfl, rfl⟩⟩
  · simp [start, reset, initialVolume, getInitialVolume, maxNow, held, Member.value, fraction, hl]
  · simp [start, reset, initialVolume, getInitialVolume, maxNow, held, fraction, h]

/-- Two storages, 50 of 100 and 30 of 60 (given as a half). -/
example : Volumes [⟨⟨some 50, none, .number 100⟩, fun _ => 0⟩, ⟨⟨none, some (1/2), .number 60⟩, fun _ => 0⟩] [50, 1/2 * 60] ∧
    (start [⟨⟨some 50, none, .number 100⟩, fun _ => 0⟩, ⟨⟨none, some (1/2), .number 60⟩, fun _ => 0⟩] (fun _ => 7) 3 1).toOption = some (80, some (1/2)) :=
  ⟨.cons (s := ⟨0, 0, 0, none⟩) (s' := ⟨50, 0, 0, some (50 / 100)⟩) (by simp [Storage.reset, resetStorageOnly, getInitialVolume, getInitialPc, fraction])
    (.cons (s := ⟨0, 0, 0, none⟩) (s' := ⟨1 / 2 * 60, 0, 0, some (1 / 2)⟩) rfl .nil), by decide +kernel⟩

end Verif.AggregatedStart

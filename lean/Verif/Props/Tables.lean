import Verif.Model.Tables
import Verif.Proof.Recorders
import Verif.Props.Recorders
import Verif.Props.Scenarios
import Mathlib.Tactic.Linarith

/-! # C70: output files hold the values of every timestep -/

namespace Verif.Tables

open Verif.Run Verif.Recorders Verif.Scenarios Verif.Timestepper

variable {R W Freq : Type}

/-- **C70 (size of the buffer).** Unless `buffer_timesteps` is less than one, the number of buffered timesteps is between one
and the number of timesteps. -/
theorem C70_buffer (timesteps : Option Int) (size : Option Rat) (items columns n : Nat) (hn : 0 < n) (b : Int)
    (ht : ∀ t, timesteps = some t → 1 ≤ t) (h : bufferTimesteps timesteps size items columns n = some b) :
    1 ≤ b ∧ b ≤ n := by
  unfold bufferTimesteps at h
  cases timesteps with
  | some t =>
    have := ht t rfl
    cases h
    omega
  | none =>
    cases size with
    | none => cases h; omega
    | some sz =>
      simp only at h
      by_cases hi : items = 0
      · rw [if_pos hi] at h; cases h
      · rw [if_neg hi] at h
        cases h
        generalize ⌊((⌊sz * 1024 * 1024 / 8 / 3 / items⌋ : Int) : Rat) / columns⌋ = x
        omega

/-- **C70 (memory of the buffer).** A buffer for more than one timestep, three doubles per item and combination for each of
them, takes no more than the `buffer_size` (in MiB) asked for; and no timestep more would fit, unless the whole run is
buffered. -/
theorem C70_buffer_size (sz : Rat) (items columns n : Nat) (hi : 0 < items) (hc : 0 < columns) (b : Int)
    (h : bufferTimesteps none (some sz) items columns n = some b) :
    (1 < b → (b : Rat) * columns * items * 3 * 8 ≤ sz * 1024 * 1024) ∧
      (b < n → sz * 1024 * 1024 < ((b : Rat) + 1) * columns * items * 3 * 8) := by
  have hi' : (0 : Rat) < items := by exact_mod_cast hi
  have hc' : (0 : Rat) < columns := by exact_mod_cast hc
  simp only [bufferTimesteps, if_neg (Nat.pos_iff_ne_zero.1 hi), Option.some.injEq] at h
  have key : ∀ x : Int, x ≤ ⌊((⌊sz * 1024 * 1024 / 8 / 3 / items⌋ : Int) : Rat) / columns⌋ ↔
      (x : Rat) * columns * items * 3 * 8 ≤ sz * 1024 * 1024 := by
    intro x
    rw [Int.le_floor, le_div_iff₀ hc']
    rw [show ((x : Rat) * columns) = ((x * columns : Int) : Rat) by push_cast; rfl, Int.cast_le, Int.le_floor, le_div_iff₀ hi',
      le_div_iff₀ (by norm_num), le_div_iff₀ (by norm_num)]
  generalize ⌊((⌊sz * 1024 * 1024 / 8 / 3 / items⌋ : Int) : Rat) / columns⌋ = f at h key
  constructor
  · intro hb
    exact (key b).1 (by omega)
  · intro hb
    have : ¬ b + 1 ≤ f := by omega
    rw [key] at this
    push_cast at this
    exact not_le.1 this

example : bufferTimesteps none (some (1 / 1024)) 4 2 365 = some 5 := by decide +kernel

private theorem flush_ok {start num : Nat} {s : St R} (hf : start + num ≤ s.file.length) (hb : num ≤ s.buffer.length) :
    ∃ s', flush (start : Int) num s = some s' ∧ s'.file.length = s.file.length ∧ s'.buffer = s.buffer ∧ s'.time = s.time ∧
      (∀ j, start ≤ j → j < start + num → s'.file[j]? = s.buffer[j - start]?) ∧
      (∀ j, j < start ∨ start + num ≤ j → s'.file[j]? = s.file[j]?) := by
  refine ⟨{ s with file := s.file.take start ++ s.buffer.take num ++ s.file.drop (start + num) }, ?_, ?_, rfl, rfl, ?_, ?_⟩
  · unfold flush
    rw [if_neg (by omega), Int.toNat_natCast, if_pos ⟨hf, hb⟩]
  · simp; omega
  · intro j h1 h2
    simp only
    rw [List.getElem?_append_left (by simp; omega), List.getElem?_append_right (by simp; omega), List.getElem?_take_of_lt]
    · congr 1; simp; omega
    · simp; omega
  · intro j h
    simp only
    rcases h with h | h
    · rw [List.getElem?_append_left (by simp; omega), List.getElem?_append_left (by simp; omega),
        List.getElem?_take_of_lt h]
    · rw [List.getElem?_append_right (by simp; omega), List.getElem?_drop]
      congr 1; simp; omega

/-- The state after the after-hooks of the first timesteps: whole chunks are in the file, the last `b` rows in the
buffer. -/
private theorem fold_ok (n b : Nat) (hb1 : 1 < b) (file junk : List R) (hf : file.length = n)
    (hj : junk.length = b) (os : List R) (ho : os.length ≤ n) :
    ∃ s, (tables n b file junk).fold 0 os ⟨file, junk, []⟩ = some s ∧ s.file.length = n ∧ s.buffer.length = b ∧
      s.time = List.range os.length ∧
      (∀ j < os.length, os.length ≤ j + b → s.buffer[j % b]? = os[j]?) ∧
      (∀ j < os.length - os.length % b, s.file[j]? = os[j]?) ∧
      (∀ j, os.length - os.length % b ≤ j → s.file[j]? = file[j]?) := by
  induction os using List.reverseRecOn with
  | nil => exact ⟨_, rfl, hf, hj, rfl, fun j h => by simp at h, fun j h => by simp at h, fun j _ => rfl⟩
  | append_singleton os o ih =>
    simp only [List.length_append, List.length_singleton] at ho
    obtain ⟨s, h1, h2, h3, h4, h5, h6, h7⟩ := ih (by omega)
    rw [fold_snoc, h1, Option.bind_some, Nat.zero_add]
    have hbuf : ∀ j < os.length + 1, os.length + 1 ≤ j + b →
        (s.buffer.set (os.length % b) o)[j % b]? = (os ++ [o])[j]? := by
      intro j hj1 hj2
      by_cases hjl : j = os.length
      · subst hjl
        rw [List.getElem?_set_self (by rw [h3]; exact Nat.mod_lt _ (by omega))]
        simp
      · have hne : os.length % b ≠ j % b := by
          intro he
          have h1 := Nat.div_add_mod os.length b
          have h2 := Nat.div_add_mod j b
          have h3 : os.length / b ≠ j / b := by intro h; rw [h] at h1; omega
          rcases Nat.lt_or_gt_of_ne h3 with h | h
          · have : b * (os.length / b + 1) ≤ b * (j / b) := Nat.mul_le_mul_left _ h
            rw [Nat.mul_add] at this; omega
          · have : b * (j / b + 1) ≤ b * (os.length / b) := Nat.mul_le_mul_left _ h
            rw [Nat.mul_add] at this; omega
        rw [List.getElem?_set_ne hne, h5 j (by omega) (by omega), List.getElem?_append_left (by omega)]
    have hafter : (tables n b file junk).after os.length o s =
        (if (os.length + 1) % b = 0 then
          flush ((os.length : Int) + 1 - b) b ⟨s.file, s.buffer.set (os.length % b) o, s.time ++ [os.length]⟩
        else some ⟨s.file, s.buffer.set (os.length % b) o, s.time ++ [os.length]⟩) := by
      simp only [tables]
      rw [if_neg (by omega), if_neg (by omega), Int.toNat_natCast]
    rw [hafter]
    simp only [List.length_append, List.length_singleton]
    have htime : s.time ++ [os.length] = List.range (os.length + 1) := by rw [h4, List.range_succ]
    by_cases hm : (os.length + 1) % b = 0
    · rw [if_pos hm]
      have hle : b ≤ os.length + 1 := Nat.le_of_dvd (by omega) (Nat.dvd_of_mod_eq_zero hm)
      obtain ⟨s', e1, e2, e3, e4, e5, e6⟩ := flush_ok (start := os.length + 1 - b) (num := b)
        (s := ⟨s.file, s.buffer.set (os.length % b) o, s.time ++ [os.length]⟩) (by simp only; omega) (by simp [h3])
      have hcast : ((os.length + 1 - b : Nat) : Int) = (os.length : Int) + 1 - b := by omega
      rw [hcast] at e1
      have hmod : os.length % b = b - 1 := by
        have := Nat.div_add_mod os.length b
        have h2 := Nat.mod_lt os.length (show b > 0 by omega)
        by_contra hne
        have h3 : (os.length + 1) % b = os.length % b + 1 := by
          rw [Nat.add_mod, Nat.mod_eq_of_lt (show 1 < b by omega), Nat.mod_eq_of_lt (by omega)]
        omega
      have hst : (os.length + 1 - b) % b = 0 := by
        rw [← Nat.add_mod_right, Nat.sub_add_cancel hle]; exact hm
      refine ⟨s', e1, by rw [e2]; exact h2, by rw [e3]; simp [h3], by rw [e4]; exact htime, ?_, ?_, ?_⟩
      · intro j hj1 hj2; rw [e3]; exact hbuf j hj1 hj2
      · intro j hj
        by_cases hjs : os.length + 1 - b ≤ j
        · rw [e5 j hjs (by omega), ← hbuf j (by omega) (by omega)]
          congr 1
          obtain ⟨q, hq⟩ := Nat.dvd_of_mod_eq_zero hst
          have : j = (j - (os.length + 1 - b)) + b * q := by omega
          conv_rhs => rw [this, Nat.add_mul_mod_self_left, Nat.mod_eq_of_lt (by omega)]
        · rw [e6 j (Or.inl (by omega)), List.getElem?_append_left (by omega)]
          exact h6 j (by omega)
      · intro j hj
        rw [e6 j (Or.inr (by omega))]
        exact h7 j (by omega)
    · rw [if_neg hm]
      have hmod : (os.length + 1) % b = os.length % b + 1 := by
        have h2 := Nat.mod_lt os.length (show b > 0 by omega)
        rw [Nat.add_mod, Nat.mod_eq_of_lt (show 1 < b by omega)]
        refine Nat.mod_eq_of_lt ?_
        by_contra hne
        apply hm
        have h3 : os.length % b = b - 1 := by omega
        rw [Nat.add_mod, h3, Nat.mod_eq_of_lt (show 1 < b by omega), Nat.sub_add_cancel (by omega), Nat.mod_self]
      refine ⟨_, rfl, h2, by simp [h3], htime, hbuf, ?_, ?_⟩
      · intro j hj
        rw [List.getElem?_append_left (by omega)]
        exact h6 j (by omega)
      · intro j hj
        exact h7 j (by omega)

private theorem fold_direct (n : Nat) (b : Int) (hb0 : b ≠ 0) (hb1 : b ≤ 1) (file junk : List R) (hf : file.length = n)
    (os : List R) (ho : os.length ≤ n) :
    ∃ s, (tables n b file junk).fold 0 os ⟨file, junk, []⟩ = some s ∧ s.file.length = n ∧
      s.time = List.range os.length ∧ (∀ j < os.length, s.file[j]? = os[j]?) ∧
      (∀ j, os.length ≤ j → s.file[j]? = file[j]?) := by
  induction os using List.reverseRecOn with
  | nil => exact ⟨_, rfl, hf, rfl, fun j h => by simp at h, fun j _ => rfl⟩
  | append_singleton os o ih =>
    simp only [List.length_append, List.length_singleton] at ho
    obtain ⟨s, h1, h2, h4, h6, h7⟩ := ih (by omega)
    rw [fold_snoc, h1, Option.bind_some, Nat.zero_add]
    have hafter : (tables n b file junk).after os.length o s =
        some ⟨s.file.set os.length o, s.buffer, s.time ++ [os.length]⟩ := by
      simp only [tables]
      rw [if_neg hb0, if_pos hb1, if_pos (by omega)]
    rw [hafter]
    simp only [List.length_append, List.length_singleton]
    refine ⟨_, rfl, by simp [h2], by rw [h4, List.range_succ], ?_, ?_⟩
    · intro j hj
      by_cases hjl : j = os.length
      · subst hjl
        rw [List.getElem?_set_self (by omega)]; simp
      · rw [List.getElem?_set_ne (by omega), h6 j (by omega), List.getElem?_append_left (by omega)]
    · intro j hj
      rw [List.getElem?_set_ne (by omega)]
      exact h7 j (by omega)

/-- **C70.** However many timesteps are buffered: once the recorder is finished while the timestepper stands at timestep `k`,
row `j` of the file holds what was seen in timestep `j` for every timestep `j` before `k`, rows not reached are as the file
had them, and the time table lists the timesteps seen. Here the after-hook ran for `os.length` timesteps, that is `k` or, if
something raised after it in timestep `k`, one more; only an exception in the very first timestep of a run that fits into the
buffer is excluded. A row `k` seen before an exception is in the file only if it completed a chunk of the buffer. -/
theorem C70_rows (n b : Nat) (hb : 1 ≤ b) (hbn : b ≤ n) (file junk : List R) (hf : file.length = n)
    (hj : junk.length = b) (os : List R) (ho : os.length ≤ n) (k : Nat) (hk : k ≤ os.length) (hk1 : os.length ≤ k + 1)
    (h0 : 0 < k ∨ b = 1 ∨ b < n) :
    ∃ s, (tables n b file junk).result os (some k) = some s ∧ s.file.length = n ∧ s.time = List.range os.length ∧
      (∀ j < k, s.file[j]? = os[j]?) ∧ (∀ j, os.length ≤ j → s.file[j]? = file[j]?) ∧
      (k < os.length → s.file[k]? = if (k + 1) % b = 0 then os[k]? else file[k]?) := by
  by_cases hb1 : b = 1
  · subst hb1
    obtain ⟨s, h1, h2, h3, h4, h5⟩ := fold_direct n 1 (by omega) (by omega) file junk hf os ho
    refine ⟨s, ?_, h2, h3, fun j hj => h4 j (by omega), h5, fun hl => by rw [if_pos (Nat.mod_one _)]; exact h4 k hl⟩
    have : (tables n (1 : Nat) file junk).fold 0 os (tables n (1 : Nat) file junk).init = some s := h1
    rw [Rec.result, this]
    simp [tables]
  · obtain ⟨s, h1, h2, h3, h4, h5, h6, h7⟩ := fold_ok n b (by omega) file junk hf hj os ho
    have h1' : (tables n b file junk).fold 0 os (tables n b file junk).init = some s := h1
    rw [Rec.result, h1', Option.bind_some]
    have hfin : (tables n b file junk).finish (some k) s =
        (if k % b > 0 then flush ((k : Int) - (k % b : Nat)) (k % b) s
        else if b = n then flush ((k : Int) - b) b s else some s) := by
      simp only [tables]
      rw [if_neg (by omega), Int.toNat_natCast]
      simp only [Int.natCast_inj]
    rw [hfin]
    have hlt := Nat.mod_lt k (show b > 0 by omega)
    have hkle := Nat.mod_le k b
    have hdm := Nat.div_add_mod k b
    have hbk : b * (k / b) % b = 0 := Nat.mul_mod_right _ _
    -- where the whole chunks end after `os.length` timesteps
    have hchunk : k - k % b ≤ os.length - os.length % b := by
      have e1 := Nat.div_add_mod os.length b
      have : k / b ≤ os.length / b := Nat.div_le_div_right hk
      have := Nat.mul_le_mul_left b this
      omega
    have hwin : ∀ j, k - k % b ≤ j → j < k → s.buffer[j - (k - k % b)]? = os[j]? := by
      intro j hj1 hj2
      rw [← h5 j (by omega) (by omega)]
      congr 1
      have : j = (j - (k - k % b)) + b * (k / b) := by omega
      conv_rhs => rw [this, Nat.add_mul_mod_self_left, Nat.mod_eq_of_lt (by omega)]
    have hlast : k < os.length → s.file[k]? = if (k + 1) % b = 0 then os[k]? else file[k]? := by
      intro hl
      have hl1 : os.length = k + 1 := by omega
      by_cases hm : (k + 1) % b = 0
      · rw [if_pos hm, h6 k (by rw [hl1, hm]; omega)]
      · rw [if_neg hm, h7 k (by rw [hl1]; omega)]
    by_cases hr : k % b > 0
    · rw [if_pos hr]
      obtain ⟨s', e1, e2, e3, e4, e5, e6⟩ := flush_ok (start := k - k % b) (num := k % b) (s := s) (by omega) (by omega)
      have hcast : ((k - k % b : Nat) : Int) = (k : Int) - (k % b : Nat) := by omega
      rw [hcast] at e1
      refine ⟨s', e1, by omega, by rw [e4, h4], ?_, ?_, fun hl => by rw [e6 k (Or.inr (by omega)), hlast hl]⟩
      · intro j hjk
        by_cases hjs : k - k % b ≤ j
        · rw [e5 j hjs (by omega), hwin j hjs hjk]
        · rw [e6 j (Or.inl (by omega)), h6 j (by omega)]
      · intro j hjl
        rw [e6 j (Or.inr (by omega)), h7 j (by omega)]
    · rw [if_neg hr]
      by_cases hbn' : b = n
      · rw [if_pos hbn']
        have hkn : k = n := by
          have hk0 : 0 < k := by omega
          have : b ≤ k := Nat.le_of_dvd hk0 (Nat.dvd_of_mod_eq_zero (by omega))
          omega
        obtain ⟨s', e1, e2, e3, e4, e5, e6⟩ := flush_ok (start := 0) (num := b) (s := s) (by omega) (by omega)
        have hcast : ((0 : Nat) : Int) = (k : Int) - b := by omega
        rw [hcast] at e1
        refine ⟨s', e1, by omega, by rw [e4, h4], ?_, ?_, fun hl => by omega⟩
        · intro j hjk
          rw [e5 j (by omega) (by omega), Nat.sub_zero, ← h5 j (by omega) (by omega), Nat.mod_eq_of_lt (by omega)]
        · intro j hjl
          rw [e6 j (Or.inr (by omega)), h7 j (by omega)]
      · rw [if_neg hbn']
        exact ⟨s, rfl, h2, h4, fun j hjk => h6 j (by omega), fun j hjl => h7 j (by omega), hlast⟩

/-- **C70 (complete run).** After a run of a model that returns normally the file holds in row `j` what the recorder saw in
timestep `j`, for every timestep, and the time table lists all timesteps: the file does not depend on the buffer. -/
theorem C70_run (env : Env W Freq) (m : Mdl Freq) (P : List Period) (comps : List Nat) (h : Ready env m P comps)
    (hf : m.flat = none ∨ m.flat = some comps) (r : Nat) (st : W → St R) (obs : W → R) (b : Nat) (hb : 1 ≤ b)
    (hbn : b ≤ P.length) (file junk : List R) (hfl : file.length = P.length) (hj : junk.length = b)
    (hO : Observer env m.id r st obs (tables P.length b file junk)) (hn : comps.Nodup) (hr : r ∈ comps) (g : Global W)
    (t : Timestep) (hok : (m.run env g).1 = .ok t) :
    (st (m.run env g).2.2.world).file =
        seen env m.id r obs g.world (startPlan m comps ++ stepsPlan m comps P.length) ∧
      (st (m.run env g).2.2.world).time = List.range P.length := by
  obtain ⟨os, ho, hl, hres⟩ := C40_run env m P comps h hf r st obs _ hO hn hr g t hok
  obtain ⟨s, h1, h2, h3, h4, -⟩ := C70_rows P.length b hb hbn file junk hfl hj os (by omega) P.length (by omega) (by omega)
    (Or.inl (by omega))
  rw [h1] at hres
  cases hres
  rw [← ho]
  refine ⟨List.ext_getElem? fun j => ?_, by rw [h3, hl]⟩
  by_cases hj : j < P.length
  · exact h4 j hj
  · rw [List.getElem?_eq_none (by omega), List.getElem?_eq_none (by omega)]

/-- **C70 (coupled models).** In a coupled run that returns normally, the file of a recorder of the first sub-model holds
every timestep. For another sub-model this is so only when the number of buffered timesteps divides the number of timesteps;
otherwise the last row is as the file had it before. -/
theorem C70_coupled_partial (env : Env W Freq) (subs : List (Run.Sub Freq)) (h : MultiReady env subs) (n : Nat)
    (dates : List Int) (hd : ∀ s ∈ subs, s.P.map Period.start = dates) (hdn : dates.length = n)
    (hid : (subs.map fun s => s.m.id).Nodup) (i : Nat) (s : Run.Sub Freq) (hi : subs[i]? = some s) (r : Nat)
    (st : W → St R) (obs : W → R) (b : Nat) (hb : 1 ≤ b) (hbn : b ≤ n) (hn1 : 1 < n) (file junk : List R)
    (hfl : file.length = n) (hj : junk.length = b) (hO : Observer env s.m.id r st obs (tables n b file junk))
    (hn : s.comps.Nodup) (hr : r ∈ s.comps) (g : Global W)
    (hok : (multiRun env true (subs.map Run.Sub.m) g).1 = none) :
    ∃ os : List R, os = seen env s.m.id r obs g.world (multiStart subs ++ roundsPlan subs n) ∧ os.length = n ∧
      (st (multiRun env true (subs.map Run.Sub.m) g).2.2.world).file =
        (if i = 0 ∨ n % b = 0 then os else os.take (n - 1) ++ file.drop (n - 1)) := by
  obtain ⟨os, ho, hl, hres⟩ := C40_coupled env subs h n dates hd hdn hid i s hi r st obs _ hO hn hr g hok
  refine ⟨os, ho, hl, ?_⟩
  by_cases hi0 : i = 0
  · rw [if_pos (Or.inl hi0)]
    rw [if_pos hi0] at hres
    obtain ⟨s, h1, h2, h3, h4, -⟩ := C70_rows n b hb hbn file junk hfl hj os (by omega) n (by omega) (by omega)
      (Or.inl (by omega))
    rw [h1] at hres
    cases hres
    refine List.ext_getElem? fun j => ?_
    by_cases hj : j < n
    · exact h4 j hj
    · rw [List.getElem?_eq_none (by omega), List.getElem?_eq_none (by omega)]
  · rw [if_neg hi0] at hres
    obtain ⟨s, h1, h2, h3, h4, -, h5⟩ := C70_rows n b hb hbn file junk hfl hj os (by omega) (n - 1) (by omega) (by omega)
      (Or.inl (by omega))
    rw [h1] at hres
    cases hres
    have h6 := h5 (by omega)
    rw [Nat.sub_add_cancel (by omega)] at h6
    refine List.ext_getElem? fun j => ?_
    by_cases hm : n % b = 0
    · rw [if_pos (Or.inr hm)]
      rw [if_pos hm] at h6
      rcases Nat.lt_trichotomy j (n - 1) with hj | hj | hj
      · exact h4 j hj
      · rw [hj]; exact h6
      · rw [List.getElem?_eq_none (by omega), List.getElem?_eq_none (by omega)]
    · rw [if_neg (by omega)]
      rw [if_neg hm] at h6
      rcases Nat.lt_trichotomy j (n - 1) with hj | hj | hj
      · rw [List.getElem?_append_left (by simp; omega), List.getElem?_take_of_lt hj]
        exact h4 j hj
      · rw [hj, List.getElem?_append_right (by simp), List.getElem?_drop, h6]
        congr 1; simp; omega
      · rw [List.getElem?_eq_none (by omega), List.getElem?_eq_none (by simp; omega)]

open Run.Example in
/-- **C70 fails for other sub-models.** A coupled run of three timesteps with two buffered timesteps: the last row of the
file of a recorder of the second sub-model is never written (the timestepper of the sub-model is not advanced past the
last timestep, `C40_coupled`); it always sees 5, and the file was created with zeros. -/
theorem C70_coupled_fails : ∃ (env : Env (St Nat) Nat) (subs : List (Run.Sub Nat)), MultiReady env subs ∧
    subs.map (fun s => s.m.id) = [0, 1] ∧ (∀ s ∈ subs, s.P.length = 3 ∧ s.comps = [0]) ∧
    Observer env 1 0 (fun s => s) (fun _ => 5) (tables 3 (2 : Nat) [0, 0, 0] [7, 7]) ∧
    (multiRun env true (subs.map Run.Sub.m) ⟨⟨[], [], []⟩, []⟩).1 = none ∧
    (multiRun env true (subs.map Run.Sub.m) ⟨⟨[], [], []⟩, []⟩).2.2.world.file = [5, 5, 0] := by
  refine ⟨oneRecorder daysPd 1 (tables 3 (2 : Nat) [0, 0, 0] [7, 7]) 5, [subOf 0 3, subOf 1 3],
    subs_ready rfl 3 3 (by decide) (by decide), rfl, ?_, oneRecorder_observer _ _ _ _, by decide +kernel, by decide +kernel⟩
  intro s hs
  fin_cases hs <;> exact ⟨rfl, rfl⟩

/-- **C70 fails when a model is reset to a later start.** After a complete run of four timesteps (buffer of four), resetting
the model to start at timestep 3 and stepping once overwrites the rows of timesteps 0 to 2 by uninitialised memory. -/
theorem C70_restart_fails : ∃ s : St Nat, (tables 4 4 [0, 0, 0, 0] [9, 9, 9, 9]).result [1, 2, 3, 4] (some 4) = some s ∧
    s.file = [1, 2, 3, 4] ∧
    ((tables 4 4 s.file [7, 7, 7, 7]).fold 3 [4] ⟨s.file, [7, 7, 7, 7], []⟩).map St.file = some [7, 7, 7, 4] := by
  refine ⟨⟨[1, 2, 3, 4], [1, 2, 3, 4], [0, 1, 2, 3]⟩, by decide +kernel, rfl, by decide +kernel⟩

/-- **C70 fails without timesteps in the buffer.** `buffer_timesteps = 0` is accepted, and the first timestep raises. -/
theorem C70_zero_fails : bufferTimesteps (some 0) none 1 1 3 = some 0 ∧
    ∀ (file junk : List R) (k : Nat) (o : R) (s : St R), (tables 3 0 file junk).after k o s = none :=
  ⟨by decide +kernel, fun _ _ _ _ _ => rfl⟩

/-! ## Columns -/

private theorem selections_none : ∀ ss : List Scenario, (∀ s ∈ ss, s.slice = none) →
    selections ss = .ok ((ss.map Scenario.size).map fun m => (List.range m).map Int.ofNat) := by
  intro ss
  induction ss with
  | nil => intro _; rfl
  | cons s ss ih =>
    intro h
    simp only [selections, Scenario.selection, h s List.mem_cons_self,
      ih fun x hx => h x (List.mem_cons_of_mem _ hx), List.map_cons]

/-- **C70 (columns).** Without slices and user-defined combinations, the data frames made from the file have one column per
combination, and the column of combination `g` is labelled with its ensemble indices. -/
theorem C70_columns_partial (ss : List Scenario) (hs : ss ≠ []) (hsl : ∀ s ∈ ss, s.slice = none) (combos : List Index)
    (h : Collection.getCombinations ⟨ss, none⟩ = .ok combos) :
    ∃ ls, dataframeColumns (ss.map Scenario.size) combos.length = some ls ∧ ls = combos.map Prod.snd := by
  obtain ⟨sel, hsel, rfl⟩ := getCombinations_product hs h
  rw [selections_none ss hsl] at hsel
  cases hsel
  refine ⟨_, ?_, (enumerate_snd _).symm⟩
  unfold dataframeColumns labels
  rw [if_pos (by simp [enumerate])]

/-- **C70 fails for user-defined combinations and slices.** A scenario of size 2 with the user-defined combinations
`[[1], [0]]`: the columns are labelled `[0]`, `[1]`, that is each with the other's ensemble member. With the single
combination `[[1]]`, or with a slice selecting one member, making the data frames raises. -/
theorem C70_columns_fails :
    (∃ combos, Collection.getCombinations ⟨[⟨2, none⟩], some [[1], [0]]⟩ = .ok combos ∧
      combos.map Prod.snd = [[1], [0]] ∧ dataframeColumns [2] combos.length = some [[0], [1]]) ∧
    (∃ combos, Collection.getCombinations ⟨[⟨2, none⟩], some [[1]]⟩ = .ok combos ∧
      dataframeColumns [2] combos.length = none) ∧
    (∃ combos, Collection.getCombinations ⟨[⟨2, some ⟨some 1, some 2, none⟩⟩], none⟩ = .ok combos ∧
      dataframeColumns [2] combos.length = none) := by
  refine ⟨⟨_, rfl, by decide +kernel, by decide +kernel⟩, ⟨_, rfl, by decide +kernel⟩, ⟨_, rfl, by decide +kernel⟩⟩

/-- **C70 (cells).** A row reshaped to the scenario shape has at position `p` the value of the combination of the `p`-th
selected members (`values[g]` is the value of combination `g`; numpy's reshape in C order). -/
theorem C70_cell (ss : List Scenario) (hs : ss ≠ []) (ls : List (List Int))
    (hsel : List.Forall₂ (fun s l => Scenario.selection s = .ok l) ss ls) (combos : List Index)
    (h : Collection.getCombinations ⟨ss, none⟩ = .ok combos) (value : List Int → R) (values : List R)
    (hv : values = combos.map fun c => value c.2)
    (p : List Nat) (hp : List.Forall₂ (fun k (l : List Int) => k < l.length) p ls) :
    Collection.shape ⟨ss, none⟩ = .ok (ls.map List.length) ∧
    ((ravelMultiIndex (p.map Int.ofNat) (ls.map List.length)).bind fun g => values[g]?) =
      some (value (List.zipWith (fun (l : List Int) k => l.getD k 0) ls p)) := by
  obtain ⟨h1, g, h2, h3⟩ := C04_position ss hs ls hsel combos h p hp
  refine ⟨h1, ?_⟩
  rw [h2, Option.bind_some, hv, List.getElem?_map, h3]
  rfl

/-! ## Items -/

/-- **C70 (items).** A node of the model asked for by a name that does not have exactly two characters, or by a path and its
name, is recorded, under its own name or the given path. -/
theorem C70_items_partial (root : List Char) (nodes : List (List Char)) (s : List Char) (hs : s ∈ nodes) :
    (s.length ≠ 2 → resolve root nodes (.name s) = .ok (root ++ '/' :: s, s)) ∧
    ∀ path, resolve root nodes (.pair path s) = .ok (path, s) := by
  refine ⟨fun h => ?_, fun path => by simp [resolve, hs]⟩
  unfold resolve
  split
  · rename_i heq; cases heq; simp at h
  · rename_i heq; cases heq; rw [if_pos hs]
  · rename_i heq; cases heq
  · rename_i heq; cases heq

/-- **C70 fails for names of two characters and for node objects.** In a model with nodes `ab` and `b`, asking for `ab`
records node `b` (at the path `a`); without a node `b` it raises `KeyError`. Node objects, which the documentation allows,
raise `TypeError`. -/
theorem C70_items_fails :
    resolve [] ["ab".toList, "b".toList] (.name "ab".toList) = .ok ("a".toList, "b".toList) ∧
    resolve [] ["ab".toList] (.name "ab".toList) = .error .keyError ∧
    ∀ root nodes s, resolve root nodes (.object s) = .error .typeError := by
  refine ⟨by simp [resolve], by simp [resolve], fun _ _ _ => rfl⟩

/-! ## Examples -/

/-- The hypotheses of `C70_rows` with three timesteps, two of them buffered, stopped in the last one. -/
example : ∃ s, (tables 3 (2 : Nat) [0, 0, 0] [7, 7]).result [5, 6] (some 2) = some s ∧ s.file = [5, 6, 0] :=
  ⟨⟨[5, 6, 0], [5, 6], [0, 1]⟩, by decide +kernel, rfl⟩

example : bufferTimesteps none (some 100) 3 1 365 = some 365 := by decide +kernel

open Run.Example in
/-- A run with a recorder of an output file that meets the hypotheses of `C70_run`: three timesteps, two buffered. -/
example : ∃ (env : Env (St Nat) Nat) (m : Mdl Nat) (P : List Period) (t : Timestep), Ready env m P [0] ∧ m.flat = none ∧
    P.length = 3 ∧ Observer env m.id 0 (fun s => s) (fun _ => 5) (tables 3 (2 : Nat) [0, 0, 0] [7, 7]) ∧
    (m.run env ⟨⟨[], [], []⟩, []⟩).1 = .ok t ∧ (m.run env ⟨⟨[], [], []⟩, []⟩).2.2.world.file = [5, 5, 5] := by
  have h := subs_ready (env := oneRecorder daysPd 0 (tables 3 (2 : Nat) [0, 0, 0] [7, 7]) 5) rfl 3 3 (by decide) (by decide)
  have hm : subOf 0 3 ∈ [subOf 0 3, subOf 1 3] := List.mem_cons_self
  refine ⟨oneRecorder daysPd 0 (tables 3 (2 : Nat) [0, 0, 0] [7, 7]) 5, newModel 0 3, (List.range 3).map day,
    ⟨day 2, 2, (day 2).seconds⟩, ⟨rfl, by decide, h.good _ hm, h.shift _ hm, fun _ => rfl,
    fun hns => absurd (Or.inl rfl) hns⟩, rfl, rfl, oneRecorder_observer _ _ _ _, by decide +kernel,
    by decide +kernel⟩

end Verif.Tables

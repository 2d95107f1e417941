import Verif.Spec.VirtualStorage
import Verif.Proof.Storage
import Verif.Proof.Ring
import Mathlib.Data.List.Induction

namespace Verif.VirtualStorage

open Verif.Bounds Verif.Storage

theorem depletion_eq (us : List Use) : depletion us = -(us.map fun u => u.factor * u.flow).sum := by
  have h : ∀ (us : List Use) (a : Rat), us.foldl (fun acc u => acc - u.factor * u.flow) a
      = a - (us.map fun u => u.factor * u.flow).sum := by
    intro us
    induction us with
    | nil => intro a; simp
    | cons u us ih => intro a; rw [List.foldl_cons, ih, List.map_cons, List.sum_cons]; ring
  unfold depletion
  rw [h]; ring

theorem rolling_after_eq (r : Rolling) (t : RStep) {m : Rat} {rest : List Rat} (hw : r.ring.WF)
    (hl : r.ring.toList = m :: rest) :
    (r.after t).store.volume = snap t.mx t.mn (min t.mx (max t.mn (r.store.volume - t.used + m))) ∧
    (r.after t).ring.toList = rest ++ [t.used] ∧ (r.after t).ring.WF := by
  have hr : r.ring.read = some m := by rw [← Ring.head_toList hw, hl]; rfl
  have e1 : -depletion t.uses * t.days = t.used := by rw [depletion_eq]; unfold RStep.used; ring
  have e2 : r.store.volume + depletion t.uses * t.days = r.store.volume - t.used := by rw [← e1]; ring
  unfold Rolling.after
  rw [hr]
  simp only [State.after]
  refine ⟨by rw [e2], ?_, Ring.wf_push hw _⟩
  rw [Ring.toList_push hw, hl, e1]; rfl

/-- Initial state. -/
theorem rolling_init {T : Nat} {i : Storage.Initial} {mx : Rat} {r : Rolling}
    (hi : i.mx = .number mx ∨ i.mx = .constantParam mx) (h : Rolling.init T i = .ok r) :
    2 ≤ T ∧ r.ring = Ring.full (T - 1) ((mx - r.store.volume) / ((T - 1 : Nat) : Rat)) := by
  unfold Rolling.init at h
  cases hu : utilisation T i with
  | error e => rw [hu] at h; cases h
  | ok u =>
    rw [hu] at h
    cases hr : Storage.reset i ⟨0, 0, 0, none⟩ with
    | error e => rw [hr] at h; cases h
    | ok s =>
      rw [hr] at h
      simp only [Except.ok.injEq] at h
      subst h
      unfold utilisation at hu
      split_ifs at hu with hT
      refine ⟨by omega, ?_⟩
      unfold Storage.reset resetStorageOnly at hr
      simp only [if_true] at hr
      cases hv : getInitialVolume i with
      | error e => rw [hv] at hu; cases hu
      | ok v =>
        rw [hv] at hu hr
        cases hp : getInitialPc i with
        | error e => rw [hp] at hu; cases hu
        | ok p =>
          rw [hp] at hu hr
          simp only [Except.ok.injEq] at hr
          subst hr
          simp only
          congr 1
          cases p with
          | none => cases hu
          | some pc =>
            simp only at hu
            have hpc : v = pc * mx := by
              unfold getInitialVolume at hv
              unfold getInitialPc at hp
              rcases hi with hi | hi <;> rw [hi] at hv hp <;> simp only at hv hp <;>
              · cases hq : i.pc with
                | some q =>
                  rw [hq] at hv hp
                  simp only [Except.ok.injEq, Option.some.injEq] at hv hp
                  rw [← hv, hp]
                | none =>
                  rw [hq] at hv hp
                  cases hz : i.volume with
                  | none => rw [hz] at hv; cases hv
                  | some z =>
                    rw [hz] at hv hp
                    simp only [Except.ok.injEq] at hv hp
                    subst hv
                    unfold fraction at hp
                    split_ifs at hp with h0
                    simp only [Option.some.injEq] at hp
                    rw [← hp]; field_simp
            by_cases h0 : pc = 0
            · rw [if_pos h0] at hu
              rcases hi with hi | hi
              · rw [hi] at hu
                simp only [Except.ok.injEq] at hu
                rw [← hu, hpc, h0]; simp
              · rw [hi] at hu; cases hu
            · rw [if_neg h0] at hu
              simp only [Except.ok.injEq] at hu
              rw [← hu, hpc]
              congr 1
              field_simp

/-- Invariant of a run: ring contents, bounds and drift. `hrem`: each step uses no more than is left, whenever the volume is
within its bounds. -/
theorem rolling_inv {r : Rolling} {h0 : List Rat} {mx mn : Rat} (hw : r.ring.WF) (hl : r.ring.toList = h0)
    (hnn : ∀ x ∈ h0, 0 ≤ x) (hs : r.store.volume + h0.sum = mx) (hv : mn ≤ r.store.volume)
    (hb : mn ≤ mx) (ts : List RStep) (hts : ∀ t ∈ ts, t.mx = mx ∧ t.mn = mn ∧ 0 ≤ t.used)
    (hrem : ∀ k (hk : k < ts.length), mn ≤ (r.run (ts.take k)).store.volume → (r.run (ts.take k)).store.volume ≤ mx →
      ts[k].used ≤ (r.run (ts.take k)).store.volume - mn) :
    (r.run ts).ring.WF ∧ (r.run ts).ring.toList = (h0 ++ ts.map RStep.used).drop ts.length ∧
    mn ≤ (r.run ts).store.volume ∧ (r.run ts).store.volume ≤ mx ∧
    |(r.run ts).store.volume + (r.run ts).ring.toList.sum - mx| ≤ ts.length * e6 := by
  induction ts using List.reverseRecOn with
  | nil =>
    refine ⟨hw, by simp [Rolling.run, hl], hv, ?_, ?_⟩
    · have : 0 ≤ h0.sum := List.sum_nonneg hnn
      simp only [Rolling.run, List.foldl_nil]; linarith
    · simp only [Rolling.run, List.foldl_nil, hl, hs]; simp
  | append_singleton ts t ih =>
    have hts' : ∀ t ∈ ts, t.mx = mx ∧ t.mn = mn ∧ 0 ≤ t.used := fun x hx => hts x (by simp [hx])
    obtain ⟨i1, i2, i3, i4, i5⟩ := ih hts' (by
      intro k hk
      have := hrem k (by simp; omega)
      rw [List.take_append_of_le_length (by omega), List.getElem_append_left hk] at this
      exact this)
    have ht := hts t (by simp)
    have hu := hrem ts.length (by simp)
    simp only [List.take_left', List.getElem_append_right, Nat.le_refl, Nat.sub_self, List.getElem_cons_zero] at hu
    have hu := hu i3 i4
    have hrun : r.run (ts ++ [t]) = (r.run ts).after t := by simp [Rolling.run]
    obtain ⟨m, -, rest, hm⟩ := Ring.read_eq i1
    obtain ⟨a1, a2, a3⟩ := rolling_after_eq (r.run ts) t i1 hm
    have hlen : ts.length < (h0 ++ ts.map RStep.used).length := by
      by_contra hc
      rw [i2, List.drop_eq_nil_of_le (by omega)] at hm
      cases hm
    have hmn : 0 ≤ m := by
      have : m ∈ h0 ++ ts.map RStep.used := by
        apply List.mem_of_mem_drop (i := ts.length); rw [← i2, hm]; simp
      rcases List.mem_append.1 this with h | h
      · exact hnn m h
      · obtain ⟨x, hx, rfl⟩ := List.mem_map.1 h; exact (hts' x hx).2.2
    have hrest : 0 ≤ rest.sum := by
      apply List.sum_nonneg
      intro x hx
      have : x ∈ h0 ++ ts.map RStep.used := by
        apply List.mem_of_mem_drop (i := ts.length); rw [← i2, hm]; simp [hx]
      rcases List.mem_append.1 this with h | h
      · exact hnn x h
      · obtain ⟨y, hy, rfl⟩ := List.mem_map.1 h; exact (hts' y hy).2.2
    rw [hrun]
    have hlist : ((r.run ts).after t).ring.toList = (h0 ++ (ts ++ [t]).map RStep.used).drop (ts ++ [t]).length := by
      rw [a2]
      have h1 : (h0 ++ ts.map RStep.used).drop (ts.length + 1) = rest := by
        rw [← List.drop_drop, ← i2, hm]; rfl
      rw [List.map_append, ← List.append_assoc, List.length_append, List.length_singleton, List.drop_append,
        h1, Nat.sub_eq_zero_of_le (by omega)]
      rfl
    refine ⟨a3, hlist, ?_⟩
    rw [a1, a2]
    rw [hm, List.sum_cons] at i5
    rw [List.sum_append, List.sum_singleton, ht.1, ht.2.1]
    rw [max_eq_right (by linarith)]
    set v := (r.run ts).store.volume with hvdef
    set w := min mx (v - t.used + m) with hw'
    have hw1 : mn ≤ w := by rw [hw', le_min_iff]; constructor <;> linarith [e6_pos]
    have hw2 : w ≤ mx := min_le_left _ _
    have hsn := snap_mem (mx := mx) (mn := mn) (v := w) (by linarith) (by linarith [e6_pos]) (by linarith [e6_pos])
    refine ⟨hsn.1, hsn.2, ?_⟩
    have herr := snap_err mx mn w (Or.inr (Or.inr ⟨hw1, hw2⟩))
    have hd : |w + (rest.sum + t.used) - mx| ≤ ts.length * e6 := by
      rcases le_total mx (v - t.used + m) with h | h
      · rw [hw', min_eq_left h]
        rw [abs_le] at i5 ⊢
        constructor <;> linarith [ht.2.2]
      · rw [hw', min_eq_right h]
        have : v - t.used + m + (rest.sum + t.used) - mx = v + (m + rest.sum) - mx := by ring
        rw [this]; exact i5
    have : snap mx mn w + (rest.sum + t.used) - mx = (snap mx mn w - w) + (w + (rest.sum + t.used) - mx) := by ring
    rw [this]
    refine le_trans (abs_add_le _ _) ?_
    rw [List.length_append, List.length_singleton]
    push_cast
    linarith

end Verif.VirtualStorage

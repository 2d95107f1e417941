import Verif.Proof.Rolling

/-! # C14: rolling virtual storages -/

namespace Verif.VirtualStorage

open Verif.Bounds Verif.Storage

private theorem init_facts {T : Nat} {i : Storage.Initial} {mx : Rat} {r : Rolling}
    (hi : i.mx = .number mx ∨ i.mx = .constantParam mx) (h : Rolling.init T i = .ok r) (hv : r.store.volume ≤ mx) :
    2 ≤ T ∧ r.ring.WF ∧
    r.ring.toList = List.replicate (T - 1) ((mx - r.store.volume) / ((T - 1 : Nat) : Rat)) ∧
    (∀ x ∈ List.replicate (T - 1) ((mx - r.store.volume) / ((T - 1 : Nat) : Rat)), 0 ≤ x) ∧
    r.store.volume + (List.replicate (T - 1) ((mx - r.store.volume) / ((T - 1 : Nat) : Rat))).sum = mx := by
  obtain ⟨hT, hr⟩ := rolling_init hi h
  refine ⟨hT, ?_, ?_, ?_, ?_⟩
  · rw [hr]; exact Ring.wf_full (by omega) _
  · rw [hr]; exact Ring.toList_full _ _
  · intro x hx
    rw [List.eq_of_mem_replicate hx]
    exact div_nonneg (by linarith) (by positivity)
  · have : ((T - 1 : Nat) : Rat) ≠ 0 := by
      have : T - 1 ≠ 0 := by omega
      exact_mod_cast this
    rw [List.sum_replicate, nsmul_eq_mul]
    field_simp
    ring

private theorem drop_window {T : Nat} {mx v0 : Rat} (ts : List RStep) :
    windowSum (T - 1) ts.length (history T mx v0 ts) = ((history T mx v0 ts).drop ts.length).sum := by
  unfold windowSum
  rw [List.take_of_length_le]
  simp [history]

private theorem window_prefix {T : Nat} (mx v0 : Rat) (ts : List RStep) {k : Nat} (hk : k ≤ ts.length) :
    windowSum (T - 1) k (history T mx v0 ts) = windowSum (T - 1) k (history T mx v0 (ts.take k)) := by
  unfold windowSum history
  congr 1
  have : ts.map RStep.used = (ts.take k).map RStep.used ++ (ts.drop k).map RStep.used := by
    rw [← List.map_append, List.take_append_drop]
  rw [this, ← List.append_assoc]
  rw [List.drop_append_of_le_length (by simp; omega)]
  rw [List.take_append_of_le_length (by simp; omega)]

private theorem window_succ {T : Nat} (hT : 2 ≤ T) (mx v0 : Rat) (ts : List RStep) {k : Nat} (hk : k < ts.length) :
    windowSum T k (history T mx v0 ts) = windowSum (T - 1) k (history T mx v0 ts) + ts[k].used := by
  unfold windowSum
  obtain ⟨n, rfl⟩ : ∃ n, T = n + 1 := ⟨T - 1, by omega⟩
  have hlt : n < ((history (n + 1) mx v0 ts).drop k).length := by simp [history]; omega
  rw [List.take_succ_eq_append_getElem hlt, List.sum_append, List.sum_singleton]
  congr 1
  rw [List.getElem_drop]
  simp only [history, Nat.add_sub_cancel]
  rw [List.getElem_append_right (by simp)]
  simp

/-- C14: with the licence respected step by step (no step uses more than the volume left), the volume plus the use over the
previous `T - 1` timesteps equals the licensed maximum up to `1e-6` per timestep run, and every window of `T` consecutive
timesteps uses at most `max - min` up to the same tolerance. Partial: exact equality is false because of the snapping of volumes
to their bounds (`C14_fails`); `C14_exact` gives equality when no snapping takes place. -/
theorem C14_partial {T : Nat} {i : Storage.Initial} {mx mn : Rat} {r : Rolling}
    (hi : i.mx = .number mx ∨ i.mx = .constantParam mx) (h : Rolling.init T i = .ok r)
    (hv1 : mn ≤ r.store.volume) (hv2 : r.store.volume ≤ mx) (ts : List RStep)
    (hts : ∀ t ∈ ts, t.mx = mx ∧ t.mn = mn ∧ 0 ≤ t.used)
    (hrem : ∀ k (hk : k < ts.length), ts[k].used ≤ (r.run (ts.take k)).store.volume - mn) :
    |(r.run ts).store.volume + windowSum (T - 1) ts.length (history T mx r.store.volume ts) - mx| ≤ ts.length * e6 ∧
    mn ≤ (r.run ts).store.volume ∧ (r.run ts).store.volume ≤ mx ∧
    ∀ k, k < ts.length → windowSum T k (history T mx r.store.volume ts) ≤ mx - mn + k * e6 := by
  obtain ⟨hT, hw, hl, hnn, hs⟩ := init_facts hi h hv2
  have main := fun (us : List RStep) hus hre =>
    rolling_inv (r := r) hw hl hnn hs hv1 (le_trans hv1 hv2) us hus hre
  have m1 := main ts hts (fun k hk _ _ => hrem k hk)
  refine ⟨?_, m1.2.2.1, m1.2.2.2.1, ?_⟩
  · rw [drop_window]
    have := m1.2.2.2.2
    rw [m1.2.1] at this
    exact this
  · intro k hk
    rw [window_succ hT _ _ _ hk, window_prefix mx _ ts hk.le]
    have m2 := main (ts.take k) (fun t ht => hts t (List.mem_of_mem_take ht)) (by
      intro j hj _ _
      have hj' : j < k := by simp at hj; omega
      have := hrem j (by omega)
      rw [List.take_take, Nat.min_eq_left hj'.le, List.getElem_take]
      exact this)
    have hlen : (ts.take k).length = k := by simp; omega
    have hd := drop_window (T := T) (mx := mx) (v0 := r.store.volume) (ts.take k)
    rw [hlen] at hd
    rw [hd]
    have m3 := m2.2.2.2.2
    rw [m2.2.1, hlen] at m3
    have := hrem k hk
    rw [abs_le] at m3
    unfold history
    linarith [m3.2]

/-- C14: with uses given and no volume within `1e-6` of a bound unless exactly on it, the volume is exactly the maximum less the use
over the previous `T - 1` timesteps. The hypotheses only speak about the uses. -/
theorem C14_exact {T : Nat} {i : Storage.Initial} {mx mn : Rat} {r : Rolling}
    (hi : i.mx = .number mx ∨ i.mx = .constantParam mx) (h : Rolling.init T i = .ok r)
    (hv2 : r.store.volume ≤ mx) (hb : e6 ≤ mx - mn) (ts : List RStep)
    (hts : ∀ t ∈ ts, t.mx = mx ∧ t.mn = mn ∧ 0 ≤ t.used)
    (hwin : ∀ k, k < ts.length → windowSum T k (history T mx r.store.volume ts) ≤ mx - mn)
    (hclear : ∀ k, k ≤ ts.length →
      let w := mx - windowSum (T - 1) k (history T mx r.store.volume ts)
      w = mx ∨ w = mn ∨ (e6 ≤ |w - mx| ∧ e6 ≤ |w - mn|)) :
    (r.run ts).store.volume = mx - windowSum (T - 1) ts.length (history T mx r.store.volume ts) := by
  obtain ⟨hT, hw, hl, hnn, hs⟩ := init_facts hi h hv2
  have key : (r.run ts).ring.WF ∧
      (r.run ts).ring.toList = (history T mx r.store.volume ts).drop ts.length ∧
      (r.run ts).store.volume = mx - windowSum (T - 1) ts.length (history T mx r.store.volume ts) := by
    induction ts using List.reverseRecOn with
    | nil =>
      have e : history T mx r.store.volume [] =
          List.replicate (T - 1) ((mx - r.store.volume) / ((T - 1 : Nat) : Rat)) := by simp [history]
      refine ⟨hw, by rw [e]; simpa [Rolling.run] using hl, ?_⟩
      rw [e]
      unfold windowSum
      simp only [Rolling.run, List.foldl_nil, List.length_nil, List.drop_zero]
      rw [List.take_of_length_le (by simp)]
      linarith
    | append_singleton ts t ih =>
      have hpre : ∀ n k, k + n ≤ ts.length + (T - 1) → windowSum n k (history T mx r.store.volume (ts ++ [t])) =
          windowSum n k (history T mx r.store.volume ts) := by
        intro n k hk
        unfold windowSum history
        rw [List.map_append, ← List.append_assoc, List.drop_append_of_le_length (by simp; omega),
          List.take_append_of_le_length (by simp; omega)]
      obtain ⟨i1, i2, i3⟩ := ih (fun x hx => hts x (by simp [hx])) (by
          intro k hk
          have := hwin k (by simp; omega)
          rwa [hpre _ _ (by omega)] at this) (by
          intro k hk
          have := hclear k (by simp; omega)
          rwa [hpre _ _ (by omega)] at this)
      have ht := hts t (by simp)
      have hlen : ((history T mx r.store.volume ts).drop ts.length).length = T - 1 := by simp [history]
      obtain ⟨m, -, rest, hm⟩ := Ring.read_eq i1
      have hrun : r.run (ts ++ [t]) = (r.run ts).after t := by simp [Rolling.run]
      obtain ⟨a1, a2, a3⟩ := rolling_after_eq (r.run ts) t i1 hm
      have hh : history T mx r.store.volume (ts ++ [t]) = history T mx r.store.volume ts ++ [t.used] := by
        simp [history]
      have hlist : ((r.run ts).after t).ring.toList = (history T mx r.store.volume (ts ++ [t])).drop (ts ++ [t]).length := by
        have h1 : (history T mx r.store.volume ts).drop (ts.length + 1) = rest := by
          rw [← List.drop_drop, ← i2, hm]; rfl
        have : ts.length + 1 ≤ (history T mx r.store.volume ts).length := by simp [history]; omega
        rw [a2, hh, List.length_append, List.length_singleton, List.drop_append, h1, Nat.sub_eq_zero_of_le this]
        rfl
      rw [hrun]
      refine ⟨a3, hlist, ?_⟩
      have hwnew : windowSum (T - 1) (ts ++ [t]).length (history T mx r.store.volume (ts ++ [t])) = rest.sum + t.used := by
        rw [drop_window, ← hlist, a2, List.sum_append, List.sum_singleton]
      have hwold : windowSum (T - 1) ts.length (history T mx r.store.volume ts) = m + rest.sum := by
        rw [drop_window, ← i2, hm, List.sum_cons]
      rw [a1, hwnew, i3, hwold, ht.1, ht.2.1]
      have hall : ∀ x ∈ history T mx r.store.volume ts, 0 ≤ x := by
        intro x hx
        unfold history at hx
        rcases List.mem_append.1 hx with h | h
        · exact hnn x h
        · obtain ⟨y, hy, rfl⟩ := List.mem_map.1 h; exact (hts y (by simp [hy])).2.2
      have hrest : 0 ≤ rest.sum := by
        apply List.sum_nonneg
        intro x hx
        apply hall; apply List.mem_of_mem_drop (i := ts.length); rw [← i2, hm]; simp [hx]
      have hmn : 0 ≤ m := by
        apply hall; apply List.mem_of_mem_drop (i := ts.length); rw [← i2, hm]; simp
      have hwt := hwin ts.length (by simp)
      rw [window_succ hT _ _ _ (by simp), hpre _ _ (by omega), hwold] at hwt
      simp only [List.getElem_append_right, Nat.le_refl, Nat.sub_self, List.getElem_cons_zero] at hwt
      have hc := hclear (ts ++ [t]).length (Nat.le_refl _)
      rw [hwnew] at hc
      simp only at hc
      have hw' : mx - (m + rest.sum) - t.used + m = mx - (rest.sum + t.used) := by ring
      rw [hw', max_eq_right (by linarith), min_eq_right (by linarith [ht.2.2])]
      have := e6_pos
      rcases hc with hc | hc | hc
      · rw [hc]; unfold snap
        have h2 : ¬ |mx - mn| < e6 := by rw [abs_of_nonneg (by linarith)]; linarith
        simp only [sub_self, abs_zero, this, if_true, h2, if_false]
      · rw [hc]; unfold snap
        have h2 : ¬ |mn - mx| < e6 := by rw [abs_sub_comm, abs_of_nonneg (by linarith)]; linarith
        simp only [h2, if_false, sub_self, abs_zero, this, if_true]
      · exact snap_exact (by linarith [hc.1]) (by linarith [hc.2])
  exact key.2.2

/-- C14: the LP enforces the licence. If at every timestep the flows satisfy the node's LP row (built from the volume at that moment),
the window claim follows. -/
theorem C14_enforced {T : Nat} {i : Storage.Initial} {mx mn : Rat} {r : Rolling}
    (hi : i.mx = .number mx ∨ i.mx = .constantParam mx) (h : Rolling.init T i = .ok r)
    (hv1 : mn ≤ r.store.volume) (hv2 : r.store.volume ≤ mx) (hb : mn < mx) (ts : List RStep)
    (hts : ∀ t ∈ ts, t.mx = mx ∧ t.mn = mn ∧ 0 ≤ t.used ∧ 0 < t.days ∧ (mx - mn) / t.days < dblMax)
    (hrow : ∀ k (hk : k < ts.length), (vRow true (r.run (ts.take k)).store.volume mx mn ts[k].days).Admits
      (-(ts[k].uses.map fun u => u.factor * u.flow).sum)) :
    ∀ k, k < ts.length → windowSum T k (history T mx r.store.volume ts) ≤ mx - mn + k * e6 := by
  obtain ⟨hT, hw, hl, hnn, hs⟩ := init_facts hi h hv2
  have step : ∀ k (hk : k < ts.length), mn ≤ (r.run (ts.take k)).store.volume → (r.run (ts.take k)).store.volume ≤ mx →
      ts[k].used ≤ (r.run (ts.take k)).store.volume - mn := by
    intro k hk b1 b2
    obtain ⟨-, -, -, hd, hbig⟩ := hts ts[k] (List.getElem_mem hk)
    have := hrow k hk
    unfold vRow at this
    rw [if_neg (by linarith), if_neg (by simp)] at this
    have := (storageRow_admits b1 b2 hd hbig this).1
    unfold RStep.used
    linarith
  have hts' : ∀ t ∈ ts, t.mx = mx ∧ t.mn = mn ∧ 0 ≤ t.used := fun t ht => ⟨(hts t ht).1, (hts t ht).2.1, (hts t ht).2.2.1⟩
  refine (C14_partial hi h hv1 hv2 ts hts' ?_).2.2.2
  intro k hk
  have m2 := rolling_inv (r := r) hw hl hnn hs hv1 hb.le (ts.take k) (fun t ht => hts' t (List.mem_of_mem_take ht)) (by
      intro j hj b1 b2
      have hj' : j < k := by simp at hj; omega
      have hj'' : j < ts.length := by omega
      rw [List.take_take, Nat.min_eq_left hj'.le] at b1 b2 ⊢
      rw [List.getElem_take]
      exact step j hj'' b1 b2)
  exact step k hk m2.2.2.1 m2.2.2.2.1

/-- Setup refuses windows shorter than two timesteps. -/
theorem C14_short_window (T : Nat) (i : Storage.Initial) (h : T < 2) : Rolling.init T i = .error .valueError := by
  unfold Rolling.init utilisation
  rw [if_pos h]

/-- C14, exact form, is false: with a window of two timesteps and a licence of 10, a use of `5e-7` is forgotten by the volume and the
full 10 can be used in the next timestep. -/
theorem C14_fails : ∃ (i : Storage.Initial) (r : Rolling) (ts : List RStep),
    i.mx = .number 10 ∧ Rolling.init 2 i = .ok r ∧ (∀ t ∈ ts, t.mx = 10 ∧ t.mn = 0 ∧ 0 ≤ t.used) ∧
    (∀ k (hk : k < ts.length), ts[k].used ≤ (r.run (ts.take k)).store.volume - 0) ∧
    windowSum 2 1 (history 2 10 r.store.volume ts) = 10 + 1 / 2000000 := by
  refine ⟨⟨some 0, some 1, .number 10⟩, ⟨⟨10, 0, 0, some 1⟩, ⟨[0], 0⟩⟩,
    [⟨[⟨1, 1 / 2000000⟩], 1, 10, 0⟩, ⟨[⟨1, 10⟩], 1, 10, 0⟩], rfl, ?_, ?_, ?_, ?_⟩
  · decide +kernel
  · decide +kernel
  · decide +kernel
  · decide +kernel

-- A licence of 30 over three timesteps, half used before the start; uses 5, 10, 10, 5.
private def exSteps : List RStep :=
  [⟨[⟨1, 2⟩, ⟨1/2, 6⟩], 1, 30, 0⟩, ⟨[⟨1, 10⟩], 1, 30, 0⟩, ⟨[⟨2, 5⟩], 1, 30, 0⟩, ⟨[⟨1, 5⟩], 1, 30, 0⟩]

private def exInit : Rolling := ⟨⟨15, 0, 0, some (1/2)⟩, Ring.full 2 (15/2)⟩

example : Rolling.init 3 ⟨some 0, some (1/2), .number 30⟩ = .ok exInit := by decide +kernel
example : ∀ t ∈ exSteps, t.mx = 30 ∧ t.mn = 0 ∧ 0 ≤ t.used := by decide +kernel
example : ∀ k (hk : k < exSteps.length), exSteps[k].used ≤ (exInit.run (exSteps.take k)).store.volume - 0 := by
  decide +kernel
example : (exInit.run exSteps).store.volume = 15 ∧
    windowSum 2 4 (history 3 30 exInit.store.volume exSteps) = 15 := by decide +kernel
example : ∀ k, k < exSteps.length + 1 →
      let w := 30 - windowSum (3 - 1) k (history 3 30 exInit.store.volume exSteps)
      w = 30 ∨ w = 0 ∨ (e6 ≤ |w - 30| ∧ e6 ≤ |w - 0|) := by decide +kernel

end Verif.VirtualStorage

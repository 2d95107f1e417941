import Verif.Spec.Periods
import Verif.Props.Timestepper
import Verif.Props.Calendar
import Mathlib.Data.List.Infix
import Mathlib.Data.Int.LeastGreatest
/-! # C131: the timesteps of a run cover the dates asked for, with the timestep asked for -/

namespace Verif.Timestepper

/-! ## Helpers -/

private theorem begins_add {u : Units} (h : u.Sane) (o : Int) (k : Nat) : u.begins o + k * 500000001 ≤ u.begins (o + k) := by
  induction k with
  | zero => simp
  | succ k ih =>
    have := h.long (o + k)
    push_cast
    rw [← add_assoc]
    omega

private theorem begins_le {u : Units} (h : u.Sane) {a b : Int} (hab : a ≤ b) : u.begins a ≤ u.begins b := by
  obtain ⟨k, rfl⟩ := Int.le.dest hab
  have := begins_add h a k
  omega

private theorem begins_lt {u : Units} (h : u.Sane) {a b : Int} (hab : u.begins a < u.begins b) : a < b := by
  by_contra hn
  have := begins_le h (not_lt.1 hn)
  omega

private theorem ordinal_mono {u : Units} (h : u.Sane) {a b : Int} (hab : a ≤ b) : u.ordinal a ≤ u.ordinal b := by
  have h1 := h.inside a
  have h2 := h.inside b
  have := begins_lt h (a := u.ordinal a) (b := u.ordinal b + 1) (by omega)
  omega

private theorem ordinal_begins {u : Units} (h : u.Sane) (o : Int) : u.ordinal (u.begins o) = o := by
  have h1 := h.inside (u.begins o)
  have h2 := begins_lt h (a := o) (b := u.ordinal (u.begins o) + 1) h1.2
  by_contra hn
  have h3 : o + 1 ≤ u.ordinal (u.begins o) := by omega
  have := begins_le h h3
  have := h.long o
  omega

private theorem good {u : Units} (h : u.Sane) {n : Nat} (hn : 0 < n) (o : Int) : GoodPeriod (u.period n o) := by
  have := begins_add h o n
  unfold GoodPeriod Units.period
  simp only
  have : (1 : Int) ≤ n := by exact_mod_cast hn
  nlinarith

private theorem chain {u : Units} (h : u.Sane) {n : Nat} (hn : 0 < n) (o : Int) (k i : Nat) : Contiguous ((List.range' i k).map fun (j : Nat) => u.period n (o + j * n)) := by
  have hle : ∀ x, (u.period n x).start ≤ (u.period n x).last := fun x => by have := good h hn x; unfold GoodPeriod at this; omega
  induction k generalizing i with
  | zero => exact trivial
  | succ k ih =>
    cases k with
    | zero => exact hle _
    | succ k =>
      have := ih (i + 1)
      rw [List.range'_succ, List.map_cons, List.range'_succ, List.map_cons]
      rw [List.range'_succ, List.map_cons] at this
      refine ⟨hle _, ?_, this⟩
      unfold Units.period
      simp only
      push_cast
      rw [add_mul, one_mul, ← add_assoc]
      omega

private theorem freq_of {d : Delta} (hd : d.Positive) : ∃ f, d.freq = .ok f ∧ f.base = d.base ∧ 0 < f.n := by
  cases d with
  | int n => have hd : 0 < n := hd; exact ⟨⟨.day, n.toNat⟩, by simp [Delta.freq, not_le.2 hd], rfl, by simp; omega⟩
  | timedelta n r => have hd : 0 < n := hd; exact ⟨⟨.day, n.toNat⟩, by simp [Delta.freq, not_le.2 hd], rfl, by simp; omega⟩
  | text b n => have hd : 0 < n := hd; exact ⟨⟨b, n.toNat⟩, by simp [Delta.freq, not_le.2 hd], rfl, by simp; omega⟩

private theorem seconds_pos {p : Period} (h : GoodPeriod p) : ¬ p.seconds ≤ 0 := by
  unfold GoodPeriod at h
  unfold Period.seconds roundSeconds
  omega

private theorem created {cal : Base → Units} {a b : Int} {d : Delta} {f : Freq} (hf : d.freq = .ok f) (p : Period) (ps : List Period) (hp : (pandas cal).periodRange a b f = p :: ps) (hg : GoodPeriod p) :
    ∃ s, create cal a b d = .ok s ∧ s.periods = p :: ps ∧ s.freq = f := by
  unfold create
  rw [hf]
  simp only [State.setup, State.reset, hp, startIndex, List.getElem?_cons_zero, mkTimestep, if_neg (seconds_pos hg)]
  exact ⟨_, rfl, rfl, rfl⟩

private theorem reset_periods (s : State Freq) (t : Option Int) : (s.reset t).2.periods = s.periods := by
  unfold State.reset
  simp only
  repeat' split
  all_goals rfl

private theorem setup_periods (pd : Pandas Freq) (s : State Freq) : (s.setup pd).2.periods = pd.periodRange s.start s.stop s.freq := by
  unfold State.setup
  simp only
  have h := reset_periods { s with periods := pd.periodRange s.start s.stop s.freq } none
  cases e : State.reset { s with periods := pd.periodRange s.start s.stop s.freq } none with
  | mk r s2 =>
    rw [e] at h
    cases r <;> exact h

private theorem made_periods {cal : Base → Units} {a b : Int} {d : Delta} {f : Freq} {s : State Freq} (hf : d.freq = .ok f) (h : create cal a b d = .ok s) : s.periods = (pandas cal).periodRange a b f := by
  unfold create at h
  rw [hf] at h
  simp only at h
  have h2 := setup_periods (pandas cal) ⟨a, b, f, [], none, none, none, true⟩
  split at h
  · cases h
  · next st he =>
    cases h
    rw [he] at h2
    exact (reset_periods st none).trans h2

private theorem range_count {u : Units} {a b : Int} {n : Nat} (hn : 0 < n) (h : u.ordinal a ≤ u.ordinal b) :
    ∃ k : Nat, ((u.ordinal b - u.ordinal a) / n + 1).toNat = k + 1 ∧ u.ordinal a + k * n ≤ u.ordinal b ∧ u.ordinal b < u.ordinal a + k * n + n := by
  have hn' : (0 : Int) < n := by exact_mod_cast hn
  have h0 : 0 ≤ (u.ordinal b - u.ordinal a) / (n : Int) := Int.ediv_nonneg (by omega) (by omega)
  refine ⟨((u.ordinal b - u.ordinal a) / n).toNat, by omega, ?_, ?_⟩
  · rw [Int.toNat_of_nonneg h0]
    have := Int.ediv_mul_le (u.ordinal b - u.ordinal a) (b := (n : Int)) (by omega)
    omega
  · rw [Int.toNat_of_nonneg h0]
    have := Int.lt_ediv_add_one_mul_self (u.ordinal b - u.ordinal a) hn'
    rw [add_mul, one_mul] at this
    omega

/-! ## Theorems -/

/-- **C131 (cover).** With a start that is not after the end and any timestep of at least one unit, the timesteps follow each other without gap or overlap, the first contains the start, the last contains the end, and iterating visits
exactly these in order. -/
theorem C131_covers (cal : Base → Units) (a b : Int) (d : Delta) (hd : d.Positive) (hs : (cal d.base).Sane) (hab : a ≤ b) :
    ∃ s p q, create cal a b d = .ok s ∧ Contiguous s.periods ∧ (∀ r ∈ s.periods, GoodPeriod r) ∧ s.periods.head? = some p ∧ p.Contains a ∧ s.periods.getLast? = some q ∧ q.Contains b ∧
      ((s.reset none).2.nexts (pandas cal) s.periods.length).1.map observe = s.periods.zipIdx.map fun r => .ok r := by
  obtain ⟨f, hf, hb, hn⟩ := freq_of hd
  rw [← hb] at hs
  obtain ⟨k, hk, h1, h2⟩ := range_count (u := cal f.base) hn (ordinal_mono hs hab)
  have hr : (pandas cal).periodRange a b f = (List.range' 0 (k + 1)).map fun (j : Nat) => (cal f.base).period f.n ((cal f.base).ordinal a + j * f.n) := by
    show (List.range _).map _ = _
    rw [hk, List.range_eq_range']
  have hgood : ∀ r ∈ (List.range' 0 (k + 1)).map (fun (j : Nat) => (cal f.base).period f.n ((cal f.base).ordinal a + j * f.n)), GoodPeriod r := by
    intro r h
    obtain ⟨j, -, rfl⟩ := List.mem_map.1 h
    exact good hs hn _
  obtain ⟨s, h3, h4, h5⟩ := created hf _ _ (by rw [hr, List.range'_succ, List.map_cons]) (good hs hn _)
  rw [← List.map_cons (f := fun (j : Nat) => (cal f.base).period f.n ((cal f.base).ordinal a + j * f.n)), ← List.range'_succ] at h4
  have hin := hs.inside a
  have hin' := hs.inside b
  refine ⟨s, (cal f.base).period f.n ((cal f.base).ordinal a), (cal f.base).period f.n ((cal f.base).ordinal a + k * f.n), h3, ?_, ?_, ?_, ⟨hin.1, ?_⟩, ?_, ⟨?_, ?_⟩, ?_⟩
  · rw [h4]; exact chain hs hn _ _ _
  · rw [h4]; exact hgood
  · rw [h4, List.range'_succ]; simp
  · have := begins_le hs (a := (cal f.base).ordinal a + 1) (b := (cal f.base).ordinal a + f.n) (by omega)
    unfold Units.period; simp only; omega
  · rw [h4, List.range'_1_concat, List.map_append]; simp
  · exact (begins_le hs h1).trans hin'.1
  · have := begins_le hs (a := (cal f.base).ordinal b + 1) (b := (cal f.base).ordinal a + k * f.n + f.n) (by omega)
    unfold Units.period; simp only; omega
  · refine C06_full_pass (pandas cal) s (by rw [h4]; exact hgood) (by rw [h4]; exact chain hs hn _ _ _) (fun p _ => ?_) (by rw [h4, List.range'_succ]; simp)
    rw [h5]
    exact good hs hn _

/-- **C131 (new).** A new timestepper asks for a setup of the model, stands before its first timestep, and has the given start and end and the periods between them. -/
theorem C131_new (cal : Base → Units) (a b : Int) (d : Delta) (s : State Freq) (h : create cal a b d = .ok s) :
    s.dirty = true ∧ s.current = none ∧ s.start = a ∧ s.stop = b ∧ s.periods = (pandas cal).periodRange a b s.freq := by
  have kept : ∀ (s : State Freq) (t : Option Int), (s.reset t).2.current = none ∧ (s.reset t).2.start = s.start ∧ (s.reset t).2.stop = s.stop ∧ (s.reset t).2.freq = s.freq := by
    intro s t
    unfold State.reset
    simp only
    repeat' split
    all_goals exact ⟨rfl, rfl, rfl, rfl⟩
  have kept' : ∀ (s : State Freq), (s.setup (pandas cal)).2.start = s.start ∧ (s.setup (pandas cal)).2.stop = s.stop ∧ (s.setup (pandas cal)).2.freq = s.freq := by
    intro s
    have := kept { s with periods := (pandas cal).periodRange s.start s.stop s.freq } none
    unfold State.setup
    simp only
    cases e : State.reset { s with periods := (pandas cal).periodRange s.start s.stop s.freq } none with
    | mk r s2 =>
      rw [e] at this
      cases r <;> exact this.2
  cases hf : d.freq with
  | error e => unfold create at h; rw [hf] at h; cases h
  | ok f =>
    have hp := made_periods hf h
    unfold create at h
    rw [hf] at h
    simp only at h
    have h2 := kept' ⟨a, b, f, [], none, none, none, true⟩
    split at h
    · cases h
    · next st he =>
      cases h
      rw [he] at h2
      obtain ⟨c1, c2, c3, c4⟩ := kept st none
      refine ⟨rfl, c1, c2.trans h2.1, c3.trans h2.2.1, ?_⟩
      rw [hp]
      exact congrArg _ (c4.trans h2.2.2).symm

private theorem tick_sane {l : Int} (hl : 500000001 ≤ l) : (Units.tick l).Sane := by
  refine ⟨fun o => ?_, fun t => ⟨?_, ?_⟩⟩
  · show o * l + 500000001 ≤ (o + 1) * l
    rw [add_mul, one_mul]; omega
  · exact Int.ediv_mul_le t (by omega)
  · exact Int.lt_ediv_add_one_mul_self t (by omega)

private theorem ticks_sane {cal : Base → Units} (hc : Ticks cal) {d : Delta} {len : Int} (h : d.asked = some len) : (cal d.base).Sane ∧ ∃ l, cal d.base = .tick l ∧ l % 1000000000 = 0 := by
  cases d with
  | int n => exact ⟨hc.day ▸ tick_sane (by norm_num), _, hc.day, by norm_num⟩
  | timedelta n r => exact ⟨hc.day ▸ tick_sane (by norm_num), _, hc.day, by norm_num⟩
  | text b n =>
    cases b with
    | second => exact ⟨hc.second ▸ tick_sane (by norm_num), _, hc.second, by norm_num⟩
    | minute => exact ⟨hc.minute ▸ tick_sane (by norm_num), _, hc.minute, by norm_num⟩
    | hour => exact ⟨hc.hour ▸ tick_sane (by norm_num), _, hc.hour, by norm_num⟩
    | day => exact ⟨hc.day ▸ tick_sane (by norm_num), _, hc.day, by norm_num⟩
    | month => simp [Delta.asked] at h
    | year => simp [Delta.asked] at h

/-- **C131 (length), partial.** A timestep of a number of days, a `timedelta` of whole days or a text with a number of seconds, minutes, hours or days: every timestep is as long as was asked for, to the nanosecond, and so is its number
of seconds. Missing: a `timedelta` that is not of whole days (`C131_timedelta_fails`). -/
theorem C131_length_partial (cal : Base → Units) (hc : Ticks cal) (a b : Int) (d : Delta) (hd : d.Positive) (hw : ∀ n r, d = .timedelta n r → r = 0) (len : Int) (hl : d.asked = some len) (s : State Freq)
    (h : create cal a b d = .ok s) : ∀ p ∈ s.periods, p.last + 1 - p.start = len ∧ p.seconds * 1000000000 = len := by
  obtain ⟨f, hf, hb, hn⟩ := freq_of hd
  have key : ∀ o, ((cal f.base).period f.n o).last + 1 - ((cal f.base).period f.n o).start = len ∧ ((cal f.base).period f.n o).seconds * 1000000000 = len := by
    intro o
    have e : ∀ l : Int, cal f.base = .tick l → l % 1000000000 = 0 → f.n * l = len →
        ((cal f.base).period f.n o).last + 1 - ((cal f.base).period f.n o).start = len ∧ ((cal f.base).period f.n o).seconds * 1000000000 = len := by
      intro l e1 e2 e3
      rw [e1]
      have e4 : (Units.tick l).begins (o + f.n) = o * l + f.n * l := by show (o + f.n) * l = _; ring
      have e5 : (Units.tick l).begins o = o * l := rfl
      unfold Period.seconds roundSeconds Units.period
      simp only [e4, e5]
      have : (f.n * l) % 1000000000 = 0 := by rw [Int.mul_emod, e2]; simp
      constructor
      · omega
      · omega
    cases d with
    | int n =>
      have hd : 0 < n := hd
      simp only [Delta.freq, not_le.2 hd, if_false] at hf
      cases hf
      simp only [Delta.asked, Option.some.injEq] at hl
      exact e _ hc.day (by norm_num) (by rw [← hl]; simp only; rw [Int.toNat_of_nonneg (by omega)])
    | timedelta n r =>
      have hd : 0 < n := hd
      have := hw n r rfl
      subst this
      simp only [Delta.freq, not_le.2 hd, if_false] at hf
      cases hf
      simp only [Delta.asked, Option.some.injEq] at hl
      exact e _ hc.day (by norm_num) (by rw [← hl]; simp only; rw [Int.toNat_of_nonneg (by omega)]; simp)
    | text base n =>
      have hd : 0 < n := hd
      simp only [Delta.freq, not_le.2 hd, if_false] at hf
      cases hf
      cases base with
      | second => simp only [Delta.asked, Option.some.injEq] at hl; exact e _ hc.second (by norm_num) (by rw [← hl]; simp only; rw [Int.toNat_of_nonneg (by omega)])
      | minute => simp only [Delta.asked, Option.some.injEq] at hl; exact e _ hc.minute (by norm_num) (by rw [← hl]; simp only; rw [Int.toNat_of_nonneg (by omega)])
      | hour => simp only [Delta.asked, Option.some.injEq] at hl; exact e _ hc.hour (by norm_num) (by rw [← hl]; simp only; rw [Int.toNat_of_nonneg (by omega)])
      | day => simp only [Delta.asked, Option.some.injEq] at hl; exact e _ hc.day (by norm_num) (by rw [← hl]; simp only; rw [Int.toNat_of_nonneg (by omega)])
      | month => simp [Delta.asked] at hl
      | year => simp [Delta.asked] at hl
  have hp := made_periods hf h
  intro p hp'
  rw [hp] at hp'
  obtain ⟨j, -, rfl⟩ := List.mem_map.1 hp'
  exact key _

/-- **C131 (number).** With timesteps of `n` days there is one for every `n` days from the day of the start to the day of the end, begun or complete. -/
theorem C131_number (cal : Base → Units) (hc : Ticks cal) (a b n : Int) (hn : 0 < n) (hab : a ≤ b) : ∃ s, create cal a b (.int n) = .ok s ∧ (s.periods.length : Int) = (b / 86400000000000 - a / 86400000000000) / n + 1 := by
  obtain ⟨s, -, -, h, -⟩ := C131_covers cal a b (.int n) hn (hc.day ▸ tick_sane (by norm_num)) hab
  refine ⟨s, h, ?_⟩
  have hf : (Delta.int n).freq = .ok ⟨.day, n.toNat⟩ := by simp [Delta.freq, not_le.2 hn]
  rw [made_periods hf h]
  show (((List.range _).map _).length : Int) = _
  rw [List.length_map, List.length_range]
  show ((((cal .day).ordinal b - (cal .day).ordinal a) / (n.toNat : Int) + 1).toNat : Int) = _
  rw [hc.day, Int.toNat_of_nonneg (by omega : 0 ≤ n)]
  show (((b / 86400000000000 - a / 86400000000000) / n + 1).toNat : Int) = _
  have : 0 ≤ (b / 86400000000000 - a / 86400000000000) / n := Int.ediv_nonneg (by omega) (by omega)
  omega

/-- **C131 (longer).** A run with a later end begins with the same timesteps. -/
theorem C131_longer (cal : Base → Units) (a b b' : Int) (d : Delta) (hd : d.Positive) (hs : (cal d.base).Sane) (hab : a ≤ b) (hbb : b ≤ b') :
    ∃ s s', create cal a b d = .ok s ∧ create cal a b' d = .ok s' ∧ s.periods <+: s'.periods := by
  obtain ⟨s, -, -, h, -⟩ := C131_covers cal a b d hd hs hab
  obtain ⟨s', -, -, h', -⟩ := C131_covers cal a b' d hd hs (hab.trans hbb)
  obtain ⟨f, hf, hb, hn⟩ := freq_of hd
  refine ⟨s, s', h, h', ?_⟩
  rw [made_periods hf h, made_periods hf h']
  show (List.range _).map _ <+: (List.range _).map _
  apply List.IsPrefix.map
  rw [List.prefix_iff_eq_take, List.take_range, List.length_range]
  congr 1
  rw [← hb] at hs
  have h1 := ordinal_mono hs hbb
  have : ((cal f.base).ordinal b - (cal f.base).ordinal a) / (f.n : Int) ≤ ((cal f.base).ordinal b' - (cal f.base).ordinal a) / f.n := Int.ediv_le_ediv (by exact_mod_cast hn) (by omega)
  omega

/-- **C131 (later).** A run that starts when one of the timesteps of another begins, with the same end and timestep, has the rest of its timesteps. -/
theorem C131_later (cal : Base → Units) (a b : Int) (d : Delta) (hd : d.Positive) (hs : (cal d.base).Sane) (s : State Freq) (h : create cal a b d = .ok s) (k : Nat) (p : Period) (hp : s.periods[k]? = some p) :
    ∃ s', create cal p.start b d = .ok s' ∧ s'.periods = s.periods.drop k := by
  obtain ⟨f, hf, hb, hn⟩ := freq_of hd
  rw [← hb] at hs
  have e := made_periods hf h
  rw [e] at hp
  have hp' : ((List.range (((cal f.base).ordinal b - (cal f.base).ordinal a) / f.n + 1).toNat).map fun (i : Nat) => (cal f.base).period f.n ((cal f.base).ordinal a + i * f.n))[k]? = some p := hp
  have hk : k < (((cal f.base).ordinal b - (cal f.base).ordinal a) / f.n + 1).toNat := by
    have := (List.getElem?_eq_some_iff.1 hp').1
    simpa using this
  rw [List.getElem?_map, List.getElem?_range hk, Option.map_some, Option.some.injEq] at hp'
  have ho : (cal f.base).ordinal p.start = (cal f.base).ordinal a + k * f.n := by rw [← hp']; exact ordinal_begins hs _
  have hn' : (0 : Int) < f.n := by exact_mod_cast hn
  have hdiv : ((cal f.base).ordinal b - ((cal f.base).ordinal a + k * f.n)) / (f.n : Int) = ((cal f.base).ordinal b - (cal f.base).ordinal a) / f.n - k := by
    rw [show (cal f.base).ordinal b - ((cal f.base).ordinal a + k * f.n) = (cal f.base).ordinal b - (cal f.base).ordinal a + (-k) * f.n by ring, Int.add_mul_ediv_right _ _ (by omega)]
    ring
  have hr : (pandas cal).periodRange p.start b f = ((pandas cal).periodRange a b f).drop k := by
    show (List.range _).map _ = ((List.range _).map _).drop k
    rw [← List.map_drop]
    show (List.range (((cal f.base).ordinal b - (cal f.base).ordinal p.start) / f.n + 1).toNat).map (fun (i : Nat) => (cal f.base).period f.n ((cal f.base).ordinal p.start + i * f.n)) = _
    rw [ho, hdiv, List.range_eq_range' (n := (((cal f.base).ordinal b - (cal f.base).ordinal a) / f.n + 1).toNat), List.drop_range', List.range'_eq_map_range, List.map_map]
    have e1 : (((cal f.base).ordinal b - (cal f.base).ordinal a) / (f.n : Int) - k + 1).toNat = (((cal f.base).ordinal b - (cal f.base).ordinal a) / f.n + 1).toNat - k := by omega
    rw [e1]
    refine List.map_congr_left fun i _ => ?_
    simp only [Function.comp_apply]
    congr 1
    push_cast
    ring
  cases hc : (pandas cal).periodRange p.start b f with
  | nil =>
    rw [hr] at hc
    have := congrArg List.length hc
    rw [List.length_drop] at this
    have h2 : ((pandas cal).periodRange a b f).length = (((cal f.base).ordinal b - (cal f.base).ordinal a) / f.n + 1).toNat := by
      show ((List.range _).map _).length = _
      rw [List.length_map, List.length_range]
    simp only [List.length_nil] at this
    omega
  | cons q qs =>
    have hq : GoodPeriod q := by
      have : q ∈ (pandas cal).periodRange p.start b f := by rw [hc]; simp
      obtain ⟨j, -, rfl⟩ := List.mem_map.1 this
      exact good hs hn _
    obtain ⟨s', h3, h4, -⟩ := created hf q qs hc hq
    exact ⟨s', h3, by rw [h4, ← hc, hr, e]⟩

/-- **C131 (refused).** A timestep that is not positive and an end before the start are refused, though the latter with an `IndexError`. -/
theorem C131_refused (cal : Base → Units) (hc : Ticks cal) (a b n : Int) :
    (n ≤ 0 → create cal a b (.int n) = .error .valueError) ∧ (0 < n → b / 86400000000000 < a / 86400000000000 → create cal a b (.int n) = .error .indexError) := by
  constructor
  · intro h; unfold create; simp [Delta.freq, h]
  · intro h hab
    have hr : (pandas cal).periodRange a b ⟨.day, n.toNat⟩ = [] := by
      show (List.range ((((cal .day).ordinal b - (cal .day).ordinal a) / (n.toNat : Int) + 1).toNat)).map _ = []
      rw [hc.day, Int.toNat_of_nonneg (by omega : 0 ≤ n)]
      show (List.range (((b / 86400000000000 - a / 86400000000000) / n + 1).toNat)).map _ = []
      have : (b / 86400000000000 - a / 86400000000000) / n < 0 := Int.ediv_neg_of_neg_of_pos (by omega) h
      rw [show ((b / 86400000000000 - a / 86400000000000) / n + 1).toNat = 0 by omega]
      rfl
    unfold create
    simp only [Delta.freq, not_le.2 h, if_false, State.setup, State.reset, hr, startIndex, List.getElem?_nil]

private theorem found (b : Int → Int) (hl : ∀ o, b o + 500000001 ≤ b (o + 1)) : ∃ ord, (Units.mk b ord).Sane := by
  have up : ∀ (o : Int) (k : Nat), b o + k * 500000001 ≤ b (o + k) := by
    intro o k
    induction k with
    | zero => simp
    | succ k ih =>
      have := hl (o + k)
      push_cast
      rw [← add_assoc]
      omega
  have ex : ∀ t, ∃ o, b o ≤ t ∧ t < b (o + 1) := by
    intro t
    obtain ⟨o, h1, h2⟩ := Int.exists_greatest_of_bdd (P := fun o => b o ≤ t) ⟨(t - b 0).natAbs, fun z hz => by
      by_contra hn
      have h3 : 0 ≤ z := by omega
      obtain ⟨k, rfl⟩ := Int.le.dest h3
      have := up 0 k
      omega⟩ ⟨-((t - b 0).natAbs : Int), by
      have := up (-((t - b 0).natAbs : Int)) (t - b 0).natAbs
      rw [neg_add_cancel] at this
      omega⟩
    refine ⟨o, h1, ?_⟩
    by_contra hn
    have := h2 (o + 1) (by omega)
    omega
  choose ord ho using ex
  exact ⟨ord, hl, ho⟩

private theorem year_long (o : Int) : Calendar.newYearNs (1970 + o) + 500000001 ≤ Calendar.newYearNs (1970 + (o + 1)) := by
  unfold Calendar.newYearNs Calendar.daysToYear
  omega

private theorem year_days (y : Int) : Calendar.newYearNs (y + 1) - Calendar.newYearNs y = 365 * 86400000000000 ∨ Calendar.newYearNs (y + 1) - Calendar.newYearNs y = 366 * 86400000000000 := by
  unfold Calendar.newYearNs Calendar.daysToYear
  omega

private theorem month_long (o : Int) : monthBegins o + 500000001 ≤ monthBegins (o + 1) := by
  have hr : 0 ≤ o % 12 ∧ o % 12 < 12 := by omega
  generalize hy : 1970 + o / 12 = y
  by_cases h : o % 12 = 11
  · have e1 : (o + 1) / 12 = o / 12 + 1 := by omega
    have e2 : (o + 1) % 12 = 0 := by omega
    unfold monthBegins
    rw [e1, e2, ← add_assoc, hy, h]
    have z : ∀ l, Calendar.daysBefore l (0 : Int).toNat.succ = 0 := fun l => by cases l <;> decide
    rw [z]
    rcases year_days y with h2 | h2
    · have t : Calendar.daysBefore (decide (Calendar.newYearNs (y + 1) - Calendar.newYearNs y = 366 * 86400000000000)) (11 : Int).toNat.succ = 334 := by
        rw [decide_eq_false (by omega)]; decide
      rw [t]; omega
    · have t : Calendar.daysBefore (decide (Calendar.newYearNs (y + 1) - Calendar.newYearNs y = 366 * 86400000000000)) (11 : Int).toNat.succ = 335 := by
        rw [decide_eq_true h2]; decide
      rw [t]; omega
  · have e1 : (o + 1) / 12 = o / 12 := by omega
    have e2 : (o + 1) % 12 = o % 12 + 1 := by omega
    unfold monthBegins
    rw [e1, e2, hy]
    have t : ∀ (l : Bool) (r : Nat), r < 11 → Calendar.daysBefore l r.succ + 1 ≤ Calendar.daysBefore l (r + 1).succ := by decide
    have h3 := t (decide (Calendar.newYearNs (y + 1) - Calendar.newYearNs y = 366 * 86400000000000)) (o % 12).toNat (by omega)
    rw [show (o % 12 + 1).toNat = (o % 12).toNat + 1 by omega]
    omega

/-- A calendar: bases of fixed length as they are, months and years where they begin. -/
theorem C131_calendar : ∃ cal : Base → Units, Ticks cal ∧ (∀ o, (cal .month).begins o = monthBegins o) ∧ (∀ o, (cal .year).begins o = Calendar.newYearNs (1970 + o)) ∧ ∀ b, (cal b).Sane := by
  obtain ⟨om, hm⟩ := found monthBegins month_long
  obtain ⟨oy, hy⟩ := found (fun o => Calendar.newYearNs (1970 + o)) year_long
  refine ⟨fun b => match b with
    | .second => .tick 1000000000
    | .minute => .tick 60000000000
    | .hour => .tick 3600000000000
    | .day => .tick 86400000000000
    | .month => ⟨monthBegins, om⟩
    | .year => ⟨fun o => Calendar.newYearNs (1970 + o), oy⟩, ⟨rfl, rfl, rfl, rfl⟩, fun _ => rfl, fun _ => rfl, fun b => ?_⟩
  cases b with
  | second => exact tick_sane (by norm_num)
  | minute => exact tick_sane (by norm_num)
  | hour => exact tick_sane (by norm_num)
  | day => exact tick_sane (by norm_num)
  | month => exact hm
  | year => exact hy

/-- **C131 fails for a `timedelta` with hours.** Timesteps of 36 hours are asked for; the timestepper makes timesteps of 24 hours and says nothing. Half a day is refused, although the text "12H" is not. -/
theorem C131_timedelta_fails (cal : Base → Units) (hc : Ticks cal) (a b : Int) (hab : a ≤ b) :
    (∃ s, create cal a b (.timedelta 1 43200000000000) = .ok s ∧ (Delta.timedelta 1 43200000000000).asked = some (36 * 3600000000000) ∧ ∀ p ∈ s.periods, p.last + 1 - p.start = 24 * 3600000000000) ∧
    (create cal a b (.timedelta 0 43200000000000)) = .error .valueError ∧ (Delta.timedelta 0 43200000000000).asked = (Delta.text .hour 12).asked ∧
      ∃ s, create cal a b (.text .hour 12) = .ok s ∧ ∀ p ∈ s.periods, p.last + 1 - p.start = 12 * 3600000000000 := by
  obtain ⟨s, -, -, h, -⟩ := C131_covers cal a b (.timedelta 1 43200000000000) (show (0 : Int) < 1 by norm_num) (hc.day ▸ tick_sane (by norm_num)) hab
  have h' : create cal a b (.timedelta 1 0) = .ok s := h
  obtain ⟨s2, -, -, h2, -⟩ := C131_covers cal a b (.text .hour 12) (show (0 : Int) < 12 by norm_num) (hc.hour ▸ tick_sane (by norm_num)) hab
  refine ⟨⟨s, h, by decide, fun p hp => ?_⟩, rfl, by decide, s2, h2, fun p hp => ?_⟩
  · exact (C131_length_partial cal hc a b (.timedelta 1 0) (show (0 : Int) < 1 by norm_num) (fun n r e => by cases e; rfl) _ rfl s h' p hp).1
  · exact (C131_length_partial cal hc a b (.text .hour 12) (show (0 : Int) < 12 by norm_num) (fun n r e => by cases e) _ rfl s2 h2 p hp).1

/-- Seconds to days as they are; months and years of 30 and 365 days, for the instances below. -/
private def plain : Base → Units
  | .second => .tick 1000000000
  | .minute => .tick 60000000000
  | .hour => .tick 3600000000000
  | .day => .tick 86400000000000
  | .month => .tick (30 * 86400000000000)
  | .year => .tick (365 * 86400000000000)

/-- From noon of the second of January 1970 to the tenth, in steps of four days: three timesteps, the first from the midnight before, the last beyond the end. -/
example : Ticks plain ∧ (Delta.int 4).Positive ∧ (∀ b, (plain b).Sane) ∧ (create plain 129600000000000 (9 * 86400000000000) (.int 4)).toOption.map (fun s => s.periods.map fun p => (p.start / 86400000000000, (p.last + 1) / 86400000000000)) =
    some [(1, 5), (5, 9), (9, 13)] :=
  ⟨⟨rfl, rfl, rfl, rfl⟩, show (0 : Int) < 4 by norm_num, fun b => by cases b <;> exact tick_sane (by norm_num), by decide +kernel⟩

end Verif.Timestepper

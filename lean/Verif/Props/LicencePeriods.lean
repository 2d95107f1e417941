import Verif.Proof.LicencePeriods
import Verif.Props.Replenish
import Mathlib.Data.List.Chain
/-!
# C116: what is used between two replenishments of a licence is what was there

Theorems about `Model/LicencePeriods.lean`.
-/

namespace Verif.VirtualStorage

open Verif.Bounds Verif.Storage

/-! ## The clocks -/

private theorem onOrAfter_iff {t : Stamp} {r : MonthDay} (h1 : t.day < 32) (h2 : r.day < 32) : t.onOrAfter r = true ↔ r.code ≤ t.code := by
  unfold Stamp.onOrAfter Stamp.code MonthDay.code code
  simp only [Bool.or_eq_true, Bool.and_eq_true, decide_eq_true_eq]
  omega

private theorem annual_last {c : AnnualCfg} {s : Annual} {t : Stamp} (h : t.onOrAfter c.date = true) : (s.before c t).1.lastReset = some t.year := by
  unfold Annual.before
  simp only [h, and_true]
  by_cases e : (if t.index = 0 ∧ t.strictlyAfter c.date = true then some t.year else s.lastReset) = some t.year
  · rw [if_neg (by simpa using e)]; exact e
  · rw [if_pos e]

private theorem annual_none {c : AnnualCfg} {s : Annual} {t : Stamp} (h : t.onOrAfter c.date = true → s.lastReset = some t.year) : (s.before c t).2 = .none := by
  unfold Annual.before
  dsimp only
  rw [if_neg]
  rintro ⟨h1, h2⟩
  rw [h h2, ite_self] at h1
  exact h1 rfl

private theorem annual_first {c : AnnualCfg} {s : Annual} {t : Stamp} (h0 : t.index = 0) (hp : c.mxIsParam = true) : (s.before c t).2 ≠ .reset false := by
  unfold Annual.before
  dsimp only
  generalize (if t.index = 0 ∧ t.strictlyAfter c.date = true then some t.year else s.lastReset) = last
  by_cases e : last ≠ some t.year ∧ t.onOrAfter c.date = true
  · rw [if_pos e, if_pos ⟨h0, hp⟩]; simp
  · rw [if_neg e]; simp

private theorem annual_active {c : AnnualCfg} {s : Annual} {t : Stamp} (h : s.active = true) : (s.before c t).1.active = true := by
  unfold Annual.before
  dsimp only
  generalize (if t.index = 0 ∧ t.strictlyAfter c.date = true then some t.year else s.lastReset) = last
  by_cases e : last ≠ some t.year ∧ t.onOrAfter c.date = true
  · rw [if_pos e]
  · rw [if_neg e]; exact h

private theorem seasonal_last {c : SeasonalCfg} {s : Seasonal} {t : Stamp} : (s.before c t).annual.lastReset = (s.annual.before c.toAnnualCfg t).1.lastReset := by
  unfold Seasonal.before
  dsimp only
  split_ifs <;> rfl

private theorem year_le {r : MonthDay} {t u : Stamp} (h : t.Le u) : licenceYear r t ≤ licenceYear r u := by
  unfold licenceYear
  rcases h with h | h <;> split_ifs <;> omega

private theorem year_same {r : MonthDay} {q t : Stamp} (hle : q.Le t) (h : licenceYear r q = licenceYear r t) (ht : r.code ≤ t.code) : r.code ≤ q.code ∧ q.year = t.year := by
  unfold licenceYear at h
  rw [if_pos ht] at h
  split_ifs at h with c
  · exact ⟨c, h⟩
  · rcases hle with hle | hle <;> omega

private theorem between_annual {c : AnnualCfg} (hd : c.date.day < 32) (ds : List Day) (hday : ∀ d ∈ ds, d.stamp.day < 32) (hch : ds.Pairwise fun a b => a.stamp.Le b.stamp) :
    ∀ (p : Option Stamp) (s : Annual), (∀ q, p = some q → q.day < 32 ∧ (∀ d ∈ ds, q.Le d.stamp) ∧ (q.onOrAfter c.date = true → s.lastReset = some q.year)) →
      Between (licenceYear c.date) p (.annual c s) ds := by
  induction ds with
  | nil => intro p s _; trivial
  | cons d ds ih =>
    intro p s hp
    obtain ⟨h1, h2⟩ := List.pairwise_cons.1 hch
    have hdd := hday d (by simp)
    refine ⟨fun q hq hl => ?_, ih (fun x hx => hday x (by simp [hx])) h2 _ _ fun q e => ?_⟩
    · obtain ⟨a1, a2, a3⟩ := hp q hq
      refine annual_none fun h => ?_
      obtain ⟨b1, b2⟩ := year_same (a2 d (by simp)) hl ((onOrAfter_iff hdd hd).1 h)
      rw [a3 ((onOrAfter_iff a1 hd).2 b1), b2]
    · cases e
      exact ⟨hdd, h1, fun h => annual_last h⟩

private theorem between_seasonal {c : SeasonalCfg} (hd : c.date.day < 32) (ds : List Day) (hday : ∀ d ∈ ds, d.stamp.day < 32) (hch : ds.Pairwise fun a b => a.stamp.Le b.stamp) :
    ∀ (p : Option Stamp) (s : Seasonal), (∀ q, p = some q → q.day < 32 ∧ (∀ d ∈ ds, q.Le d.stamp) ∧ (q.onOrAfter c.date = true → s.annual.lastReset = some q.year)) →
      Between (licenceYear c.date) p (.seasonal c s) ds := by
  induction ds with
  | nil => intro p s _; trivial
  | cons d ds ih =>
    intro p s hp
    obtain ⟨h1, h2⟩ := List.pairwise_cons.1 hch
    have hdd := hday d (by simp)
    refine ⟨fun q hq hl => ?_, ih (fun x hx => hday x (by simp [hx])) h2 _ _ fun q e => ?_⟩
    · obtain ⟨a1, a2, a3⟩ := hp q hq
      refine annual_none fun h => ?_
      obtain ⟨b1, b2⟩ := year_same (a2 d (by simp)) hl ((onOrAfter_iff hdd hd).1 h)
      rw [a3 ((onOrAfter_iff a1 hd).2 b1), b2]
    · cases e
      exact ⟨hdd, h1, fun h => by rw [seasonal_last]; exact annual_last h⟩

/-- Months follow each other without a gap. -/
private def NextMonth (a b : Stamp) : Prop := monthNumber b = monthNumber a ∨ monthNumber b = monthNumber a + 1

private theorem between_monthly {months init : Int} {u : Bool} (h1 : 1 ≤ months) (first : Stamp) (ds : List Day)
    (hmon : ∀ d ∈ ds, 1 ≤ d.stamp.month ∧ d.stamp.month ≤ 12) :
    (∀ (q : Stamp) (s : Monthly), 1 ≤ q.month ∧ q.month ≤ 12 → List.IsChain NextMonth (q :: ds.map Day.stamp) → s.lastMonth = some q.month →
      s.count = (init + (monthNumber q - monthNumber first)) % months → Between (licencePeriod months init first) (some q) (.monthly months u s) ds) := by
  induction ds with
  | nil => intro q s _ _ _ _; trivial
  | cons d ds ih =>
    intro q s hq hc hl hn
    have hdm := hmon d (by simp)
    rw [List.map_cons, List.isChain_cons_cons] at hc
    obtain ⟨hn1, hc⟩ := hc
    set X := init + (monthNumber q - monthNumber first) with hX
    have hsame : d.stamp.month = q.month → monthNumber d.stamp = monthNumber q := by
      intro e
      unfold NextMonth monthNumber at hn1
      unfold monthNumber
      rw [e] at hn1 ⊢
      omega
    have hdiff : d.stamp.month ≠ q.month → monthNumber d.stamp = monthNumber q + 1 := by
      intro e
      rcases hn1 with h | h
      · unfold monthNumber at h; omega
      · exact h
    have tick : (s.before months d.stamp.month) = if d.stamp.month = q.month then (s, false)
        else if s.count + 1 = months then (⟨0, some d.stamp.month⟩, true) else (⟨s.count + 1, some d.stamp.month⟩, false) := by
      unfold Monthly.before
      rw [hl]
      by_cases e : d.stamp.month = q.month
      · simp [e]
      · rw [if_neg e, if_pos (by simpa using Ne.symm e)]
    have hm0 : 0 ≤ X % months := Int.emod_nonneg _ (by omega)
    have hm1 : X % months < months := Int.emod_lt_of_pos _ (by omega)
    have hdm' : months * (X / months) + X % months = X := Int.mul_ediv_add_emod X months
    refine ⟨fun q' e hlab => ?_, ih (fun x hx => hmon x (by simp [hx])) d.stamp _ hdm hc ?_ ?_⟩
    · cases e
      simp only [Clock.tick, tick]
      by_cases e : d.stamp.month = q.month
      · simp [e]
      · rw [if_neg e]
        by_cases hc : s.count + 1 = months
        · exfalso
          have e1 := hdiff e
          unfold licencePeriod at hlab
          have : init + (monthNumber d.stamp - monthNumber first) = X + 1 := by rw [hX, e1]; ring
          rw [this, ← hX] at hlab
          have : X + 1 = months * (X / months + 1) := by
            rw [mul_add, mul_one]; rw [hn] at hc; omega
          rw [this, Int.mul_ediv_cancel_left _ (by omega)] at hlab
          omega
        · rw [if_neg hc]; simp
    · simp only [tick]
      by_cases e : d.stamp.month = q.month
      · rw [if_pos e, e]; exact hl
      · rw [if_neg e]; split_ifs <;> rfl
    · simp only [tick]
      by_cases e : d.stamp.month = q.month
      · rw [if_pos e, hsame e]; exact hn
      · have : init + (monthNumber d.stamp - monthNumber first) = X + 1 := by rw [hX, hdiff e]; ring
        rw [if_neg e, this]
        by_cases hc : s.count + 1 = months
        · rw [if_pos hc]
          have : X + 1 = months * (X / months + 1) := by rw [mul_add, mul_one]; rw [hn] at hc; omega
          rw [this]
          simp
        · rw [if_neg hc]
          have : X + 1 = (X % months + 1) + months * (X / months) := by omega
          rw [this, Int.add_mul_emod_self_left, Int.emod_eq_of_lt (by omega) (by rw [hn] at hc; omega), ← hn]

/-! ## Runs -/

private theorem reset_good {i : Storage.Initial} {mx mn : Rat} (h : Fixed i mx mn) {im : Int} {n0 n : Node} (e : n0.reset i im = .ok n) :
    Good i mx mn true n ∧ n.clock = n0.clock.reset im := by
  obtain ⟨v, hv, h1, h2⟩ := h.initial
  obtain ⟨p, hp⟩ := pc_ok h hv
  simp only [Node.reset, Storage.reset, resetStorageOnly, if_true, hv, hp] at e
  cases e
  exact ⟨⟨h1, h2, fun c => by cases c⟩, rfl⟩

private theorem spent_all {tol : Rat} {i : Storage.Initial} (sel : Stamp → Bool) (P : Clock → Prop) (hP : ∀ c t, P c → P (c.tick t).1) (ha : ∀ c, P c → c.active = true)
    (ds : List Day) : ∀ n : Node, P n.clock → Obeys tol i n ds → spent i sel n ds = ((ds.filter fun d => sel d.stamp).map Day.used).sum := by
  induction ds with
  | nil => intro n _ _; rfl
  | cons d ds ih =>
    intro n hn ho
    obtain ⟨b, eb, -, -, -, ho⟩ := ho
    have hb : b.clock = (n.clock.tick d.stamp).1 := by
      unfold Node.before at eb
      split at eb
      · cases eb; rfl
      · split at eb <;> cases eb
        rfl
    have hb : P b.clock := by rw [hb]; exact hP _ _ hn
    simp only [spent, eb]
    rw [ih (b.after i d) hb ho, ha _ hb]
    by_cases c : sel d.stamp = true
    · simp [c]
    · simp [c]

/-- **C116 (annual licences).** In every run in which the flows respect the constraints of the solver, no more is used in any year of the licence, which begins on the date of the reset, than
the volume of the licence; up to 1e-6 for every timestep of that year. -/
theorem C116_annual {tol : Rat} {i : Storage.Initial} {mx mn : Rat} (h : Fixed i mx mn) {c : AnnualCfg} (hc : c.mxIsParam = isParam i) (hd : c.date.day < 32)
    {n0 n : Node} {s0 : Annual} {im : Int} (h0 : n0.clock = .annual c s0) (hn : n0.reset i im = .ok n) (ds : List Day)
    (hmn : ∀ d ∈ ds, d.mn = mn ∧ (mx - mn) / d.days < dblMax ∧ d.stamp.day < 32) (hfirst : ∀ d, ds.head? = some d → d.stamp.index = 0)
    (hch : ds.Pairwise fun a b => a.stamp.Le b.stamp) (ho : Obeys tol i n ds) (y : Int) :
    ((ds.filter fun d => decide (licenceYear c.date d.stamp = y)).map Day.used).sum ≤
      mx - mn + (ds.filter fun d => decide (licenceYear c.date d.stamp = y)).length * e6 := by
  obtain ⟨g, ec⟩ := reset_good h hn
  rw [h0] at ec
  have hb : Between (licenceYear c.date) none n.clock ds := by
    rw [ec]
    exact between_annual hd ds (fun d hd => (hmn d hd).2.2) hch none _ (fun q e => by cases e)
  have := (spent_le h (licenceYear c.date) y ds (hch.imp year_le) (fun d hd => ⟨(hmn d hd).1, (hmn d hd).2.1⟩) none n g (fun d e _ hp => by
    rw [ec]
    exact annual_first (hfirst d e) (hc.trans hp)) (fun q e => by cases e) hb ho).1
  rw [spent_all (fun t => decide (licenceYear c.date t = y)) (fun k => ∃ s, k = .annual c s ∧ s.active = true)
    (fun k t ⟨s, e, a⟩ => ⟨(s.before c t).1, by rw [e]; rfl, annual_active a⟩) (fun k ⟨s, e, a⟩ => by rw [e]; exact a) ds n ⟨_, ec, rfl⟩ ho] at this
  exact this

/-- **C116 (seasonal licences).** The same for a licence that is in force for a season only; what is used outside it does not count. -/
theorem C116_seasonal {tol : Rat} {i : Storage.Initial} {mx mn : Rat} (h : Fixed i mx mn) {c : SeasonalCfg} (hc : c.mxIsParam = isParam i) (hd : c.date.day < 32)
    {n0 n : Node} {s0 : Seasonal} {im : Int} (h0 : n0.clock = .seasonal c s0) (hn : n0.reset i im = .ok n) (ds : List Day)
    (hmn : ∀ d ∈ ds, d.mn = mn ∧ (mx - mn) / d.days < dblMax ∧ d.stamp.day < 32) (hfirst : ∀ d, ds.head? = some d → d.stamp.index = 0)
    (hch : ds.Pairwise fun a b => a.stamp.Le b.stamp) (ho : Obeys tol i n ds) (y : Int) :
    spent i (fun t => decide (licenceYear c.date t = y)) n ds ≤
      mx - mn + (ds.filter fun d => decide (licenceYear c.date d.stamp = y)).length * e6 := by
  obtain ⟨g, ec⟩ := reset_good h hn
  rw [h0] at ec
  have hb : Between (licenceYear c.date) none n.clock ds := by
    rw [ec]
    exact between_seasonal hd ds (fun d hd => (hmn d hd).2.2) hch none _ (fun q e => by cases e)
  exact (spent_le h (licenceYear c.date) y ds (hch.imp year_le) (fun d hd => ⟨(hmn d hd).1, (hmn d hd).2.1⟩) none n g (fun d e _ hp => by
    rw [ec]
    exact annual_first (hfirst d e) (hc.trans hp)) (fun q e => by cases e) hb ho).1

private theorem spent_season {tol : Rat} {i : Storage.Initial} {c : SeasonalCfg} (sel : Stamp → Bool) (ds : List Day) : ∀ (n : Node) (s : Seasonal), n.clock = .seasonal c s → Obeys tol i n ds →
    (∀ (k : Nat) (hk : k < ds.length), (Seasonal.runFrom c s ((ds.map Day.stamp).take (k + 1))).annual.active = true ↔ InSeason c ds[k].stamp) →
    spent i sel n ds = ((ds.filter fun d => sel d.stamp && decide (InSeason c d.stamp)).map Day.used).sum := by
  induction ds with
  | nil => intro n s _ _ _; rfl
  | cons d ds ih =>
    intro n s hn ho hk
    obtain ⟨b, eb, -, -, -, ho⟩ := ho
    have hb : b.clock = .seasonal c (s.before c d.stamp) := by
      have : b.clock = (n.clock.tick d.stamp).1 := by
        unfold Node.before at eb
        split at eb
        · cases eb; rfl
        · split at eb <;> cases eb
          rfl
      rw [this, hn]; rfl
    have h0 : b.clock.active = true ↔ InSeason c d.stamp := by
      rw [hb]
      exact hk 0 (by simp)
    simp only [spent, eb]
    rw [ih (b.after i d) (s.before c d.stamp) hb ho fun k h => hk (k + 1) (by simpa using h)]
    simp only [h0]
    by_cases c1 : sel d.stamp = true <;> by_cases c2 : InSeason c d.stamp <;> simp [c1, c2]

/-- **C116 (seasonal licences, by date).** Under the conditions under which a seasonal licence is in force exactly in its season (C17), what counts is exactly what is used in the season, and in every
season that is no more than the volume of the licence; up to 1e-6 for every timestep of that year. Partial for the sake of those conditions. -/
theorem C116_season_partial {tol : Rat} {i : Storage.Initial} {mx mn : Rat} (h : Fixed i mx mn) {c : SeasonalCfg} (hc : c.mxIsParam = isParam i) (hd : c.date.day < 32)
    (he : c.endDate.day < 32) (hne : c.date.code ≠ c.endDate.code)
    {n0 n : Node} {s0 : Seasonal} {im : Int} (h0 : n0.clock = .seasonal c s0) (hn : n0.reset i im = .ok n) (d0 : Day) (ds : List Day)
    (hmn : ∀ d ∈ d0 :: ds, d.mn = mn ∧ (mx - mn) / d.days < dblMax ∧ d.stamp.day < 32) (hidx0 : d0.stamp.index = 0) (hidx : ∀ d ∈ ds, d.stamp.index ≠ 0)
    (hch : (d0 :: ds).Pairwise fun a b => a.stamp.Le b.stamp) (hfine : List.IsChain (FineStep c) ((d0 :: ds).map Day.stamp))
    (hla : s0.lastActive ≠ some d0.stamp.year) (hin : InSeason c d0.stamp ∨ d0.stamp.code < c.endDate.code) (ho : Obeys tol i n (d0 :: ds)) (y : Int) :
    spent i (fun t => decide (licenceYear c.date t = y)) n (d0 :: ds) =
        (((d0 :: ds).filter fun d => decide (licenceYear c.date d.stamp = y) && decide (InSeason c d.stamp)).map Day.used).sum ∧
      (((d0 :: ds).filter fun d => decide (licenceYear c.date d.stamp = y) && decide (InSeason c d.stamp)).map Day.used).sum ≤
        mx - mn + ((d0 :: ds).filter fun d => decide (licenceYear c.date d.stamp = y)).length * e6 := by
  obtain ⟨g, ec⟩ := reset_good h hn
  rw [h0] at ec
  have key := spent_season (fun t => decide (licenceYear c.date t = y)) (d0 :: ds) n s0.reset ec ho fun k hk => by
    have := C17_partial c s0 d0.stamp (ds.map Day.stamp) hd he hne
      (fun t ht => by
        rw [← List.map_cons] at ht
        obtain ⟨d, hd, rfl⟩ := List.mem_map.1 ht
        exact (hmn d hd).2.2)
      hidx0 (fun t ht => by obtain ⟨d, hd, rfl⟩ := List.mem_map.1 ht; exact hidx d hd) hfine hla hin k (by simpa using hk)
    simpa only [← List.map_cons, List.getElem_map] using this
  refine ⟨key, ?_⟩
  rw [← key]
  exact C116_seasonal h hc hd h0 hn (d0 :: ds) hmn (fun d e => by cases e; exact hidx0) hch ho y

/-- **C116 (monthly licences, partial).** The same for a licence for a number of months, in a run that visits every month. Missing: a maximum volume that is a parameter together with as many initial months as
the licence has, for which it is false (`C116_first_fails`). -/
theorem C116_monthly_partial {tol : Rat} {i : Storage.Initial} {mx mn : Rat} (h : Fixed i mx mn) {months im : Int} {u : Bool} (h0 : 0 ≤ im) (h1 : 1 ≤ months) (h2 : im ≤ months)
    (hpar : isParam i = true → im ≠ months) {n0 n : Node} {s0 : Monthly} (hk : n0.clock = .monthly months u s0) (hn : n0.reset i im = .ok n) (d0 : Day) (ds : List Day)
    (hmn : ∀ d ∈ d0 :: ds, d.mn = mn ∧ (mx - mn) / d.days < dblMax ∧ 1 ≤ d.stamp.month ∧ d.stamp.month ≤ 12)
    (hch : List.IsChain (fun a b => monthNumber b = monthNumber a ∨ monthNumber b = monthNumber a + 1) ((d0 :: ds).map Day.stamp)) (ho : Obeys tol i n (d0 :: ds)) (y : Int) :
    (((d0 :: ds).filter fun d => decide (licencePeriod months im d0.stamp d.stamp = y)).map Day.used).sum ≤
      mx - mn + ((d0 :: ds).filter fun d => decide (licencePeriod months im d0.stamp d.stamp = y)).length * e6 := by
  obtain ⟨g, ec⟩ := reset_good h hn
  rw [hk] at ec
  have hmono : (d0 :: ds).Pairwise fun a b => licencePeriod months im d0.stamp a.stamp ≤ licencePeriod months im d0.stamp b.stamp := by
    have h3 : List.IsChain (fun a b => monthNumber a ≤ monthNumber b) ((d0 :: ds).map Day.stamp) := hch.imp fun a b hab => by omega
    have h4 : ((d0 :: ds).map Day.stamp).Pairwise fun a b => monthNumber a ≤ monthNumber b := by
      have : IsTrans Stamp fun a b => monthNumber a ≤ monthNumber b := ⟨fun a b c => le_trans⟩
      exact List.isChain_iff_pairwise.1 h3
    rw [List.pairwise_map] at h4
    refine h4.imp fun {a b} hab => ?_
    unfold licencePeriod
    exact Int.ediv_le_ediv (by omega) (by omega)
  have tick0 : (Monthly.init im).before months d0.stamp.month = if im = months then (⟨0, some d0.stamp.month⟩, true) else (⟨im, some d0.stamp.month⟩, false) := by
    unfold Monthly.before Monthly.init
    rw [if_pos (by simp)]
    simp
  have hb : Between (licencePeriod months im d0.stamp) none n.clock (d0 :: ds) := by
    rw [ec]
    refine ⟨fun q e => (by cases e), ?_⟩
    refine between_monthly h1 d0.stamp ds (fun d hd => (hmn d (by simp [hd])).2.2) d0.stamp _ (hmn d0 (by simp)).2.2 hch ?_ ?_
    · rw [tick0]; split_ifs <;> rfl
    · rw [tick0]
      split_ifs with e
      · simp [e]
      · simp [Int.emod_eq_of_lt h0 (show im < months by omega)]
  have := (spent_le h (licencePeriod months im d0.stamp) y (d0 :: ds) hmono (fun d hd => ⟨(hmn d hd).1, (hmn d hd).2.1⟩) none n g (fun d e _ hp => by
    cases e
    rw [ec]
    simp only [Clock.reset, Clock.tick, tick0]
    rw [if_neg (hpar hp)]
    simp) (fun q e => by cases e) hb ho).1
  rw [spent_all (fun t => decide (licencePeriod months im d0.stamp t = y)) (fun k => ∃ s, k = .monthly months u s)
    (fun k t ⟨s, e⟩ => ⟨(s.before months t.month).1, by rw [e]; rfl⟩) (fun k ⟨s, e⟩ => by rw [e]; rfl) (d0 :: ds) n ⟨_, ec⟩ ho] at this
  exact this

/-- **C116 (what is there).** In a timestep in which the volume is replenished it is the initial volume, if that was asked for, or else the maximum volume: the number, or what the parameter was
worth in the timestep before. In any other timestep it is what was left. -/
theorem C116_replenished {i : Storage.Initial} {v : Rat} (hv : getInitialVolume i = .ok v) {n b : Node} {t : Stamp} (e : n.before i t = .ok b) :
    b.store.volume = match (n.clock.tick t).2 with
      | .none => n.store.volume
      | .reset true => v
      | .reset false => match i.mx with | .number m => m | _ => n.held := by
  unfold Node.before at e
  cases ha : (n.clock.tick t).2 with
  | none => rw [ha] at e; cases e; rfl
  | reset u =>
    rw [ha] at e
    cases u with
    | true =>
      simp only [resetStorageOnly, if_true, hv] at e
      cases hp : getInitialPc i with
      | error x => rw [hp] at e; cases e
      | ok p => rw [hp] at e; cases e; rfl
    | false =>
      simp only [resetStorageOnly, Bool.false_eq_true, if_false] at e
      cases e
      unfold Node.heldMax
      cases i.mx <;> rfl

/-- **C116 (fraction).** In a timestep in which the volume is replenished up to the maximum, the fraction reported is one (it is undefined if the maximum is zero). In a timestep in which it is not replenished the fraction
does not change. -/
theorem C116_fraction {i : Storage.Initial} {n b : Node} {t : Stamp} (e : n.before i t = .ok b) :
    ((n.clock.tick t).2 = .none → b.store.pc = n.store.pc) ∧
    ((n.clock.tick t).2 = .reset false → b.store.pc = if b.store.volume = 0 then none else some 1) := by
  unfold Node.before at e
  refine ⟨fun ha => ?_, fun ha => ?_⟩
  · rw [ha] at e; cases e; rfl
  · rw [ha] at e
    simp only [resetStorageOnly, Bool.false_eq_true, if_false] at e
    cases e
    simp only [fraction]
    split
    · rfl
    · rename_i h; rw [div_self h]

/-- **C116 (out of season).** In a timestep in which the licence is not in force its flow reads zero, and its volume and fraction stay, whatever its nodes use. -/
theorem C116_idle {i : Storage.Initial} {n b : Node} {t : Stamp} (e : n.before i t = .ok b) (hb : b.clock.active = false) (d : Day) :
    (b.after i d).store.flow = 0 ∧ (b.after i d).store.volume = b.store.volume ∧ (b.after i d).store.pc = b.store.pc := by
  have hf : b.store.flow = 0 := by
    unfold Node.before at e
    cases ha : (n.clock.tick t).2 with
    | none => rw [ha] at e; cases e; rfl
    | reset u =>
      rw [ha] at e
      simp only at e
      cases hs : Storage.resetStorageOnly i u (n.heldMax i) n.store.before with
      | error x => rw [hs] at e; cases e
      | ok st =>
        rw [hs] at e
        cases e
        show st.flow = 0
        unfold Storage.resetStorageOnly at hs
        split at hs
        · split at hs <;> first | (cases hs; rfl) | (simp at hs)
        · cases hs; rfl
  unfold Node.after VState.after
  rw [if_neg (by rw [hb]; exact Bool.false_ne_true)]
  exact ⟨hf, rfl, rfl⟩

/-- **C116 (the licence can be used).** While it is in force, the constraint admits every use up to what is left of it (1e-8 a day and less may be rounded to nothing). -/
theorem C116_allowed {v mx mn days u : Rat} (hlt : mn < mx) (hd : 0 < days) (hu : 0 ≤ u) (h : u * days ≤ v - mn) (hlo : e8 ≤ (v - mn) / days) :
    (vRow true v mx mn days).Admits (-u) := by
  have e8p : (0 : Rat) < e8 := by unfold e8; norm_num
  have hv : 0 ≤ v - mn := le_trans (mul_nonneg hu hd.le) h
  unfold vRow storageRow
  rw [if_neg (by linarith), if_neg (by simp), if_neg (by linarith), max_eq_left hv]
  dsimp only
  have n1 : ¬ |(-(v - mn)) / days| < e8 := by rw [neg_div, abs_neg, abs_of_nonneg (div_nonneg hv hd.le)]; linarith
  rw [if_neg n1]
  have y1 : -(v - mn) / days ≤ -u := by rw [div_le_iff₀ hd]; linarith
  have hub : 0 ≤ max (mx - v) 0 / days := div_nonneg (le_max_right _ _) hd.le
  have hub : 0 ≤ if |max (mx - v) 0 / days| < e8 then 0 else max (mx - v) 0 / days := by split_ifs <;> [exact le_refl _; exact hub]
  generalize (if |max (mx - v) 0 / days| < e8 then 0 else max (mx - v) 0 / days) = ub at hub ⊢
  have n3 : ¬ |-(v - mn) / days - ub| < e8 := by
    rw [abs_sub_comm, abs_of_nonneg (by rw [neg_div]; have := e8p.le.trans hlo; linarith), neg_div]
    linarith
  unfold constraintType
  simp only [n3, if_false]
  split_ifs <;> simp only [Row.Admits, y1, true_and] <;> linarith

/-- The licence of the examples: 10 a year from the first of October, given as a number, with 4 at the start. -/
private def ten : Storage.Initial := ⟨some 4, none, .number 10⟩

private def use (t : Stamp) (q : Rat) : Day := ⟨t, 1, 10, 0, [⟨1, q⟩]⟩

private theorem ten_fixed : Fixed ten 10 0 := ⟨.inl rfl, ⟨4, rfl, by norm_num, by norm_num⟩, .inr (by unfold e6; norm_num)⟩

private def october : AnnualCfg := ⟨⟨10, 1⟩, false, false⟩

/-- C116: three timesteps, of which the second begins a year of the licence; 4 are used before, 10 afterwards, and nothing else would have been allowed. -/
example : ∃ n, Node.reset ten 0 ⟨.annual october Annual.init, ⟨0, 0, 0, none⟩, 0⟩ = .ok n ∧
    Obeys 0 ten n [use ⟨0, 2015, 9, 30⟩ 4, use ⟨1, 2015, 10, 1⟩ 3, use ⟨2, 2015, 10, 2⟩ 7] ∧
    licenceYear october.date ⟨0, 2015, 9, 30⟩ = 2014 ∧ licenceYear october.date ⟨1, 2015, 10, 1⟩ = 2015 := by
  refine ⟨_, rfl, ?_, by decide +kernel, by decide +kernel⟩
  refine ⟨_, rfl, by decide +kernel, by decide +kernel, ⟨-4, by decide +kernel, by decide +kernel⟩, _, rfl, by decide +kernel, by decide +kernel, ⟨-3, by decide +kernel, by decide +kernel⟩,
    _, rfl, by decide +kernel, by decide +kernel, ⟨-7, by decide +kernel, by decide +kernel⟩, trivial⟩

/-- C116: a season from April to September of 2015. The licence of 10 is used up in it; 50 are taken outside it. -/
example : ∃ n, Node.reset ten 0 ⟨.seasonal ⟨⟨⟨4, 1⟩, false, false⟩, ⟨10, 1⟩⟩ Seasonal.new, ⟨0, 0, 0, none⟩, 0⟩ = .ok n ∧
    Obeys 0 ten n [use ⟨0, 2015, 3, 31⟩ 50, use ⟨1, 2015, 4, 1⟩ 3, use ⟨2, 2015, 9, 30⟩ 7, use ⟨3, 2015, 10, 1⟩ 50] := by
  refine ⟨_, rfl, ?_⟩
  refine ⟨_, rfl, by decide +kernel, by decide +kernel, ⟨-50, by decide +kernel, by decide +kernel⟩, _, rfl, by decide +kernel, by decide +kernel, ⟨-3, by decide +kernel, by decide +kernel⟩,
    _, rfl, by decide +kernel, by decide +kernel, ⟨-7, by decide +kernel, by decide +kernel⟩, _, rfl, by decide +kernel, by decide +kernel, ⟨-50, by decide +kernel, by decide +kernel⟩, trivial⟩

/-- After the season the licence is not in force. -/
example : (((Node.before ten ⟨.seasonal ⟨⟨⟨4, 1⟩, false, false⟩, ⟨10, 1⟩⟩ Seasonal.new, ⟨4, 3, 3, none⟩, 0⟩ ⟨0, 2015, 4, 1⟩).toOption.bind fun b =>
    (Node.before ten b ⟨1, 2015, 10, 1⟩).toOption).map fun b => b.clock.active) = some false := by decide +kernel

/-- **C116 fails** for a maximum volume that changes: it is replenished to what the maximum was in the timestep before. Here the licence is for 100 in 2000 and for 10 in 2001, and 100 are used on the
first of January 2001. -/
theorem C116_stale_fails : ∃ (i : Storage.Initial) (c : AnnualCfg) (n : Node) (ds : List Day), i.mx = .varyingParam ∧ c.date = ⟨1, 1⟩ ∧ c.mxIsParam = true ∧
    Node.reset i 0 ⟨.annual c Annual.init, ⟨0, 0, 0, none⟩, 0⟩ = .ok n ∧ Obeys 0 i n ds ∧
    (∀ d ∈ ds, d.mn = 0 ∧ (licenceYear c.date d.stamp = 2001 → d.mx = 10)) ∧ ((ds.filter fun d => decide (licenceYear c.date d.stamp = 2001)).map Day.used).sum = 100 := by
  refine ⟨⟨some 100, some 1, .varyingParam⟩, ⟨⟨1, 1⟩, false, true⟩, _, [⟨⟨0, 2000, 12, 31⟩, 1, 100, 0, [⟨1, 0⟩]⟩, ⟨⟨1, 2001, 1, 1⟩, 1, 10, 0, [⟨1, 100⟩]⟩], rfl, rfl, rfl, rfl, ?_, ?_, ?_⟩
  · refine ⟨_, rfl, by decide +kernel, by decide +kernel, ⟨0, by decide +kernel, by decide +kernel⟩, _, rfl, by decide +kernel, by decide +kernel, ⟨-100, by decide +kernel, by decide +kernel⟩, trivial⟩
  · decide +kernel
  · decide +kernel

/-- **C116 fails** for a monthly licence that is as many months old at the start as it lasts, with a maximum volume that is a parameter: it is replenished in the first timestep, before the parameter has
been computed, to whatever the memory contains. (The annual class takes the initial volume then.) Here the licence is for 10, and 1000 are used. -/
theorem C116_first_fails : ∃ (i : Storage.Initial) (n : Node) (ds : List Day), i.mx = .constantParam 10 ∧ getInitialVolume i = .ok 10 ∧
    Node.reset i 1 ⟨.monthly 1 false (Monthly.init 1), ⟨0, 0, 0, none⟩, 1000⟩ = .ok n ∧ Obeys 0 i n ds ∧
    (∀ d ∈ ds, d.mn = 0 ∧ d.mx = 10) ∧ (ds.map Day.used).sum = 1000 := by
  refine ⟨⟨some 10, none, .constantParam 10⟩, _, [⟨⟨0, 2000, 1, 1⟩, 1, 10, 0, [⟨1, 1000⟩]⟩], rfl, rfl, rfl, ?_, ?_, ?_⟩
  · exact ⟨_, rfl, by decide +kernel, by decide +kernel, ⟨-1000, by decide +kernel, by decide +kernel⟩, trivial⟩
  · decide +kernel
  · decide +kernel

end Verif.VirtualStorage

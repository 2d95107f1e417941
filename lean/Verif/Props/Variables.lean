import Verif.Spec.Variables
import Verif.Props.Profiles
import Verif.Props.Optimisation
import Mathlib.Data.List.Chain
import Mathlib.Tactic.FieldSimp
/-! # C67: variables of parameters -/

namespace Verif.Vars

open Verif.Opt Verif.Profiles Verif.Calendar

private theorem diffs_chain (l : List Int) : diffs (0 < ·) l = true ↔ l.Pairwise (· < ·) := by
  rw [← List.isChain_iff_pairwise]
  induction l with
  | nil => simp [diffs]
  | cons a l ih =>
    cases l with
    | nil => simp [diffs]
    | cons b l =>
      rw [diffs, Bool.and_eq_true, ih, List.isChain_cons_cons]
      simp

/-- **C67 (days of the year).** Exactly the sensible days of the year are accepted: the first of January first, at least three,
increasing, none after day 365. -/
theorem C67_days (p : Rbf) (x : List Int) :
    (∃ p', p.setDays x = some p' ∧ p'.getDays = x ∧ p'.values = p.values) ↔ GoodDays (1 :: x) := by
  have key : daysAccepted (1 :: x) = true ↔ GoodDays (1 :: x) := by
    unfold daysAccepted
    simp only [List.head?_cons, decide_true, Bool.true_and, Bool.and_eq_true, decide_eq_true_eq, List.all_eq_true, diffs_chain]
    constructor
    · rintro ⟨⟨h1, h2⟩, h3⟩
      refine ⟨rfl, h1, ?_, fun v hv => (h3 v hv).2⟩
      intro i j a b hij ha hb
      obtain ⟨hi, rfl⟩ := List.getElem?_eq_some_iff.1 ha
      obtain ⟨hj, rfl⟩ := List.getElem?_eq_some_iff.1 hb
      exact List.pairwise_iff_getElem.1 h2 i j hi hj hij
    · rintro ⟨-, h1, h2, h3⟩
      refine ⟨⟨h1, ?_⟩, fun v hv => ⟨?_, h3 v hv⟩⟩
      · rw [List.pairwise_iff_getElem]
        intro i j hi hj hij
        exact h2 i j _ _ hij (List.getElem?_eq_getElem hi) (List.getElem?_eq_getElem hj)
      · obtain ⟨i, hi, rfl⟩ := List.getElem_of_mem hv
        cases i with
        | zero => simp
        | succ i => have := h2 0 (i + 1) 1 _ (by omega) rfl (List.getElem?_eq_getElem hi); omega
  unfold Rbf.setDays
  rw [← key]
  by_cases h : daysAccepted (1 :: x) = true
  · rw [if_pos h]
    exact iff_of_true ⟨_, rfl, rfl, rfl⟩ h
  · rw [if_neg h]
    exact iff_of_false (fun ⟨_, h, _⟩ => nomatch h) h

/-! ## Control curves: several writes -/

private theorem wrap_some {n : Nat} {i : Int} (h : -(n : Int) ≤ i ∧ i < n) : ∃ k, wrap n i = some k ∧ k < n := by
  unfold wrap
  by_cases hi : i < 0
  · simp only [hi, if_true]
    rw [if_pos (by omega)]
    exact ⟨_, rfl, by omega⟩
  · simp only [hi, if_false]
    rw [if_pos (by omega)]
    exact ⟨_, rfl, by omega⟩

private theorem some_of_if {p : Prop} [Decidable p] {a k : Nat} (h : (if p then some a else none) = some k) : p ∧ a = k := by
  by_cases hp : p
  · rw [if_pos hp] at h; exact ⟨hp, Option.some.inj h⟩
  · rw [if_neg hp] at h; cases h

private theorem wrap_eq {n k : Nat} {i j : Int} (hi : wrap n i = some k) (hj : wrap n j = some k) : i = j ∨ i = j + n ∨ j = i + n := by
  unfold wrap at hi hj
  by_cases h1 : i < 0 <;> by_cases h2 : j < 0 <;> simp only [h1, h2, if_true, if_false] at hi hj <;>
    (have a1 := some_of_if hi; have a2 := some_of_if hj; omega)

private theorem setAt_ok : ∀ (is : List Int) (vs values : List Rat), is.length = vs.length →
    (∀ i ∈ is, -(values.length : Int) ≤ i ∧ i < values.length) →
    ∃ r, setAt is vs values = some r ∧ r.length = values.length ∧
      (∀ k, (∀ i ∈ is, wrap values.length i ≠ some k) → r[k]? = values[k]?) ∧
      ∀ (a : Nat) (i : Int) (v : Rat) (k : Nat), is[a]? = some i → vs[a]? = some v → wrap values.length i = some k →
        (∀ (b : Nat) (j : Int), a < b → is[b]? = some j → wrap values.length j ≠ some k) → r[k]? = some v := by
  intro is
  induction is with
  | nil => intro vs values _ _; exact ⟨values, by cases vs <;> rfl, rfl, fun _ _ => rfl, fun a i v k h => by simp at h⟩
  | cons i is ih =>
    intro vs values hl hi
    cases vs with
    | nil => simp at hl
    | cons v vs =>
      obtain ⟨k0, hk0, hlt⟩ := wrap_some (hi i List.mem_cons_self)
      obtain ⟨r, h1, h2, h3, h4⟩ := ih vs (values.set k0 v) (by simpa using hl)
        (fun j hj => by rw [List.length_set]; exact hi j (List.mem_cons_of_mem _ hj))
      rw [List.length_set] at h2 h3 h4
      refine ⟨r, by rw [setAt, hk0]; exact h1, h2, ?_, ?_⟩
      · intro k hk
        rw [h3 k fun j hj => hk j (List.mem_cons_of_mem _ hj), List.getElem?_set_ne]
        rintro rfl
        exact hk i List.mem_cons_self hk0
      · intro a j w k ha hw hwr hlater
        cases a with
        | zero =>
          simp only [List.getElem?_cons_zero, Option.some.injEq] at ha hw
          subst ha hw
          rw [hk0] at hwr
          cases hwr
          rw [h3 k0, List.getElem?_set_self hlt]
          intro j hj hjw
          obtain ⟨b, hb, rfl⟩ := List.getElem_of_mem hj
          exact hlater (b + 1) _ (by omega) (by rw [List.getElem?_cons_succ, List.getElem?_eq_getElem hb]) hjw
        | succ a =>
          exact h4 a j w k (by simpa using ha) (by simpa using hw) hwr fun b j hab hb =>
            hlater (b + 1) j (by omega) (by simpa using hb)

private theorem get_some (values : List Rat) : ∀ is : List Int, (∀ i ∈ is, -(values.length : Int) ≤ i ∧ i < values.length) →
    ∃ d, is.mapM (fun i => (wrap values.length i).bind fun k => values[k]?) = some d ∧ d.length = is.length ∧
      ∀ (a : Nat) (i : Int) (k : Nat), is[a]? = some i → wrap values.length i = some k → d[a]? = values[k]? := by
  intro is
  induction is with
  | nil => intro _; exact ⟨[], rfl, rfl, by simp⟩
  | cons i is ih =>
    intro h
    obtain ⟨k, hk, hlt⟩ := wrap_some (h i List.mem_cons_self)
    obtain ⟨d, h1, h2, h3⟩ := ih fun j hj => h j (List.mem_cons_of_mem _ hj)
    refine ⟨values[k] :: d, ?_, by simp [h2], ?_⟩
    · rw [List.mapM_cons, h1, hk]
      simp [List.getElem?_eq_getElem hlt]
    · intro a j k' ha hw
      cases a with
      | zero =>
        simp only [List.getElem?_cons_zero, Option.some.injEq] at ha
        subst ha
        rw [hk] at hw; cases hw
        rw [List.getElem?_cons_zero, List.getElem?_eq_getElem hlt]
      | succ a => exact h3 a j k' (by simpa using ha) hw

private theorem curve_set_get (p : Curve) (hok : (Par.curve p).Ok) (hd : (Par.curve p).Distinct) (x : List Rat) (hx : x.length = p.indices.length) :
    ∃ p', p.set x = some p' ∧ p'.get = some x ∧ p'.indices = p.indices ∧ p'.values.length = p.values.length := by
  obtain ⟨r, h1, h2, -, h4⟩ := setAt_ok p.indices x p.values hx.symm hok
  unfold Curve.set
  rw [if_neg (by simp [hx]), h1]
  refine ⟨_, rfl, ?_, rfl, h2⟩
  obtain ⟨d, e1, e2, e3⟩ := get_some r p.indices (by rw [h2]; exact hok)
  unfold Curve.get
  simp only
  rw [e1]
  congr 1
  apply List.ext_getElem?
  intro a
  rcases Nat.lt_or_ge a p.indices.length with ha | ha
  · have hia := List.getElem?_eq_getElem ha
    obtain ⟨k, hk, -⟩ := wrap_some (hok _ (List.getElem_mem ha))
    rw [e3 a _ k hia (by rw [h2]; exact hk)]
    have hxa := List.getElem?_eq_getElem (l := x) (i := a) (by omega)
    rw [hxa]
    refine h4 a _ _ k hia hxa hk fun b j hab hb hw => ?_
    have d1 := hd a b _ j (by omega) hia hb
    have d2 := hd b a j _ (by omega) hb hia
    rcases wrap_eq hk hw with e | e | e
    · exact d1.1 e
    · exact d1.2 e
    · exact d2.2 e
  · rw [List.getElem?_eq_none (by omega), List.getElem?_eq_none (by omega)]

private theorem curve_set_current (p : Curve) (hok : (Par.curve p).Ok) (d : List Rat) (hd : p.get = some d) : p.set d = some p := by
  obtain ⟨d', e1, e2, e3⟩ := get_some p.values p.indices hok
  unfold Curve.get at hd
  rw [hd] at e1; cases e1
  unfold Curve.set
  rw [if_neg (by simp [e2])]
  suffices h : ∀ (is : List Int) (d : List Rat), is.length = d.length → (∀ i ∈ is, -(p.values.length : Int) ≤ i ∧ i < p.values.length) →
      (∀ (a : Nat) (i : Int) (k : Nat), is[a]? = some i → wrap p.values.length i = some k → d[a]? = p.values[k]?) → setAt is d p.values = some p.values by
    rw [h p.indices d e2.symm hok e3]; rfl
  intro is
  induction is with
  | nil => intro d _ _ _; cases d <;> rfl
  | cons i is ih =>
    intro d hl hi hg
    cases d with
    | nil => simp at hl
    | cons v d =>
      obtain ⟨k, hk, hlt⟩ := wrap_some (hi i List.mem_cons_self)
      have := hg 0 i k rfl hk
      rw [List.getElem?_cons_zero, List.getElem?_eq_getElem hlt] at this
      rw [setAt, hk]
      simp only [Option.bind_some]
      have hv : v = p.values[k] := Option.some.inj this
      rw [hv, List.set_getElem_self]
      exact ih d (by simpa using hl) (fun j hj => hi j (List.mem_cons_of_mem _ hj)) fun a j k' ha hw => hg (a + 1) j k' (by simpa using ha) hw

/-! ## Every parameter -/

private theorem assignAll_eq {dst src : List Rat} (h : src.length = dst.length) : assignAll dst src = some src := by
  unfold assignAll; rw [if_pos h]

private theorem harmonic_slices (m : Rat) (a f : List Rat) : slice ([m] ++ a ++ f) 1 (a.length + 1) = a ∧ ([m] ++ a ++ f).drop (a.length + 1) = f := by
  constructor
  · simp [slice]
  · simp

/-- **C67 (set and get).** Setting as many doubles as a parameter has is accepted, and the parameter then returns exactly these;
integers, sizes and well-formedness stay.  (For a control curve: if its variable indices address different values.) -/
theorem C67_set_get (p : Par) (hp : p.Ok) (hd : p.Distinct) (x : List Rat) (hx : x.length = p.dsize) :
    ∃ p', p.setDoubles x = some p' ∧ p'.doubles = some x ∧ p'.ints = p.ints ∧ p'.dsize = p.dsize ∧ p'.isize = p.isize ∧
      p'.Ok ∧ p'.Distinct := by
  have one : ∀ x : List Rat, x.length = 1 → ∃ v, x = [v] := fun x h => List.length_eq_one_iff.1 h
  cases p with
  | const p => obtain ⟨v, rfl⟩ := one x hx; exact ⟨_, rfl, rfl, rfl, rfl, rfl, trivial, trivial⟩
  | offset w => obtain ⟨v, rfl⟩ := one x hx; exact ⟨_, rfl, rfl, rfl, rfl, rfl, trivial, trivial⟩
  | binary w o => obtain ⟨v, rfl⟩ := one x hx; exact ⟨_, rfl, rfl, rfl, rfl, rfl, trivial, trivial⟩
  | rectifier w a b u => obtain ⟨v, rfl⟩ := one x hx; exact ⟨_, rfl, rfl, rfl, rfl, rfl, trivial, trivial⟩
  | harmonic p =>
    have hp : p.amplitudes.length = p.phases.length := hp
    have hx : x.length = 1 + 2 * p.amplitudes.length := hx
    obtain ⟨m, x, rfl⟩ : ∃ m y, x = m :: y := by cases x with
      | nil => simp at hx; omega
      | cons m y => exact ⟨m, y, rfl⟩
    rw [List.length_cons] at hx
    have hsl : slice (m :: x) 1 (p.amplitudes.length + 1) = x.take p.amplitudes.length := by simp [slice]
    have hdr : (m :: x).drop (p.amplitudes.length + 1) = x.drop p.amplitudes.length := by simp
    have e1 : (x.take p.amplitudes.length).length = p.amplitudes.length := by simp; omega
    have e2 : (x.drop p.amplitudes.length).length = p.phases.length := by simp; omega
    refine ⟨.harmonic { p with mean := m, amplitudes := x.take p.amplitudes.length, phases := x.drop p.amplitudes.length }, ?_, ?_, rfl, ?_, rfl, ?_, trivial⟩
    · simp only [Par.setDoubles, Harmonic.set, hsl, hdr, assignAll_eq e1, assignAll_eq e2]
      rfl
    · simp [Par.doubles, Harmonic.get]
    · simp only [Par.dsize, e1]
    · show (x.take _).length = (x.drop _).length
      rw [e1, e2, hp]
  | monthly p =>
    have hp : p.values.length = 12 := hp
    have hx : x.length = 12 := hx
    refine ⟨.monthly { p with values := x }, ?_, rfl, rfl, rfl, rfl, hx, trivial⟩
    simp [Par.setDoubles, Monthly.set, assignAll_eq (hx.trans hp.symm)]
  | rbf p =>
    have hx : x.length = p.values.length := hx
    obtain ⟨h1, h2, h3⟩ := hp
    refine ⟨.rbf { p with values := x }, ?_, rfl, rfl, hx, rfl, ⟨h1, hx.trans h2, ?_⟩, trivial⟩
    · simp [Par.setDoubles, Rbf.setValues, assignAll_eq hx]
    · simp only [hx]; exact h3
  | curve p =>
    obtain ⟨p', h1, h2, h3, h4⟩ := curve_set_get p hp hd x hx
    refine ⟨.curve p', by simp [Par.setDoubles, h1], h2, rfl, by simp [Par.dsize, h3], rfl, ?_, ?_⟩
    · show ∀ i ∈ p'.indices, _; rw [h3, h4]; exact hp
    · show ∀ a b i j, _; rw [h3, h4]; exact hd

/-- **C67 (current values).** Every parameter returns its variables, and setting what it returned changes nothing. -/
theorem C67_set_current (p : Par) (hp : p.Ok) :
    (∃ d, p.doubles = some d ∧ d.length = p.dsize ∧ p.setDoubles d = some p) ∧ p.ints.length = p.isize ∧
      (0 < p.isize → p.setInts p.ints = some p) := by
  refine ⟨?_, ?_, ?_⟩
  · cases p with
    | const p => exact ⟨_, rfl, rfl, rfl⟩
    | offset w => exact ⟨_, rfl, rfl, rfl⟩
    | binary w o => exact ⟨_, rfl, rfl, rfl⟩
    | rectifier w a b u => exact ⟨_, rfl, rfl, rfl⟩
    | harmonic p =>
      have hp : p.amplitudes.length = p.phases.length := hp
      refine ⟨_, rfl, ?_, ?_⟩
      · simp [Harmonic.get, Par.dsize, hp]; omega
      · simp only [Par.setDoubles, Harmonic.set, Harmonic.get, (harmonic_slices _ _ _).1, (harmonic_slices _ _ _).2, assignAll_eq rfl]
        rfl
    | monthly p =>
      have hp : p.values.length = 12 := hp
      exact ⟨_, rfl, hp, by simp [Par.setDoubles, Monthly.set, assignAll_eq rfl]⟩
    | rbf p => exact ⟨_, rfl, rfl, by simp [Par.setDoubles, Rbf.setValues, assignAll_eq rfl]⟩
    | curve p =>
      obtain ⟨d, e1, e2, -⟩ := get_some p.values p.indices hp
      exact ⟨d, e1, e2, by simp [Par.setDoubles, curve_set_current p hp d e1]⟩
  · cases p with
    | rbf p =>
      obtain ⟨h1, h2, h3⟩ := hp
      show (if p.isize > 0 then p.getDays else []).length = p.isize
      by_cases h : p.isize > 0
      · rw [if_pos h, Rbf.getDays, List.length_tail]; omega
      · rw [if_neg h]; simp; omega
    | _ => rfl
  · intro hpos
    cases p with
    | rbf p =>
      obtain ⟨h1, h2, h3⟩ := hp
      show (p.setDays (if p.isize > 0 then p.getDays else [])).map Par.rbf = _
      have hpos : p.isize > 0 := hpos
      rw [if_pos hpos]
      have hcons : 1 :: p.getDays = p.days := by
        have := h1.first
        unfold Rbf.getDays
        cases hd : p.days with
        | nil => rw [hd] at this; simp at this
        | cons a l => rw [hd] at this; simp at this; simp [this]
      obtain ⟨p', e1, e2, -⟩ := (C67_days p p.getDays).2 (by rw [hcons]; exact h1)
      unfold Rbf.setDays at e1 ⊢
      by_cases h : daysAccepted (1 :: p.getDays) = true
      · rw [if_pos h, hcons]; rfl
      · rw [if_neg h] at e1; cases e1
    | _ => exact absurd hpos (Nat.lt_irrefl 0)

/-! ## The wrapper's view -/

/-- **C67 (what the wrapper sees).** Handing a parameter its part of a decision vector does what C66 assumes of a variable: the
doubles are taken as they are, the integers rounded, whenever the parameter accepts these days. -/
theorem C67_view (p : Par) (hp : p.Ok) (hd : p.Distinct) (d : List Rat) (hdd : p.doubles = some d) (dr ir : List Range) (x : List Rat)
    (hx : x.length = p.dsize + p.isize) (hdays : 0 < p.isize → GoodDays (1 :: (x.drop p.dsize).map rint)) :
    ∃ p' d', p.assign x = some p' ∧ p'.Ok ∧ p'.doubles = some d' ∧ (p.view d dr ir).set x = some (p'.view d' dr ir) := by
  have step1 : ∃ p1, (if p.dsize > 0 then p.setDoubles (x.take p.dsize) else some p) = some p1 ∧
      p1.doubles = some (if p.dsize > 0 then x.take p.dsize else d) ∧ p1.ints = p.ints ∧ p1.dsize = p.dsize ∧ p1.isize = p.isize ∧ p1.Ok := by
    by_cases h : p.dsize > 0
    · obtain ⟨p1, h1, h2, h3, h4, h5, h6, -⟩ := C67_set_get p hp hd (x.take p.dsize) (by rw [List.length_take]; omega)
      exact ⟨p1, by rw [if_pos h, h1], by rw [if_pos h, h2], h3, h4, h5, h6⟩
    · exact ⟨p, by rw [if_neg h], by rw [if_neg h, hdd], rfl, rfl, rfl, hp⟩
  obtain ⟨p1, e1, e2, e3, e4, e5, e6⟩ := step1
  have hlen : x.length - p.isize = p.dsize := by omega
  unfold Par.assign
  rw [e1]
  simp only [Option.bind_some, e5, hlen]
  have hset : (p.view d dr ir).set x = some { p.view d dr ir with
      doubles := if p.dsize > 0 then x.take p.dsize else d
      ints := if p.isize > 0 then (x.drop p.dsize).map rint else p.ints } := by
    unfold Var.set
    rw [if_neg (by simp [Par.view, hx])]
    simp only [Par.view, hlen]
    rfl
  rw [hset]
  by_cases hi : p.isize > 0
  · simp only [if_pos hi]
    cases p1 with
    | rbf q =>
      have hq : q.isize = p.isize := e5
      obtain ⟨q', f1, f2, f3⟩ := (C67_days q _).2 (hdays hi)
      have f4 : q' = { q with days := 1 :: (x.drop p.dsize).map rint } := by
        unfold Rbf.setDays at f1
        by_cases h : daysAccepted (1 :: (x.drop p.dsize).map rint) = true
        · rw [if_pos h] at f1; exact (Option.some.inj f1).symm
        · rw [if_neg h] at f1; cases f1
      refine ⟨.rbf q', _, by simp only [Par.setInts, f1]; rfl, ?_, by rw [← e2]; simp [Par.doubles, f4], ?_⟩
      · obtain ⟨g1, g2, g3⟩ := e6
        subst f4
        refine ⟨hdays hi, ?_, g3⟩
        simp only [List.length_cons, List.length_map, List.length_drop]
        have := g1.three
        rcases g3 with g3 | g3 <;> omega
      · subst f4
        have hd : p.dsize = q.values.length := e4.symm
        simp only [Par.view, ← e5, ← e4]
        congr 2
        show (x.drop _).map rint = if q.isize > 0 then (x.drop _).map rint else []
        rw [if_pos (hq ▸ hi), e4]
    | _ => rw [← e5] at hi; exact absurd hi (Nat.lt_irrefl 0)
  · simp only [if_neg hi]
    exact ⟨p1, _, rfl, e6, e2, by simp [Par.view, e3, e4, e5]⟩

/-! ## Bounds of the days -/

private theorem between (lo hi x : List Int) (hl : lo.length = x.length) (hh : hi.length = x.length) (hap : apart lo hi = true)
    (hx : ∀ (i : Nat) (l v h : Int), lo[i]? = some l → x[i]? = some v → hi[i]? = some h → l ≤ v ∧ v ≤ h) : diffs (0 < ·) x = true := by
  induction x generalizing lo hi with
  | nil => rfl
  | cons v x ih =>
    cases x with
    | nil => rfl
    | cons w x =>
      match lo, hi, hl, hh with
      | l1 :: l2 :: lo, u1 :: u2 :: hi, hl, hh =>
        rw [apart, Bool.and_eq_true, decide_eq_true_eq] at hap
        have a := hx 0 _ _ _ rfl rfl rfl
        have b := hx 1 _ _ _ rfl rfl rfl
        rw [diffs, Bool.and_eq_true, decide_eq_true_eq]
        exact ⟨by omega, ih (l2 :: lo) (u2 :: hi) (by simpa using hl) (by simpa using hh) hap.2 fun i l v h e1 e2 e3 =>
          hx (i + 1) l v h (by simpa using e1) (by simpa using e2) (by simpa using e3)⟩

private theorem good_of_between (lo hi x : List Int) (hl : lo.length = x.length) (hh : hi.length = x.length) (hap : apart lo hi = true)
    (hlen : 2 ≤ x.length) (hlo : ∀ l, lo[0]? = some l → 1 < l) (hhi : ∀ h ∈ hi, h ≤ 365)
    (hx : ∀ (i : Nat) (l v h : Int), lo[i]? = some l → x[i]? = some v → hi[i]? = some h → l ≤ v ∧ v ≤ h) : GoodDays (1 :: x) := by
  have hch := (diffs_chain x).1 (between lo hi x hl hh hap hx)
  have hall : (1 :: x).Pairwise (· < ·) := by
    refine List.pairwise_cons.2 ⟨?_, hch⟩
    match x, lo, hi, hlen, hl, hh with
    | v :: x, l :: lo, h :: hi, _, _, _ =>
      have a := hx 0 _ _ _ rfl rfl rfl
      have b := hlo l rfl
      have c := (List.pairwise_cons.1 hch).1
      intro w hw
      rcases List.mem_cons.1 hw with rfl | hw
      · omega
      · have := c w hw; omega
  refine ⟨rfl, by simp; omega, ?_, ?_⟩
  · intro i j a b hij ha hb
    obtain ⟨hi, rfl⟩ := List.getElem?_eq_some_iff.1 ha
    obtain ⟨hj, rfl⟩ := List.getElem?_eq_some_iff.1 hb
    exact List.pairwise_iff_getElem.1 hall i j hi hj hij
  · intro v hv
    rcases List.mem_cons.1 hv with rfl | hv
    · omega
    · obtain ⟨i, hi', rfl⟩ := List.getElem_of_mem hv
      have a := hx i _ _ _ (List.getElem?_eq_getElem (by omega)) (List.getElem?_eq_getElem hi') (List.getElem?_eq_getElem (by omega))
      have b := hhi _ (List.getElem_mem (l := hi) (n := i) (by omega))
      omega

private theorem create_some {p : Rbf} {days : List Int} {values : List Rat} {range : Int} {lo hi : Option (List Int)} {a b : Option Rat}
    (h : Rbf.create days values range lo hi a b = some p) : days.length = values.length ∧ daysAccepted days = true := by
  unfold Rbf.create at h
  by_cases h1 : days.length ≠ values.length
  · rw [if_pos h1] at h; cases h
  · rw [if_neg h1] at h
    by_cases h2 : daysAccepted days = true
    · exact ⟨not_not.1 h1, h2⟩
    · rw [if_pos (by simpa using h2)] at h; cases h

private theorem accepted_cons {days : List Int} (h : daysAccepted days = true) : days = 1 :: days.tail ∧ 3 ≤ days.length := by
  unfold daysAccepted at h
  simp only [Bool.and_eq_true, decide_eq_true_eq] at h
  cases days with
  | nil => simp at h
  | cons a l => simp only [List.head?_cons, Option.some.injEq] at h; simp [h.1.1.1]; simpa using h.1.1.2

/-- **C67 (days within explicit bounds).** A profile constructed with explicit bounds for its days, one pair for each variable
day, accepts every choice of days within these bounds, and returns them. -/
theorem C67_bounds (days : List Int) (values : List Rat) (range : Int) (lo hi : List Int) (a b : Option Rat) (p : Rbf)
    (h : Rbf.create days values range (some lo) (some hi) a b = some p) (hlo : lo.length = p.isize) (hhi : hi.length = p.isize)
    (x : List Int) (hx : x.length = p.isize)
    (hin : ∀ (i : Nat) (l v u : Int), lo[i]? = some l → x[i]? = some v → hi[i]? = some u → l ≤ v ∧ v ≤ u) :
    ∃ p', p.setDays x = some p' ∧ p'.getDays = x ∧ p'.values = p.values := by
  obtain ⟨c1, c2⟩ := create_some h
  obtain ⟨-, c3⟩ := accepted_cons c2
  rw [C67_days]
  unfold Rbf.create at h
  rw [if_neg (not_not.2 c1), if_neg (by simp [c2])] at h
  simp only at h
  by_cases h1 : lo.any (· ≤ 1) = true
  · rw [if_pos h1] at h; cases h
  rw [if_neg h1] at h
  by_cases h2 : hi.any (365 < ·) = true
  · rw [if_pos h2] at h; cases h
  rw [if_neg h2] at h
  by_cases h3 : apart lo hi = true
  swap
  · rw [if_pos (by simpa using h3)] at h; cases h
  rw [if_neg (by simp [h3])] at h
  cases h
  simp only at hlo hhi hx
  refine good_of_between lo hi x (hlo.trans hx.symm) (hhi.trans hx.symm) h3 (by omega) ?_ ?_ hin
  · intro l hl
    by_contra hc
    exact h1 (List.any_eq_true.2 ⟨l, List.mem_of_getElem? hl, by simpa using hc⟩)
  · intro u hu
    by_contra hc
    exact h2 (List.any_eq_true.2 ⟨u, hu, by simpa using hc⟩)

private theorem apart_of_diffs (r : Int) : ∀ l : List Int, diffs (2 * r < ·) l = true → apart (l.map (· - r)) (l.map (· + r)) = true
  | [], _ => rfl
  | [_], _ => rfl
  | a :: b :: l, h => by
    rw [diffs, Bool.and_eq_true, decide_eq_true_eq] at h
    simp only [List.map_cons]
    rw [apart, Bool.and_eq_true, decide_eq_true_eq]
    exact ⟨by omega, by simpa using apart_of_diffs r (b :: l) h.2⟩

/-- **C67 (days within a range), partial.** A profile constructed with `variable_days_of_year_range` accepts every choice of
days within the bounds it declares, provided no declared upper bound is after day 365.  Without this it need not:
`C67_range_fails`. -/
theorem C67_range_partial (days : List Int) (values : List Rat) (range : Int) (hr : 0 < range) (a b : Option Rat) (p : Rbf)
    (h : Rbf.create days values range none none a b = some p) (hlast : ∀ u ∈ p.highDays, u ≤ 365) (x : List Int) (hx : x.length = p.isize)
    (hin : ∀ (i : Nat) (l v u : Int), p.lowDays[i]? = some l → x[i]? = some v → p.highDays[i]? = some u → l ≤ v ∧ v ≤ u) :
    ∃ p', p.setDays x = some p' ∧ p'.getDays = x ∧ p'.values = p.values := by
  obtain ⟨c1, c2⟩ := create_some h
  obtain ⟨c4, c3⟩ := accepted_cons c2
  rw [C67_days]
  unfold Rbf.create at h
  rw [if_neg (not_not.2 c1), if_neg (by simp [c2])] at h
  simp only [if_pos hr] at h
  by_cases h3 : diffs (2 * range < ·) days = true
  swap
  · rw [if_pos (by simpa using h3)] at h; cases h
  rw [if_neg (by simp [h3])] at h
  cases h
  simp only at hlast hx hin
  have c5 : days.tail.length = x.length := by rw [List.length_tail]; omega
  rw [c4] at h3
  obtain ⟨d, l, hdl⟩ : ∃ d l, days.tail = d :: l := by
    cases hh : days.tail with
    | nil => rw [hh] at c5; simp at c5; omega
    | cons d l => exact ⟨d, l, rfl⟩
  rw [hdl, diffs, Bool.and_eq_true, decide_eq_true_eq] at h3
  refine good_of_between _ _ x (by simpa using c5) (by simpa using c5) (apart_of_diffs range _ (by rw [hdl]; exact h3.2)) (by omega) ?_ hlast hin
  intro v hv
  rw [hdl] at hv
  simp at hv
  omega

/-- **C67 (number of days).** The days are variables exactly if bounds for them or a range are given, and then all but the first; there is one bound of either kind for each if a range is given. -/
theorem C67_days_count (days : List Int) (values : List Rat) (range : Int) (lo hi : Option (List Int)) (a b : Option Rat) (p : Rbf)
    (h : Rbf.create days values range lo hi a b = some p) :
    (p.isize = if (lo.isSome ∧ hi.isSome) ∨ 0 < range then days.length - 1 else 0) ∧
      (¬ (lo.isSome ∧ hi.isSome) → p.lowDays.length = p.isize ∧ p.highDays.length = p.isize) := by
  have hl : days.length = values.length := by
    by_contra hc
    unfold Rbf.create at h
    rw [if_pos hc] at h; cases h
  unfold Rbf.create at h
  rw [if_neg (by simpa using hl)] at h
  split at h
  · cases h
  · cases lo with
    | none =>
      simp only at h
      split at h
      · split at h
        · cases h
        · cases h; simp [*]
      · cases h; simp; omega
    | some l =>
      cases hi with
      | none =>
        simp only at h
        split at h
        · split at h
          · cases h
          · cases h; simp [*]
        · cases h; simp; omega
      | some u =>
        simp only at h
        split at h
        · cases h
        · split at h
          · cases h
          · split at h
            · cases h
            · cases h; simp [hl]

/-- **C67 fails (days beyond the year).** The bounds declared by `variable_days_of_year_range` can lie beyond day 365: the
constructor accepts the days 1, 100 and 360 with a range of ten days, declares the bounds 350 to 370 for the last one, and the
assignment of 370 during an optimisation raises an exception. -/
theorem C67_range_fails : ∃ (p : Rbf) (x : List Int), Rbf.create [1, 100, 360] [1, 2, 3] 10 none none none none = some p ∧ x.length = p.isize ∧
    (∀ (i : Nat) (l v u : Int), p.lowDays[i]? = some l → x[i]? = some v → p.highDays[i]? = some u → l ≤ v ∧ v ≤ u) ∧ p.setDays x = none := by
  refine ⟨⟨[1, 2, 3], [1, 100, 360], 2, [90, 350], [110, 370], none, none⟩, [100, 370], by decide +kernel, rfl, ?_, by decide +kernel⟩
  rintro (_ | _ | i) l v u h1 h2 h3
  all_goals simp at h1 h2 h3
  all_goals omega

/-- **C67 fails (too few bounds).** The number of explicit bounds of the days is not checked: the constructor accepts two
lower and upper bounds for three variable days, and asking for the types of the variables raises an IndexError. -/
theorem C67_bounds_length_fails : ∃ p : Rbf, Rbf.create [1, 100, 200, 300] [1, 2, 3, 4] 0 (some [90, 190]) (some [110, 210]) none none = some p ∧
    p.lowDays.length < p.isize ∧
    makeTypes [(Par.rbf p).view p.values (List.replicate 4 ⟨some 0, none⟩) (List.zipWith (fun a b => ⟨some a, some b⟩) p.lowDays p.highDays)] = none :=
  ⟨⟨[1, 2, 3, 4], [1, 100, 200, 300], 3, [90, 190], [110, 210], none, none⟩, by decide +kernel, by decide +kernel, by decide +kernel⟩

/-- **C67 fails (repeated index).** A control curve with the same variable index twice does not return what was set. -/
theorem C67_curve_duplicate_fails : ∃ (p p' : Curve) (x : List Rat), (Par.curve p).Ok ∧ x.length = (Par.curve p).dsize ∧ p.set x = some p' ∧ p'.get ≠ some x := by
  refine ⟨⟨[1, 2, 3], [0, -3]⟩, ⟨[20, 2, 3], [0, -3]⟩, [10, 20], ?_, rfl, by decide +kernel, by decide +kernel⟩
  intro i hi
  simp at hi
  rcases hi with rfl | rfl <;> simp

/-- **C67 (control curve).** Values that no variable index addresses never change. -/
theorem C67_curve_others (p p' : Curve) (hp : (Par.curve p).Ok) (x : List Rat) (h : p.set x = some p') (k : Nat)
    (hk : ∀ i ∈ p.indices, i ≠ k ∧ i + p.values.length ≠ k) : p'.values[k]? = p.values[k]? := by
  unfold Curve.set at h
  by_cases hx : x.length = p.indices.length
  swap
  · rw [if_pos hx] at h; cases h
  rw [if_neg (not_not.2 hx)] at h
  obtain ⟨r, h1, -, h3, -⟩ := setAt_ok p.indices x p.values hx.symm hp
  rw [h1] at h
  cases h
  apply h3
  intro i hi hw
  have := hk i hi
  unfold wrap at hw
  by_cases h1 : i < 0 <;> simp only [h1, if_true, if_false] at hw <;> (have a1 := some_of_if hw; omega)

/-! ## Values -/

/-- **C67 (knots).** The days of the interpolation are increasing and surround the year: the last day is repeated one year
earlier and the first two one year later, with the same values. -/
theorem C67_knots (p : Rbf) (hp : (Par.rbf p).Ok) :
    p.knotDays.length = p.knotValues.length ∧ p.knotDays.Pairwise (· < ·) ∧
    (∃ last, p.days.getLast? = some last ∧ p.knotDays[0]? = some (last - 365) ∧ p.knotValues[0]? = p.values.getLast?) ∧
    (∀ i < p.days.length, p.knotDays[i + 1]? = p.days[i]? ∧ p.knotValues[i + 1]? = p.values[i]?) ∧
    ∀ i < 2, (∃ d, p.days[i]? = some d ∧ p.knotDays[p.days.length + 1 + i]? = some (d + 365)) ∧ p.knotValues[p.days.length + 1 + i]? = p.values[i]? := by
  obtain ⟨⟨h1, h2, h3, h4⟩, h5, -⟩ := hp
  obtain ⟨values, days, z, lo, hi, mn, mx⟩ := p
  simp only at h1 h2 h3 h4 h5
  match days, values, h5, h2, h1 with
  | d0 :: d1 :: d2 :: days, v0 :: v1 :: v2 :: values, h5, h2, h1 =>
    simp only [List.getElem?_cons_zero, Option.some.injEq] at h1
    subst h1
    have hpw : (1 :: d1 :: d2 :: days).Pairwise (· < ·) := by
      rw [List.pairwise_iff_getElem]
      intro i j hi hj hij
      exact h3 i j _ _ hij (List.getElem?_eq_getElem hi) (List.getElem?_eq_getElem hj)
    have hlen : days.length = values.length := by simpa using h5.symm
    have hd1 := (List.pairwise_cons.1 hpw).1 d1 (by simp)
    have hge : ∀ v ∈ (1 :: d1 :: d2 :: days), 1 ≤ v := by
      intro v hv
      rcases List.mem_cons.1 hv with rfl | hv
      · omega
      · have := (List.pairwise_cons.1 hpw).1 v hv; omega
    obtain ⟨last, hl⟩ : ∃ last, (1 :: d1 :: d2 :: days).getLast? = some last := ⟨_, List.getLast?_eq_getLast_of_ne_nil (by simp)⟩
    have hgl : (1 :: d1 :: d2 :: days).getLastD 0 = last := by rw [List.getLastD_eq_getLast?, hl]; rfl
    have hlast := h4 last (List.mem_of_getLast? hl)
    refine ⟨by simp [Rbf.knotDays, Rbf.knotValues, hlen], ?_, ⟨last, hl, ?_, ?_⟩, ?_, ?_⟩
    · unfold Rbf.knotDays
      simp only [hgl]
      rw [List.pairwise_append, List.pairwise_append]
      refine ⟨⟨by simp, hpw, ?_⟩, ?_, ?_⟩
      · intro a ha b hb
        simp only [List.mem_singleton] at ha
        have := hge b hb
        omega
      · simp [List.getD]; omega
      · intro a ha b hb
        have ha' : a ≤ 365 := by
          rcases List.mem_append.1 ha with ha | ha
          · simp only [List.mem_singleton] at ha; omega
          · exact h4 a ha
        simp [List.getD] at hb
        omega
    · simp only [Rbf.knotDays, hgl]; rfl
    · simp only [Rbf.knotValues]
      rw [List.getLastD_eq_getLast?, List.getLast?_eq_getLast_of_ne_nil (by simp)]
      simp
    · intro i hi
      have e1 : i < values.length + 1 + 1 + 1 := by simp at hi; omega
      constructor
      · simp only [Rbf.knotDays, List.cons_append, List.nil_append, List.getElem?_cons_succ]
        exact List.getElem?_append_left hi
      · simp only [Rbf.knotValues, List.cons_append, List.nil_append, List.getElem?_cons_succ]
        exact List.getElem?_append_left (l₁ := v0 :: v1 :: v2 :: values) (by simpa using e1)
    · intro i hi
      have e : i = 0 ∨ i = 1 := by omega
      rcases e with rfl | rfl
      · refine ⟨⟨1, rfl, ?_⟩, ?_⟩
        · simp [Rbf.knotDays]
        · simp [Rbf.knotValues, hlen]
      · refine ⟨⟨d1, rfl, ?_⟩, ?_⟩
        · simp [Rbf.knotDays]; omega
        · simp [Rbf.knotValues, hlen]

private theorem cap_range (lo hi : Option Rat) (v : Rat) (h : ∀ l u, lo = some l → hi = some u → l ≤ u) :
    (∀ l, lo = some l → l ≤ cap lo hi v) ∧ (∀ u, hi = some u → cap lo hi v ≤ u) := by
  unfold cap
  constructor
  · rintro l rfl; exact le_max_right _ _
  · rintro u rfl
    cases lo with
    | none => exact min_le_right _ _
    | some l => exact max_le (min_le_right _ _) (h l u rfl rfl)

/-- **C67 (radial basis profile).** On every date the profile has the capped value of the interpolation at the day of a common
year (29 February has the value of the 28th), and it is within the caps. -/
theorem C67_profile (rbf : List Int → List Rat → Nat → Rat) (p : Rbf) (y m d : Nat) (h : ValidDate (isLeapYear y) m d) :
    ∃ v, p.value rbf (dateOf y m d) = some v ∧
      v = cap p.minValue p.maxValue (rbf p.knotDays p.knotValues (daysBefore false m + if m = 2 ∧ d = 29 then 28 else d)) ∧
      ((∀ l u, p.minValue = some l → p.maxValue = some u → l ≤ u) → (∀ l, p.minValue = some l → l ≤ v) ∧ (∀ u, p.maxValue = some u → v ≤ u)) ∧
      (p.minValue = none → p.maxValue = none → v = rbf p.knotDays p.knotValues (daysBefore false m + if m = 2 ∧ d = 29 then 28 else d)) := by
  have hi := index_date y m d h
  obtain ⟨v1, v2, v3, v4⟩ := valid_true h
  obtain ⟨hs, hs1, hs2⟩ := doy_split m d v1 v2 v3 v4
  have hle : dayOfYear true m d ≤ 366 := by
    unfold dayOfYear
    interval_cases m <;> simp [daysBefore, monthLength] at v4 ⊢ <;> omega
  have hlt : (dateOf y m d).index < 366 := by omega
  refine ⟨_, ?_, rfl, cap_range _ _ _, fun e1 e2 => by rw [e1, e2]; rfl⟩
  unfold Rbf.value Rbf.table
  rw [List.getElem?_map, List.getElem?_range hlt, Option.map_some, spread_eq _ _ hlt]
  congr 3
  rw [← hi] at hs
  have hs' : daysBefore false m + profileDay m d = (if (dateOf y m d).index < 59 then (dateOf y m d).index else (dateOf y m d).index - 1) + 1 := by
    rw [← hs]
    by_cases hc : (dateOf y m d).index < 59
    · rw [if_pos hc, if_pos (by omega)]
    · rw [if_neg hc, if_neg (by omega)]; omega
  exact hs'.symm

/-- **C67 (monthly profile).** After setting twelve values and resetting, the profile has on every date the value of a newly
constructed profile with these values: no value of the previous ones remains, interpolated or not.  Without interpolation
this is the value of the month, otherwise that of the interpolated profile (`C38_interp_first`, `C38_interp_last`). -/
theorem C67_monthly (p : Monthly) (hp : p.values.length = 12) (x : List Rat) (hx : x.length = 12) :
    ∃ q r, p.set x = some q ∧ Monthly.create x p.interp = some r ∧ ∀ t, q.reset.value t = r.reset.value t ∧
      (p.interp = none → q.reset.value t = x[t.month - 1]?) ∧
      ∀ d, p.interp = some d → q.reset.value t = interpolatedValue d x t := by
  refine ⟨{ p with values := x }, ⟨x, p.interp, none⟩, ?_, ?_, ?_⟩
  · unfold Monthly.set; rw [assignAll_eq (hx.trans hp.symm)]; rfl
  · unfold Monthly.create; rw [if_neg (by simp [hx])]
  · intro t
    cases p.interp <;> simp [Monthly.reset, Monthly.value, monthlyValue, interpolatedValue]

/-- **C67 (numbers of values).** A monthly profile accepts twelve values, or one value for all its months, and no other
number; an RBF profile likewise. -/
theorem C67_numbers (p : Monthly) (hp : p.values.length = 12) (r : Rbf) (hr : 3 ≤ r.values.length) (x : List Rat) :
    ((p.set x).isSome = true ↔ x.length = 12 ∨ x.length = 1) ∧
      ((r.setValues x).isSome = true ↔ x.length = r.values.length ∨ x.length = 1) ∧
      ∀ v, x = [v] → (∃ q, p.set x = some q ∧ q.values = List.replicate 12 v) ∧
        ∃ q, r.setValues x = some q ∧ q.values = List.replicate r.values.length v := by
  have key : ∀ dst : List Rat, (assignAll dst x).isSome = true ↔ x.length = dst.length ∨ x.length = 1 := by
    intro dst
    unfold assignAll
    by_cases h : x.length = dst.length
    · simp [h]
    · rw [if_neg h]
      match x with
      | [] => simp at h ⊢; omega
      | [v] => simp
      | _ :: _ :: _ => simp at h ⊢; omega
  refine ⟨?_, ?_, ?_⟩
  · unfold Monthly.set
    rw [Option.isSome_map, key, hp]
  · unfold Rbf.setValues
    rw [Option.isSome_map, key]
  · rintro v rfl
    unfold Monthly.set Rbf.setValues assignAll
    rw [if_neg (by rw [hp]; simp), if_neg (by simp; omega), hp]
    exact ⟨⟨_, rfl, rfl⟩, _, rfl, rfl⟩

/-- The hypotheses of the theorems above can be met. -/
example : (⟨List.replicate 12 1, some .first, none⟩ : Monthly).values.length = 12 ∧
    3 ≤ (⟨[1, 2, 3], [1, 100, 200], 0, [], [], none, none⟩ : Rbf).values.length := by decide

private theorem foldl_add (l : List Rat) (a : Rat) : l.foldl (· + ·) a = a + l.sum := by
  induction l generalizing a with
  | nil => simp
  | cons b l ih => rw [List.foldl_cons, ih, List.sum_cons, add_assoc]

private theorem range_zip (a f : List Rat) (h : a.length = f.length) (w : Nat → Rat → Rat) (o : Nat) :
    (List.range a.length).map (fun i => a.getD i 0 * w (i + o) (f.getD i 0)) = (List.zip a f).zipIdx.map fun t => t.1.1 * w (t.2 + o) t.1.2 := by
  apply List.ext_getElem?
  intro i
  rcases Nat.lt_or_ge i a.length with hi | hi
  · rw [List.getElem?_map, List.getElem?_range hi, List.getElem?_map, List.getElem?_zipIdx,
      List.getElem?_eq_getElem (l := List.zip a f) (by simp; omega)]
    simp [List.getD, List.getElem?_eq_getElem hi, List.getElem?_eq_getElem (l := f) (i := i) (by omega)]
  · rw [List.getElem?_eq_none (by simpa using hi), List.getElem?_eq_none (by simp; omega)]

/-- **C67 (harmonics).** After a reset, whatever timesteps are asked for, in whatever order and however often, every value is the
mean plus the amplitudes times the waves of the current variables: the cache never shows. -/
theorem C67_harmonic (wave : Nat → Nat → Rat → Rat) (doy : Nat → Nat) (p : Harmonic) (hp : p.amplitudes.length = p.phases.length) (ks : List Nat) :
    Harmonic.calls wave doy p.reset ks =
      ks.map fun k => p.mean + ((List.zip p.amplitudes p.phases).zipIdx.map fun t => t.1.1 * wave (doy k) (t.2 + 1) t.1.2).sum := by
  have hsum : ∀ q : Harmonic, q.mean = p.mean → q.amplitudes = p.amplitudes → q.phases = p.phases → ∀ d, q.sum wave d =
      p.mean + ((List.zip p.amplitudes p.phases).zipIdx.map fun t => t.1.1 * wave d (t.2 + 1) t.1.2).sum := by
    intro q h1 h2 h3 d
    unfold Harmonic.sum
    rw [foldl_add, h1, h2, h3, range_zip _ _ hp (wave d) 1]
  suffices hs : ∀ q : Harmonic, q.mean = p.mean → q.amplitudes = p.amplitudes → q.phases = p.phases →
      (∀ k : Nat, (k : Int) = q.cacheIndex → q.cache = q.sum wave (doy k)) → Harmonic.calls wave doy q ks =
        ks.map fun k => p.mean + ((List.zip p.amplitudes p.phases).zipIdx.map fun t => t.1.1 * wave (doy k) (t.2 + 1) t.1.2).sum by
    refine hs _ rfl rfl rfl ?_
    intro k hk
    simp only [Harmonic.reset] at hk
    omega
  induction ks with
  | nil => intros; rfl
  | cons k ks ih =>
    intro q h1 h2 h3 h4
    rw [Harmonic.calls, List.map_cons]
    unfold Harmonic.value
    by_cases hk : (k : Int) = q.cacheIndex
    · rw [if_pos hk]
      simp only
      rw [h4 k hk, hsum q h1 h2 h3, ih q h1 h2 h3 h4]
    · rw [if_neg hk]
      simp only
      rw [hsum q h1 h2 h3]
      congr 1
      refine ih ⟨_, _, _, _, _⟩ h1 h2 h3 ?_
      intro k' hk'
      simp only at hk' ⊢
      have : k' = k := by exact_mod_cast hk'
      rw [this, ← hsum q h1 h2 h3]
      rfl

/-- A harmonic series can be made exactly with as many amplitudes as phases, and then has the values of the formula whatever timesteps are asked for. -/
theorem C67_harmonic_made (wave : Nat → Nat → Rat → Rat) (doy : Nat → Nat) (mean : Rat) (amplitudes phases : List Rat) :
    (amplitudes.length = phases.length ↔ (Harmonic.create mean amplitudes phases).isSome = true) ∧
    ∀ p, Harmonic.create mean amplitudes phases = some p → ∀ ks, Harmonic.calls wave doy p.reset ks =
      ks.map fun k => mean + ((List.zip amplitudes phases).zipIdx.map fun t => t.1.1 * wave (doy k) (t.2 + 1) t.1.2).sum := by
  unfold Harmonic.create
  by_cases h : amplitudes.length = phases.length
  · rw [if_neg (not_not.2 h)]
    refine ⟨by simp [h], fun p hp ks => ?_⟩
    cases hp
    exact C67_harmonic wave doy _ h ks
  · rw [if_pos h]
    exact ⟨by simp [h], fun p hp => by cases hp⟩

/-! ## Concrete cases -/

/-- A monthly profile, a harmonic series and a control curve with two of three values variable. -/
example : (Par.harmonic ⟨10, [1, 2], [3, 4], 0, -1⟩).Ok ∧ (Par.harmonic ⟨10, [1, 2], [3, 4], 0, -1⟩).dsize = 5 ∧
    (Par.harmonic ⟨10, [1, 2], [3, 4], 0, -1⟩).Distinct ∧
    (Harmonic.set ⟨10, [1, 2], [3, 4], 0, -1⟩ [5, 6, 7, 8, 9]).map Harmonic.get = some [5, 6, 7, 8, 9] := ⟨rfl, rfl, trivial, by decide +kernel⟩

example : (Par.curve ⟨[1, 2, 3], [0, -1]⟩).Ok ∧ (Par.curve ⟨[1, 2, 3], [0, -1]⟩).Distinct ∧
    Curve.set ⟨[1, 2, 3], [0, -1]⟩ [7, 8] = some ⟨[7, 2, 8], [0, -1]⟩ := by
  refine ⟨?_, ?_, by decide +kernel⟩
  · intro i hi
    simp at hi
    rcases hi with rfl | rfl <;> simp
  · rintro (_ | _ | a) (_ | _ | b) i j hab h1 h2
    all_goals simp at hab h1 h2
    all_goals subst h1 h2; simp

/-- A profile with explicit bounds for its days. -/
example : Rbf.create [1, 100, 200] [1, 2, 3] 0 (some [90, 190]) (some [110, 365]) none none =
    some ⟨[1, 2, 3], [1, 100, 200], 2, [90, 190], [110, 365], none, none⟩ := by decide +kernel

/-- A profile with a range, all bounds within the year. -/
example : ∃ p, Rbf.create [1, 100, 200] [1, 2, 3] 10 none none none none = some p ∧ ∀ u ∈ p.highDays, u ≤ 365 :=
  ⟨⟨[1, 2, 3], [1, 100, 200], 2, [90, 190], [110, 210], none, none⟩, by decide +kernel, by decide +kernel⟩

example : GoodDays (1 :: [rint (1001 / 10), rint (4003 / 20)]) := by
  have : (1 :: [rint (1001 / 10), rint (4003 / 20)] : List Int) = [1, 100, 200] := by decide +kernel
  rw [this]
  refine ⟨rfl, by simp, ?_, by simp⟩
  rintro (_ | _ | _ | i) (_ | _ | _ | j) a b hij h1 h2
  all_goals simp at hij h1 h2
  all_goals omega

/-- **C67 (single numbers).** The parameters with one variable take the first number they are given: an empty vector is
refused, and further numbers are ignored. -/
theorem C67_first (p : Par) (hp : (∃ c, p = .const c) ∨ (∃ v, p = .offset v) ∨ (∃ v o, p = .binary v o) ∨ ∃ v a b u, p = .rectifier v a b u) :
    p.setDoubles [] = none ∧ ∀ v x, ∃ p', p.setDoubles (v :: x) = some p' ∧ p'.doubles = some [v] := by
  rcases hp with ⟨c, rfl⟩ | ⟨w, rfl⟩ | ⟨w, o, rfl⟩ | ⟨w, a, b, u, rfl⟩ <;> exact ⟨rfl, fun v x => ⟨_, rfl, rfl⟩⟩

example : ((Par.offset 3).setDoubles [5, 7]).bind Par.doubles = some [5] := rfl

end Verif.Vars

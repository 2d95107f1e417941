import Verif.Spec.SolveErrors
import Mathlib.Data.List.Basic
import Mathlib.Tactic.Linarith
import Mathlib.Tactic.Tauto

/-! # C97: bad numbers and failed solves -/

namespace Verif.SolveErrors

open Verif.Bounds

private theorem roundTiny_nan (x : F) : roundTiny x = .nan ↔ x = .nan := by
  cases x <;> simp [roundTiny]
  split <;> simp

private theorem infToDblMax_nan (x : F) : infToDblMax x = .nan ↔ x = .nan := by cases x <;> simp [infToDblMax]

private theorem neg_nan (x : F) : neg x = .nan ↔ x = .nan := by cases x <;> simp [neg]

private theorem over_nan (x : F) (d : Rat) : over x d = .nan ↔ x = .nan := by cases x <;> simp [over]

private theorem floorZero_nan (x : F) : floorZero x = .nan ↔ x = .nan := by
  cases x <;> simp [floorZero]
  split <;> simp

private theorem add_nan (x y : F) (hx : NotInf x) (hy : NotInf y) : add x y = .nan ↔ x = .nan ∨ y = .nan := by
  cases x <;> cases y <;> simp_all [add, NotInf]

private theorem sub_nan (x y : F) (hx : NotInf x) (hy : NotInf y) : sub x y = .nan ↔ x = .nan ∨ y = .nan := by
  cases x <;> cases y <;> simp_all [sub, neg, add, NotInf]

private theorem add_notInf (x y : F) (hx : NotInf x) (hy : NotInf y) : NotInf (add x y) := by
  cases x <;> cases y <;> simp_all [add, NotInf]

private theorem fold_nan (l : List F) : ∀ x, NotInf x → (∀ c ∈ l, NotInf c) →
    (l.foldl add x = .nan ↔ x = .nan ∨ .nan ∈ l) := by
  induction l with
  | nil => intro x _ _; simp
  | cons c l ih =>
    intro x hx hl
    have hc := hl c List.mem_cons_self
    rw [List.foldl_cons, ih _ (add_notInf x c hx hc) (fun d hd => hl d (List.mem_cons_of_mem _ hd)), add_nan x c hx hc,
      List.mem_cons]
    constructor
    · rintro ((h | h) | h)
      · exact .inl h
      · exact .inr (.inl h.symm)
      · exact .inr (.inr h)
    · rintro (h | h | h)
      · exact .inl (.inl h)
      · exact .inl (.inr h.symm)
      · exact .inr h

private theorem same_iff (s : Vol) (h1 : NotInf s.mx) (h2 : NotInf s.mn) : same s.mx s.mn = true ↔ s.Fixed := by
  obtain ⟨v, mx, mn⟩ := s
  cases mx <;> cases mn <;> simp_all [same, Vol.Fixed, NotInf, eq_comm]

private theorem storage_nan (d : Rat) (s : Vol) (h : NotInf s.volume ∧ NotInf s.mx ∧ NotInf s.mn) :
    F.nan ∈ storageBounds d s ↔ ¬ s.Fixed ∧ s.Bad := by
  unfold storageBounds
  by_cases hs : same s.mx s.mn = true
  · rw [if_pos hs]
    simp [(same_iff s h.2.1 h.2.2).1 hs]
  · rw [if_neg hs]
    have hf : ¬ s.Fixed := fun hf => hs ((same_iff s h.2.1 h.2.2).2 hf)
    simp only [List.mem_cons, List.not_mem_nil, or_false, eq_comm (a := F.nan), roundTiny_nan, over_nan, neg_nan,
      floorZero_nan, sub_nan _ _ h.1 h.2.2, sub_nan _ _ h.2.1 h.1, hf, not_false_iff, true_and, Vol.Bad]
    tauto

private theorem virtual_nan (d : Rat) (s : Bool × Vol) (h : NotInf s.2.volume ∧ NotInf s.2.mx ∧ NotInf s.2.mn) :
    F.nan ∈ virtualBounds d s ↔ s.1 = true ∧ ¬ s.2.Fixed ∧ s.2.Bad := by
  have hs := storage_nan d s.2 h
  unfold virtualBounds
  by_cases hx : same s.2.mx s.2.mn = true
  · rw [if_pos hx]
    simp [(same_iff s.2 h.2.1 h.2.2).1 hx]
  · rw [if_neg hx]
    by_cases ha : s.1 = true
    · rw [if_pos ha, hs]; simp [ha]
    · rw [if_neg ha]; simp [ha]

private theorem handed_nan (p : Given) (h : Finite p) : F.nan ∈ handed p ↔ NanUsed p := by
  unfold handed NanUsed
  simp only [List.mem_append, List.mem_map, List.mem_flatMap]
  have h1 : (∃ r ∈ p.routes, routeCost r = F.nan) ↔ ∃ r ∈ p.routes, F.nan ∈ r := by
    refine exists_congr fun r => and_congr_right fun hr => ?_
    unfold routeCost
    rw [roundTiny_nan, fold_nan r _ ⟨by simp, by simp⟩ (h.costs r hr)]
    simp
  have h2 : (∃ f ∈ p.factors, neg f = F.nan) ↔ F.nan ∈ p.factors := by
    simp only [neg_nan]
    exact ⟨fun ⟨f, hf, e⟩ => e ▸ hf, fun hf => ⟨_, hf, rfl⟩⟩
  have h3 : (∃ l ∈ p.limits, F.nan ∈ limitBounds l) ↔ ∃ l ∈ p.limits, l.1 = .nan ∨ l.2 = .nan := by
    refine exists_congr fun l => and_congr_right fun _ => ?_
    simp [limitBounds, eq_comm (a := F.nan), roundTiny_nan, infToDblMax_nan]
  have h4 : (∃ s ∈ p.storages, F.nan ∈ storageBounds p.days s) ↔ ∃ s ∈ p.storages, ¬ s.Fixed ∧ s.Bad :=
    exists_congr fun s => and_congr_right fun hs => storage_nan _ s (h.storages s hs)
  have h5 : (∃ s ∈ p.virtuals, F.nan ∈ virtualBounds p.days s) ↔ ∃ s ∈ p.virtuals, s.1 = true ∧ ¬ s.2.Fixed ∧ s.2.Bad :=
    exists_congr fun s => and_congr_right fun hs => virtual_nan _ s (h.virtuals s hs)
  rw [h1, h2, h3, h4, h5, or_assoc, or_assoc, or_assoc]

/-- **C97 (NaN).** With the default (checked) interface, and no infinite costs or volumes, solving a scenario raises
`GLPKError` exactly if a NaN matters; otherwise it gives the flows of the first attempt, or with `retry_solve` those of the
second if the first failed, and raises `RuntimeError` exactly if there are none. -/
theorem C97_solve_partial (retry : Bool) (p : Given) (h : Finite p) (attempt : Nat → Option Flow) :
    (solveScenario true retry p attempt = .error .glpk ↔ NanUsed p) ∧
      (∀ x, solveScenario true retry p attempt = .ok x ↔ ¬ NanUsed p ∧ Found retry attempt x) ∧
      (solveScenario true retry p attempt = .error .runtime ↔ ¬ NanUsed p ∧ ∀ x, ¬ Found retry attempt x) := by
  have hn : (handed p).any (· = .nan) = true ↔ NanUsed p := by
    rw [← handed_nan p h, List.any_eq_true]
    simp only [decide_eq_true_eq]
    exact ⟨fun ⟨x, hx, e⟩ => e ▸ hx, fun hx => ⟨_, hx, rfl⟩⟩
  unfold solveScenario Found
  by_cases hu : NanUsed p
  · have : (handed p).any (· = .nan) = true := hn.2 hu
    rw [Bool.true_and, if_pos this]
    simp [hu]
  · have : ¬ (handed p).any (· = .nan) = true := fun h => hu (hn.1 h)
    rw [Bool.true_and, if_neg this]
    cases h0 : attempt 0 <;> cases h1 : attempt 1 <;> cases retry <;> simp [hu]

/-- **C97 (finite numbers).** From finite numbers the solver is handed finite ones, none is refused, and they are: the sums of the costs along the routes, the factors with the opposite sign, the limits, and for every storage
what it can give and what it can take, per day; for a virtual storage that is not active, no limit. Numbers nearer to zero than `1e-8` count as zero. -/
theorem C97_handed (routes : List (List Rat)) (factors : List Rat) (limits : List (Rat × Rat)) (storages : List (Rat × Rat × Rat)) (virtuals : List (Bool × Rat × Rat × Rat)) (days : Rat) :
    handed ⟨routes.map (·.map .fin), factors.map .fin, limits.map fun l => (.fin l.1, .fin l.2), storages.map vol, virtuals.map fun v => (v.1, vol v.2), days⟩ =
      (routes.map (fun r => tidy r.sum) ++ factors.map (fun f => -f) ++ limits.flatMap (fun l => [tidy l.1, tidy l.2]) ++ storages.flatMap (room days) ++
        virtuals.flatMap fun v => if v.2.2.1 = v.2.2.2 then [0, 0] else if v.1 then room days v.2 else [-dblMax, dblMax]).map F.fin := by
  have hfold : ∀ (l : List Rat) (a : Rat), (l.map F.fin).foldl add (.fin a) = .fin (a + l.sum) := by
    intro l
    induction l with
    | nil => intro a; simp
    | cons x l ih => intro a; simp only [List.map_cons, List.foldl_cons, add, List.sum_cons]; rw [ih, add_assoc]
  have ht : ∀ q : Rat, roundTiny (.fin q) = .fin (tidy q) := by
    intro q
    simp only [roundTiny, tidy, show e8 = 1 / 100000000 from by decide +kernel]
    split <;> rfl
  have hs : ∀ s : Rat × Rat × Rat, storageBounds days (vol s) = (room days s).map F.fin := by
    rintro ⟨v, mx, mn⟩
    simp only [storageBounds, vol, room, same, F.fin.injEq, decide_eq_true_eq]
    split
    · rfl
    · have hz : ∀ a : Rat, floorZero (.fin a) = .fin (max 0 a) := by
        intro a
        simp only [floorZero]
        split
        · rw [max_eq_left (by linarith)]
        · rw [max_eq_right (by linarith)]
      simp only [sub, neg, add, hz, over, ht, List.map_cons, List.map_nil, ← sub_eq_add_neg]
  unfold handed
  simp only [List.map_append, List.map_map, List.flatMap_map, List.map_flatMap]
  congr 1
  · congr 1
    · congr 1
      · congr 1
        refine List.map_congr_left fun r _ => ?_
        simp only [Function.comp, routeCost, hfold, zero_add, ht]
      · exact List.flatMap_congr fun l _ => by simp only [limitBounds, infToDblMax, ht, List.map_cons, List.map_nil]
    · exact List.flatMap_congr fun s _ => hs s
  · refine List.flatMap_congr fun v _ => ?_
    obtain ⟨b, v, mx, mn⟩ := v
    have h := hs (v, mx, mn)
    simp only [virtualBounds, vol, same, F.fin.injEq, decide_eq_true_eq] at h ⊢
    split
    · rfl
    · split
      · exact h
      · rfl

/-- A limit that is NaN, and one that is not. -/
example : Finite ⟨[[.fin 1, .fin (-3)]], [], [(.fin 0, .posInf), (.nan, .fin 2)], [⟨.fin 5, .fin 10, .fin 0⟩], [], 1⟩ ∧
    NanUsed ⟨[[.fin 1, .fin (-3)]], [], [(.fin 0, .posInf), (.nan, .fin 2)], [⟨.fin 5, .fin 10, .fin 0⟩], [], 1⟩ := by
  refine ⟨⟨?_, ?_, ?_⟩, .inr (.inr (.inl ⟨(.nan, .fin 2), by simp, .inl rfl⟩))⟩
  · simp [NotInf]
  · simp [NotInf]
  · simp

/-- **C97 fails for infinities.** An infinite cost and its opposite on a route make a NaN, and the solve is refused though
no NaN was given; and a storage without an upper limit is solved with an infinite bound. -/
theorem C97_infinite_fails :
    solveScenario true false ⟨[[.posInf, .negInf]], [], [], [], [], 1⟩ (fun _ => some fun _ => 0) = .error .glpk ∧
      ¬ NanUsed ⟨[[.posInf, .negInf]], [], [], [], [], 1⟩ ∧
      F.posInf ∈ handed ⟨[], [], [], [⟨.fin 5, .posInf, .fin 0⟩], [], 1⟩ := by
  refine ⟨rfl, ?_, by decide +kernel⟩
  rintro (⟨r, hr, h⟩ | h | ⟨l, hl, -⟩ | ⟨s, hs, -⟩ | ⟨s, hs, -⟩)
  · simp at hr; subst hr; simp at h
  · simp at h
  · simp at hl
  · simp at hs
  · simp at hs

/-- **C97 fails for the unchecked interface.** A NaN is handed to GLPK, and whatever simplex makes of it is used. -/
theorem C97_unsafe_fails (p : Given) (x : Flow) : solveScenario false false p (fun _ => some x) = .ok x := rfl

/-! ## Scenarios -/

private theorem solveFrom_spec (safe retry : Bool) (l : List (Given × (Nat → Option Flow))) : ∀ (g : Nat) (f : Nat → Flow),
    ∃ k ≤ l.length, (∀ h, h < g ∨ g + k ≤ h → (solveFrom safe retry g l f).2 h = f h) ∧
      (∀ (j : Nat) (q : Given × (Nat → Option Flow)), j < k → l[j]? = some q → ∃ x, solveScenario safe retry q.1 q.2 = .ok x ∧
        (solveFrom safe retry g l f).2 (g + j) = fun n => f (g + j) n + x n) ∧
      ((solveFrom safe retry g l f).1 = none ↔ k = l.length) ∧
      ∀ e, (solveFrom safe retry g l f).1 = some e → ∃ q, l[k]? = some q ∧ solveScenario safe retry q.1 q.2 = .error e := by
  induction l with
  | nil => intro g f; exact ⟨0, le_refl _, fun _ _ => rfl, fun j q hj => absurd hj (by omega), by simp [solveFrom], by simp [solveFrom]⟩
  | cons q l ih =>
    obtain ⟨p, a⟩ := q
    intro g f
    unfold solveFrom
    cases hs : solveScenario safe retry p a with
    | error e =>
      refine ⟨0, Nat.zero_le _, fun _ _ => rfl, fun j q hj => absurd hj (by omega), by simp, ?_⟩
      intro e' he
      simp only [Option.some.injEq] at he
      subst he
      exact ⟨(p, a), rfl, hs⟩
    | ok x =>
      obtain ⟨k, hk, h1, h2, h3, h4⟩ := ih (g + 1) (commit f g x)
      simp only
      refine ⟨k + 1, by simpa using hk, ?_, ?_, ?_, ?_⟩
      · intro h hh
        rw [h1 h (by omega)]
        funext n
        simp only [commit]
        rw [if_neg (by omega)]
      · intro j q hj hq
        cases j with
        | zero =>
          simp only [List.getElem?_cons_zero, Option.some.injEq] at hq
          subst hq
          refine ⟨x, hs, ?_⟩
          rw [h1 (g + 0) (by omega)]
          funext n
          simp [commit]
        | succ j =>
          obtain ⟨y, hy, e⟩ := h2 j q (by omega) (by simpa using hq)
          refine ⟨y, hy, ?_⟩
          rw [show g + (j + 1) = g + 1 + j by omega, e]
          funext n
          simp only [commit]
          rw [if_neg (by omega)]
      · rw [h3, List.length_cons]; omega
      · intro e he
        simpa using h4 e he

/-- **C97 (scenarios).** The scenarios are solved in order up to the first that raises. In a timestep that raises nothing
every scenario has its own solution; in one that raises, the scenarios before the failed one have the flows of this
timestep and all others have none; and no volume has changed and the previous flows are those of before. -/
theorem C97_scenarios (safe retry : Bool) (stores : Nat → List Nat × List Nat) (days : Rat)
    (l : List (Given × (Nat → Option Flow))) (s : State) :
    ∃ k ≤ l.length,
      (∀ (j : Nat) (q : Given × (Nat → Option Flow)), j < k → l[j]? = some q →
        solveScenario safe retry q.1 q.2 = .ok ((step safe retry stores days l s).2.flow j)) ∧
      (∀ j n, k ≤ j → (step safe retry stores days l s).2.flow j n = 0) ∧
      ((step safe retry stores days l s).1 = none ↔ k = l.length) ∧
      (∀ e, (step safe retry stores days l s).1 = some e →
        (∃ q, l[k]? = some q ∧ solveScenario safe retry q.1 q.2 = .error e) ∧
        (step safe retry stores days l s).2.volume = s.volume ∧ (step safe retry stores days l s).2.prev = s.prev) ∧
      ((step safe retry stores days l s).1 = none →
        (step safe retry stores days l s).2.prev = (step safe retry stores days l s).2.flow ∧
        ∀ g i, (step safe retry stores days l s).2.volume g i = s.volume g i +
          (((stores i).2.map ((step safe retry stores days l s).2.flow g)).sum -
            ((stores i).1.map ((step safe retry stores days l s).2.flow g)).sum) * days) := by
  obtain ⟨k, hk, h1, h2, h3, h4⟩ := solveFrom_spec safe retry l 0 (fun _ _ => 0)
  have hf : (step safe retry stores days l s).2.flow = (solveFrom safe retry 0 l (fun _ _ => 0)).2 ∧
      (step safe retry stores days l s).1 = (solveFrom safe retry 0 l (fun _ _ => 0)).1 := by
    unfold step
    rcases solveFrom safe retry 0 l (fun _ _ => 0) with ⟨_ | e, f⟩ <;> exact ⟨rfl, rfl⟩
  refine ⟨k, hk, ?_, ?_, ?_, ?_, ?_⟩
  · intro j q hj hq
    obtain ⟨x, hx, e⟩ := h2 j q hj hq
    rw [hf.1, ← Nat.zero_add j, e, hx]
    simp
  · intro j n hj
    rw [hf.1, h1 j (.inr (by omega))]
  · rw [hf.2, h3]
  · intro e he
    refine ⟨h4 e (hf.2 ▸ he), ?_⟩
    revert he
    unfold step
    rcases solveFrom safe retry 0 l (fun _ _ => 0) with ⟨_ | e, f⟩
    · simp
    · exact fun _ => ⟨rfl, rfl⟩
  · intro he
    revert he
    unfold step
    rcases solveFrom safe retry 0 l (fun _ _ => 0) with ⟨_ | e, f⟩
    · exact fun _ => ⟨rfl, fun _ _ => rfl⟩
    · simp

private def fine : Given := ⟨[[.fin 1]], [], [(.fin 0, .fin 5)], [⟨.fin 10, .fin 20, .fin 0⟩], [], 1⟩
private def bad : Given := ⟨[[.nan]], [], [(.fin 0, .fin 5)], [⟨.fin 10, .fin 20, .fin 0⟩], [], 1⟩
private def five : Nat → Option Flow := fun _ => some fun n => if n = 7 then 5 else 0
private def outOf : Nat → List Nat × List Nat := fun _ => ([7], [])
private def start : State := ⟨fun _ _ => 10, fun _ _ => 0, fun _ _ => 0⟩

/-- **C97 fails for interrupted timesteps.** When the second scenario raises, the flow out of the storage in the first
scenario is reported though its volume has not changed; when the exception is caught and the model stepped on, the volume
falls by the flow of the second timestep only: over the two timesteps the storage has supplied 10 and lost 5. -/
theorem C97_interrupted_fails :
    let a := step true false outOf 1 [(fine, five), (bad, five)] start
    let b := step true false outOf 1 [(fine, five), (fine, five)] a.2
    a.1 = some .glpk ∧ a.2.flow 0 7 = 5 ∧ a.2.volume 0 0 = 10 ∧ b.1 = none ∧ b.2.flow 0 7 = 5 ∧ b.2.volume 0 0 = 5 := by
  decide +kernel

end Verif.SolveErrors

import Verif.Proof.Network
/-!
# Every constructor gives names in a safe order
-/

namespace Verif.Network

private theorem tops_cons_replicate {k r : Nat} {a : Slots} {o : Option Nat × Slots} {tail : List (Option Nat × Slots)} (h1 : 1 ≤ r) (h2 : r < 1 + k) :
    tops (o :: (List.replicate k (some 0, a) ++ tail)) r = false := by
  obtain ⟨r, rfl⟩ : ∃ r', r = r' + 1 := ⟨r - 1, by omega⟩
  unfold tops
  rw [List.getElem?_cons_succ, List.getElem?_append_left (by simp; omega), List.getElem?_replicate_of_lt (by omega)]

private theorem tops_cons_replicate' {k r : Nat} {a : Slots} {o : Option Nat × Slots} (h1 : 1 ≤ r) (h2 : r < 1 + k) :
    tops (o :: List.replicate k (some 0, a)) r = false := by
  have := tops_cons_replicate (k := k) (a := a) (o := o) (tail := []) h1 h2
  rwa [List.append_nil] at this

private theorem tops_zero {a : Slots} {l : List (Option Nat × Slots)} : tops ((none, a) :: l) 0 = true := rfl

/-- The end of a constructor: the node itself. -/
private theorem good_self {a : Slots} {l : List (Option Nat × Slots)} {ad : List Nat} (h : 0 ∉ ad) (n : String) (i j : Nat) :
    Good ((none, a) :: l) [] ad [.may i, .init 0 n, .may j, .add 0] := by
  refine ⟨by simp, Or.inr ⟨rfl, h, by simp, ?_⟩⟩
  exact ⟨by simp, Or.inr ⟨n, by simp, by simp, trivial⟩⟩

private theorem piecewise_inert {objs : List (Option Nat × Slots)} (name : String) (n : Nat) (hlen : 4 + n ≤ objs.length)
    (ht : ∀ r, 1 ≤ r → r < 4 + n → tops objs r = false) : ∀ a ∈ piecewiseSubs name n, Inert objs a := by
  have hk : ∀ r, 1 ≤ r → r < 4 + n → r < objs.length ∧ tops objs r = false := fun r h1 h2 => ⟨by omega, ht r h1 h2⟩
  intro a ha
  simp only [piecewiseSubs, sub, List.mem_append, List.mem_cons, List.not_mem_nil, or_false, List.mem_flatMap, List.mem_range] at ha
  rcases ha with (((h | h) | h) | h) | ⟨i, hi, h | h⟩
  · rcases h with rfl | rfl <;> exact hk 1 (by omega) (by omega)
  · rcases h with rfl | rfl <;> exact hk 2 (by omega) (by omega)
  · rcases h with rfl | rfl <;> exact hk 3 (by omega) (by omega)
  · subst h; exact ⟨hk 3 (by omega) (by omega), hk 1 (by omega) (by omega)⟩
  · rcases h with rfl | rfl <;> exact hk (4 + i) (by omega) (by omega)
  · rcases h with rfl | rfl
    · exact ⟨hk (4 + i) (by omega) (by omega), hk 3 (by omega) (by omega)⟩
    · exact ⟨hk 2 (by omega) (by omega), hk (4 + i) (by omega) (by omega)⟩

theorem append_ne_self (s t : String) (h : t ≠ "") : s ++ t ≠ s := by
  intro e
  apply h
  have := congrArg String.length e
  rw [String.length_append] at this
  have h0 : t.length = 0 := by omega
  exact String.length_eq_zero_iff.1 h0

private theorem script_ordered (k : Kind) (name : String) : Ordered (script k name).objs := by
  have hrep : ∀ (m : Nat) (a : Slots) (o : Slots) (tail : List (Option Nat × Slots)), (∀ x ∈ tail, x.1 = none) →
      Ordered ((none, o) :: (List.replicate m (some 0, a) ++ tail)) := by
    intro m a o tail htail r p hp
    cases r with
    | zero => simp at hp
    | succ r =>
      rw [List.getElem?_cons_succ] at hp
      cases hr : (List.replicate m (some 0, a) ++ tail)[r]? with
      | none => rw [hr] at hp; cases hp
      | some x =>
        rw [hr] at hp
        rcases List.mem_append.1 (List.mem_of_getElem? hr) with hx | hx
        · rw [(List.mem_replicate.1 hx).2] at hp
          simp only [Option.bind_some, Option.some.injEq] at hp
          omega
        · simp only [Option.bind_some] at hp
          rw [htail x hx] at hp; cases hp
  have hsmall : ∀ (l : List (Option Nat × Slots)), (∀ r, r < l.length → ∀ p, (l[r]?.bind Prod.fst) = some p → p < r) → Ordered l := by
    intro l h r p hp
    by_cases hr : r < l.length
    · exact h r hr p hp
    · rw [List.getElem?_eq_none (by omega)] at hp; cases hp
  cases k with
  | plain => exact hrep 0 .plain _ [] (by simp)
  | virtual => exact hrep 0 .plain _ [] (by simp)
  | storage o i => have := hrep (o + i) .none (.storage (List.range' 1 o) (List.range' (1 + o) i)) [] (by simp); rwa [List.append_nil] at this
  | piecewise n => have := hrep (3 + n) .plain (.compound 1 2) [] (by simp); rwa [List.append_nil] at this
  | split n e names f => exact hrep _ _ _ _ (by intro x hx; split at hx <;> simp_all)
  | breakLink =>
    refine hsmall _ ?_
    intro r hr p hp
    have : r < 5 := hr
    obtain rfl | rfl | rfl | rfl | rfl : r = 0 ∨ r = 1 ∨ r = 2 ∨ r = 3 ∨ r = 4 := by omega
    all_goals simp [script] at hp
    all_goals omega
  | delay => exact hrep 2 .plain _ [] (by simp)
  | loss => exact hrep 3 .plain _ [(none, .none)] (by simp)

private theorem script_good (k : Kind) (name : String) : Good (script k name).objs [] [] (script k name).acts := by
  cases k with
  | plain => exact good_self (by simp) name 0 1
  | virtual => exact good_self (by simp) name 0 1
  | storage o i =>
    simp only [script, List.append_assoc, List.cons_append, List.nil_append]
    have hk : ∀ r, 1 ≤ r → r < 1 + (o + i) → r < ((none, Slots.storage (List.range' 1 o) (List.range' (1 + o) i)) ::
        List.replicate (o + i) (some 0, Slots.none)).length ∧ tops ((none, Slots.storage (List.range' 1 o) (List.range' (1 + o) i)) ::
        List.replicate (o + i) (some 0, Slots.none)) r = false :=
      fun r h1 h2 => ⟨by simp; omega, tops_cons_replicate' h1 h2⟩
    refine ⟨by simp, Or.inr ⟨tops_zero, by simp, by simp, ?_⟩⟩
    refine good_inert ?_ ?_
    · intro a ha
      simp only [List.mem_map, List.mem_range] at ha
      obtain ⟨n, hn, rfl⟩ := ha
      exact hk _ (by omega) (by omega)
    refine good_inert ?_ ?_
    · intro a ha
      simp only [List.mem_map, List.mem_range] at ha
      obtain ⟨n, hn, rfl⟩ := ha
      exact hk _ (by omega) (by omega)
    refine good_inert (l := [.may 1]) (by simp [Inert]) ?_
    refine good_inert ?_ ?_
    · intro a ha
      simp only [List.mem_map, List.mem_range] at ha
      obtain ⟨n, hn, rfl⟩ := ha
      exact hk _ (by omega) (by omega)
    exact ⟨by simp, Or.inr ⟨name, by simp, by simp, trivial⟩⟩
  | piecewise n =>
    simp only [script, List.cons_append, List.nil_append]
    refine good_inert (l := [.may 0]) (by simp [Inert]) ?_
    refine good_inert (piecewise_inert name n (by simp; omega) fun r h1 h2 => tops_cons_replicate' h1 (by omega)) ?_
    exact good_self (by simp) name 1 2
  | split n e names f =>
    simp only [script, List.append_assoc, List.cons_append, List.nil_append]
    generalize hobjs : ((none, Slots.split names (1 :: (List.range e).map fun i => 4 + (n + e) + 2 * i + 1) 2) ::
      (List.replicate (3 + (n + e) + 2 * e) (some 0, Slots.plain) ++ (if f then [(none, Slots.none)] else []))) = objs
    have hlen : 4 + (n + e) + 2 * e ≤ objs.length := by rw [← hobjs]; simp; omega
    have hk : ∀ r, 1 ≤ r → r < 4 + (n + e) + 2 * e → r < objs.length ∧ tops objs r = false := by
      intro r h1 h2
      exact ⟨by omega, by rw [← hobjs]; exact tops_cons_replicate h1 (by omega)⟩
    refine good_inert (l := [.may 0]) (by simp [Inert]) ?_
    refine good_inert (piecewise_inert name (n + e) (by omega) fun r h1 h2 => (hk r h1 (by omega)).2) ?_
    refine good_inert (l := [.may 1]) (by simp [Inert]) ?_
    refine ⟨by omega, Or.inr ⟨by rw [← hobjs]; exact tops_zero, by simp, by simp, ?_⟩⟩
    refine good_inert (l := [.may 2]) (by simp [Inert]) ?_
    refine good_inert ?_ ?_
    · intro a ha
      simp only [sub, List.mem_append, List.mem_cons, List.not_mem_nil, or_false, List.mem_flatMap, List.mem_range] at ha
      obtain ⟨i, hi, h⟩ := ha
      rcases h with (rfl | rfl) | (rfl | rfl) | rfl | rfl
      · exact hk _ (by omega) (by omega)
      · exact hk _ (by omega) (by omega)
      · exact hk _ (by omega) (by omega)
      · exact hk _ (by omega) (by omega)
      · exact ⟨hk _ (by omega) (by omega), hk _ (by omega) (by omega)⟩
      · exact ⟨hk _ (by omega) (by omega), hk _ (by omega) (by omega)⟩
    refine good_inert (l := [.may 3]) (by simp [Inert]) ?_
    cases f with
    | false => exact ⟨by omega, Or.inr ⟨name, by simp, by simp, trivial⟩⟩
    | true =>
      have hlen' : objs.length = 4 + (n + e) + 2 * e + 1 := by rw [← hobjs]; simp; omega
      have htop : tops objs (4 + (n + e) + 2 * e) = true := by
        rw [← hobjs]
        unfold tops
        have : 4 + (n + e) + 2 * e = (3 + (n + e) + 2 * e) + 1 := by omega
        rw [this, List.getElem?_cons_succ, List.getElem?_append_right (by simp)]
        simp
      have hne : name ++ " Agg" ≠ name := append_ne_self _ _ (by decide)
      refine ⟨by omega, Or.inr ⟨htop, by simp, by simp; omega, ?_⟩⟩
      refine ⟨by omega, Or.inr ⟨name ++ " Agg", by simp, ?_, ?_⟩⟩
      · intro q hq hq1
        simp only [List.mem_cons, List.not_mem_nil, or_false] at hq
        rcases hq with rfl | rfl
        · exact absurd rfl hq1
        · exact fun h => hne h.symm
      · refine ⟨by omega, Or.inr ⟨name, ?_, ?_, trivial⟩⟩
        · simp; omega
        · simp
  | breakLink =>
    simp only [script, sub, List.cons_append, List.nil_append]
    refine ⟨by simp, Or.inr ⟨rfl, by simp, by simp, ?_⟩⟩
    refine ⟨by simp, Or.inl ⟨rfl, ?_⟩⟩
    refine ⟨by simp, Or.inl ⟨rfl, ?_⟩⟩
    refine ⟨by simp, Or.inl ⟨rfl, ?_⟩⟩
    refine ⟨by simp, Or.inl ⟨rfl, ?_⟩⟩
    refine ⟨by simp, Or.inr ⟨_, by simp; rfl, by simp, ?_⟩⟩
    refine ⟨by simp, Or.inr ⟨rfl, by simp, by simp, ?_⟩⟩
    refine ⟨by simp, Or.inr ⟨_, by simp; rfl, by simp, ?_⟩⟩
    refine ⟨by simp, by simp, Or.inl rfl, Or.inr (by simp), ?_⟩
    exact good_self (by simp) name 0 1
  | delay =>
    simp only [script, sub, List.cons_append, List.nil_append]
    refine good_inert (l := [.absent _, .absent _, .may 0, .init 1 _, .add 1, .may 1, .init 2 _, .add 2]) ?_ (good_self (by simp) name 2 3)
    intro a ha
    simp only [List.mem_cons, List.not_mem_nil, or_false] at ha
    rcases ha with rfl | rfl | rfl | rfl | rfl | rfl | rfl | rfl
    all_goals trivial
  | loss =>
    simp only [script, sub, List.cons_append, List.nil_append]
    refine good_inert (l := [.absent _, .absent _, .absent _, .absent _, .init 1 _, .add 1, .init 2 _, .add 2, .init 3 _, .add 3, .edge 2 1, .edge 2 3])
      ?_ ?_
    · intro a ha
      simp only [List.mem_cons, List.not_mem_nil, or_false] at ha
      rcases ha with rfl | rfl | rfl | rfl | rfl | rfl | rfl | rfl | rfl | rfl | rfl | rfl
      all_goals trivial
    · refine ⟨by simp, Or.inr ⟨rfl, by simp, by simp, ?_⟩⟩
      refine ⟨by simp, Or.inr ⟨_, by simp; rfl, by simp, ?_⟩⟩
      exact good_self (by simp) name 0 1

theorem create_inv {s : St} (h : Inv s) (raises : Nat → Bool) (k : Kind) (name : String) : Inv (create raises k name s).1 :=
  exec_inv _ [] [] _ (script_good k name) (begun_during (script_ordered k name) h)

end Verif.Network

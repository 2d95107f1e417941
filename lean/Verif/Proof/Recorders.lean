import Verif.Proof.Component
import Mathlib.Data.List.GetD
import Mathlib.Algebra.BigOperators.Group.List.Basic
import Mathlib.Algebra.Ring.Rat
import Mathlib.Tactic.Ring
import Mathlib.Tactic.Linarith

/-! # Lemmas about recorders -/

namespace Verif.Recorders

open Verif.Run

variable {S O V X : Type}

theorem fold_snoc (rec : Rec S O) (o : O) : ∀ (os : List O) (k : Nat) (s : S),
    rec.fold k (os ++ [o]) s = (rec.fold k os s).bind (rec.after (k + os.length) o) := by
  intro os
  induction os with
  | nil => intro k s; simp only [List.nil_append, Rec.fold, List.length_nil, Nat.add_zero, Option.bind_some]; cases rec.after k o s <;> rfl
  | cons x os ih =>
    intro k s
    simp only [List.cons_append, Rec.fold, List.length_cons]
    cases rec.after k x s with
    | none => rfl
    | some s1 =>
      simp only [Option.bind_some, ih]
      congr 2
      omega

/-- A recorder that never raises in its after-hook and has an array over the combinations as state, updated entry by
entry: the entry of a combination is the fold of the entries observed for it. -/
theorem fold_entries (rec : Rec (List V) O) (f : Nat → V → X → V) (g : O → List X) (x0 : X) (v0 : V) (n : Nat)
    (h : ∀ k o s, rec.after k o s = some (List.zipWith (f k) s (g o))) : ∀ (os : List O) (k : Nat) (s : List V),
    s.length = n → (∀ o ∈ os, (g o).length = n) → ∃ s', rec.fold k os s = some s' ∧ s'.length = n ∧
      ∀ i < n, s'.getD i v0 = (os.zipIdx k).foldl (fun v x => f x.2 v ((g x.1).getD i x0)) (s.getD i v0) := by
  intro os
  induction os with
  | nil => intro k s hs _; exact ⟨s, rfl, hs, fun i _ => rfl⟩
  | cons o os ih =>
    intro k s hs ho
    have hg := ho o List.mem_cons_self
    obtain ⟨s', h1, h2, h3⟩ := ih (k + 1) (List.zipWith (f k) s (g o)) (by simp [hs, hg])
      (fun x hx => ho x (List.mem_cons_of_mem _ hx))
    refine ⟨s', by simp [Rec.fold, h, h1], h2, fun i hi => ?_⟩
    rw [h3 i hi, List.zipIdx_cons, List.foldl_cons]
    congr 1
    simp only
    rw [List.getD_eq_getElem _ _ (by simp [hs, hg, hi]), List.getElem_zipWith, List.getD_eq_getElem _ _ (by omega),
      List.getD_eq_getElem _ _ (by omega)]

/-- An additive update gives the sum. -/
theorem foldl_add {α : Type} (c : α → Rat) (l : List α) : ∀ a : Rat, l.foldl (fun v x => v + c x) a = a + (l.map c).sum := by
  induction l with
  | nil => intro a; simp
  | cons x l ih => intro a; simp only [List.foldl_cons, List.map_cons, List.sum_cons, ih]; ring

theorem getD_replicate {α : Type} (n i : Nat) (a : α) : (List.replicate n a).getD i a = a := by
  rw [List.getD_eq_getElem?_getD, List.getElem?_replicate]
  split_ifs <;> rfl

theorem zipWith_getD {α β γ : Type} (f : α → β → γ) {a : List α} {b : List β} {i : Nat} (ha : i < a.length)
    (hb : i < b.length) (a0 : α) (b0 : β) (c0 : γ) :
    (List.zipWith f a b).getD i c0 = f (a.getD i a0) (b.getD i b0) := by
  rw [List.getD_eq_getElem _ _ (by simp; omega), List.getElem_zipWith, List.getD_eq_getElem _ _ ha,
    List.getD_eq_getElem _ _ hb]

end Verif.Recorders

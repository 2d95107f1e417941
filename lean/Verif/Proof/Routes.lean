import Verif.Proof.Digraph
import Verif.Spec.Routes

namespace Verif.Routes

open Verif

theorem mem_selectNodes {g : Digraph} {info : NodeInfo} {sel : Selector} {n : Nat} :
    n ∈ selectNodes g info sel ↔ Selected g sel n := by
  cases sel with
  | cls test => simp [selectNodes, Selected, List.mem_mergeSort]
  | inst m => simp [selectNodes, Selected]

theorem nodup_selectNodes {g : Digraph} (hg : g.WF) (info : NodeInfo) (sel : Selector) :
    (selectNodes g info sel).Nodup := by
  cases sel with
  | cls test =>
    exact List.Nodup.filter _ ((List.mergeSort_perm _ _).nodup_iff.2 hg.1)
  | inst m => simp [selectNodes]

theorem mem_candidatePaths {g : Digraph} {info : NodeInfo} {sel1 sel2 : Selector} {ml : Option Nat}
    {r : List Nat} :
    r ∈ candidatePaths g info sel1 sel2 ml ↔
      ∃ s t, Selected g sel1 s ∧ Selected g sel2 t ∧ r ∈ g.allSimplePaths s t ml := by
  simp only [candidatePaths, List.mem_flatMap, mem_selectNodes]
  constructor
  · rintro ⟨s, hs, t, ht, hr⟩; exact ⟨s, t, hs, ht, hr⟩
  · rintro ⟨s, t, hs, ht, hr⟩; exact ⟨s, hs, t, ht, hr⟩

theorem nodup_candidatePaths {g : Digraph} (hg : g.WF) (info : NodeInfo) (sel1 sel2 : Selector)
    (ml : Option Nat) : (candidatePaths g info sel1 sel2 ml).Nodup := by
  unfold candidatePaths
  rw [List.nodup_flatMap]
  refine ⟨fun s _ => ?_, ?_⟩
  · rw [List.nodup_flatMap]
    refine ⟨fun t _ => Digraph.nodup_allSimplePaths hg.2.1 _ _ _, ?_⟩
    refine (nodup_selectNodes hg info sel2).imp ?_
    intro a b hab
    simp only [Function.onFun]
    rw [List.disjoint_left]
    intro p h1 h2
    have e1 := (Digraph.mem_allSimplePaths.1 h1).2.1.2.1
    have e2 := (Digraph.mem_allSimplePaths.1 h2).2.1.2.1
    rw [e1] at e2; exact hab (by simpa using e2)
  · refine (nodup_selectNodes hg info sel1).imp ?_
    intro a b hab
    simp only [Function.onFun]
    rw [List.disjoint_left]
    intro p h1 h2
    simp only [List.mem_flatMap] at h1 h2
    obtain ⟨t1, _, h1⟩ := h1
    obtain ⟨t2, _, h2⟩ := h2
    have e1 := (Digraph.mem_allSimplePaths.1 h1).2.1.1
    have e2 := (Digraph.mem_allSimplePaths.1 h2).2.1.1
    rw [e1] at e2; exact hab (by simpa using e2)

theorem filterM_ok {f : List Nat → Except String Bool} {l out : List (List Nat)} (h : filterM f l = .ok out) :
    out.Sublist l ∧ (∀ r, r ∈ out ↔ r ∈ l ∧ f r = .ok true) := by
  induction l generalizing out with
  | nil => simp [filterM] at h; subst h; simp
  | cons a l ih =>
    simp only [filterM] at h
    split at h
    · simp at h
    · rename_i b hb
      split at h
      · simp at h
      · rename_i rest hrest
        obtain ⟨h1, h2⟩ := ih hrest
        simp only [Except.ok.injEq] at h
        cases b with
        | true =>
          simp only [if_true] at h; subst h
          refine ⟨h1.cons_cons a, fun r => ?_⟩
          simp only [List.mem_cons, h2]
          constructor
          · rintro (rfl | ⟨h3, h4⟩)
            · exact ⟨.inl rfl, hb⟩
            · exact ⟨.inr h3, h4⟩
          · rintro ⟨rfl | h3, h4⟩
            · exact .inl rfl
            · exact .inr ⟨h3, h4⟩
        | false =>
          simp only [Bool.false_eq_true, if_false] at h; subst h
          refine ⟨h1.cons a, fun r => ?_⟩
          rw [h2]
          constructor
          · rintro ⟨h3, h4⟩; exact ⟨by simp [h3], h4⟩
          · rintro ⟨h3, h4⟩
            rcases List.mem_cons.1 h3 with rfl | h3
            · rw [hb] at h4; cases h4
            · exact ⟨h3, h4⟩

theorem filterM_error_iff {f : List Nat → Except String Bool} {l : List (List Nat)} :
    (∃ e, filterM f l = .error e) ↔ ∃ r ∈ l, ∃ e, f r = .error e := by
  induction l with
  | nil => simp [filterM]
  | cons a l ih =>
    simp only [filterM]
    cases hfa : f a with
    | error e => simp [hfa]
    | ok b =>
      cases hl : filterM f l with
      | error e =>
        have := ih.1 ⟨e, hl⟩
        simp only [List.mem_cons, exists_eq_or_imp, hfa, reduceCtorEq, exists_false, false_or]
        simpa using this
      | ok rest =>
        have : ¬ ∃ r ∈ l, ∃ e, f r = .error e := by
          intro h; obtain ⟨e, he⟩ := ih.2 h; rw [hl] at he; cases he
        simp only [List.mem_cons, exists_eq_or_imp, hfa, reduceCtorEq, exists_false, false_or]
        simpa using this

/-- First, middle and last of a simple path. -/
theorem mem_middle {s t : Nat} {r : List Nat} {g : Digraph} (hst : s ≠ t) (h : g.IsSimplePath s t r) (x : Nat) :
    x ∈ r.tail.dropLast ↔ x ∈ r ∧ x ≠ s ∧ x ≠ t := by
  obtain ⟨h1, h2, -, h4⟩ := h
  match r, h1 with
  | a :: q, h1 =>
    simp at h1; subst h1
    have hq : q ≠ [] := by rintro rfl; simp at h2; exact hst h2
    rw [List.getLast?_cons_of_ne_nil hq] at h2
    obtain ⟨q', rfl⟩ : ∃ q', q = q' ++ [t] := by
      rw [List.getLast?_eq_some_iff] at h2; exact h2
    simp only [List.tail_cons, List.dropLast_concat]
    rw [List.nodup_cons, List.nodup_append] at h4
    simp only [List.mem_append, List.mem_cons, List.not_mem_nil, or_false, not_or] at h4 ⊢
    constructor
    · intro hx
      refine ⟨.inr (.inl hx), ?_, ?_⟩
      · rintro rfl; exact h4.1.1 hx
      · rintro rfl; exact h4.2.2.2 x hx x rfl rfl
    · rintro ⟨hx | hx | hx, hxs, hxt⟩
      · exact absurd hx hxs
      · exact hx
      · exact absurd hx hxt

theorem eraseDups_length_lt_two {l : List Nat} :
    l.eraseDups.length < 2 ↔ ∀ x ∈ l, ∀ y ∈ l, x = y := by
  match l with
  | [] => simp
  | a :: l =>
    rw [List.eraseDups_cons]
    constructor
    · intro h
      have h0 : (l.filter (fun b => !b == a)).eraseDups = [] := by
        apply List.eq_nil_of_length_eq_zero
        simp only [List.length_cons] at h; omega
      have hall : ∀ x ∈ l, x = a := by
        intro x hx
        by_contra hne
        have : x ∈ (l.filter (fun b => !b == a)).eraseDups := by
          rw [List.mem_eraseDups, List.mem_filter]; exact ⟨hx, by simpa using hne⟩
        rw [h0] at this; simp at this
      intro x hx y hy
      have ex : x = a := by rcases List.mem_cons.1 hx with h | h; exacts [h, hall x h]
      have ey : y = a := by rcases List.mem_cons.1 hy with h | h; exacts [h, hall y h]
      rw [ex, ey]
    · intro h
      have : l.filter (fun b => !b == a) = [] := by
        rw [List.filter_eq_nil_iff]
        intro x hx; simp [h x (by simp [hx]) a (by simp)]
      rw [this]; simp

theorem routeOk_iff {info : NodeInfo} {valid : Option (Nat → Bool)} {ml : Option Nat} {dm : DomainMatch}
    {g : Digraph} {s t : Nat} (hst : s ≠ t) {r : List Nat} (h : g.IsSimplePath s t r) :
    routeOk info valid ml dm r = .ok true ↔
      (∀ test, valid = some test → ∀ x, x ∈ r → x ≠ s → x ≠ t → test x = true) ∧
      (∀ k, ml = some k → r.length ≤ k) ∧ DomainRule info r dm := by
  have hvalid : okValid valid r = true ↔
      (∀ test, valid = some test → ∀ x, x ∈ r → x ≠ s → x ≠ t → test x = true) := by
    cases valid with
    | none => simp [okValid]
    | some test =>
      simp only [okValid, Option.some.injEq, forall_eq']
      by_cases hl : r.length > 2
      · rw [if_pos hl, List.all_eq_true]
        constructor
        · intro h' x hx hxs hxt; exact h' x ((mem_middle hst h x).2 ⟨hx, hxs, hxt⟩)
        · intro h' x hx
          obtain ⟨h1, h2, h3⟩ := (mem_middle hst h x).1 hx
          exact h' x h1 h2 h3
      · rw [if_neg hl]
        simp only [true_iff]
        intro x hx hxs hxt
        have := (mem_middle hst h x).2 ⟨hx, hxs, hxt⟩
        have := List.length_pos_of_mem this
        simp at this; omega
  have hlen : okLength ml r = true ↔ (∀ k, ml = some k → r.length ≤ k) := by
    cases ml <;> simp [okLength]
  unfold routeOk
  rw [← hvalid, ← hlen]
  cases dm with
  | strict =>
    match r, h.1 with
    | a :: q, h1 =>
      simp only [Except.map, okDomain, DomainRule]
      simp only [Except.ok.injEq, Bool.and_eq_true, List.all_eq_true, beq_iff_eq]
      constructor
      · rintro ⟨⟨h1, h2⟩, h3⟩
        refine ⟨h1, h3, ?_⟩
        have hall : ∀ x ∈ a :: q, info.domain x = info.domain a := by
          intro x hx; rcases List.mem_cons.1 hx with rfl | hx; exacts [rfl, h2 x hx]
        intro x hx y hy; rw [hall x hx, hall y hy]
      · rintro ⟨h1, h3, h2⟩
        exact ⟨⟨h1, fun x hx => h2 x (by simp [hx]) a (by simp)⟩, h3⟩
  | different =>
    simp only [Except.map, okDomain, DomainRule, Except.ok.injEq, Bool.and_eq_true, Bool.not_eq_true',
      decide_eq_false_iff_not, eraseDups_length_lt_two]
    have : (¬ ∀ x ∈ r.map info.domain, ∀ y ∈ r.map info.domain, x = y) ↔
        ∃ x ∈ r, ∃ y ∈ r, info.domain x ≠ info.domain y := by
      simp only [List.mem_map, forall_exists_index, and_imp, forall_apply_eq_imp_iff₂]
      push Not; rfl
    rw [this]; tauto
  | any => simp [Except.map, okDomain, DomainRule]
  | other => simp [Except.map, okDomain, DomainRule]

end Verif.Routes

import Mathlib.Data.List.Nodup
import Mathlib.Data.List.ProdSigma
import Mathlib.Data.List.Forall2
import Mathlib.Data.List.Range
import Mathlib.Algebra.BigOperators.Group.List.Basic
import Mathlib.Algebra.Group.Action.Defs
import Mathlib.Tactic.Ring
import Mathlib.Tactic.Linarith
import Mathlib.Tactic.Push
import Verif.Spec.Scenarios

namespace Verif.Scenarios

/-! ## Slices -/

theorem adjust_pos (n : Nat) (d : Int) (o : Option Int) : adjust n true d o = bound n 0 n d o := by
  cases o with
  | none => rfl
  | some i => simp only [adjust, bound, if_true]; split_ifs <;> omega

theorem adjust_neg (n : Nat) (d : Int) (o : Option Int) : adjust n false d o = bound n (-1) (n - 1) d o := by
  cases o with
  | none => rfl
  | some i => simp only [adjust, bound, Bool.false_eq_true, if_false]; split_ifs <;> omega

theorem mem_arith_pos {a b step i : Int} (hs : 0 < step) :
    i ∈ ((List.range (if a < b then ((b - a - 1) / step + 1).toNat else 0)).map
      (fun k : Nat => a + (k : Int) * step)) ↔ a ≤ i ∧ i < b ∧ step ∣ (i - a) := by
  simp only [List.mem_map, List.mem_range]
  by_cases hab : a < b
  · simp only [hab, if_true]
    have hq : 0 ≤ (b - a - 1) / step := Int.ediv_nonneg (by omega) (by omega)
    constructor
    · rintro ⟨k, hk, rfl⟩
      have hk' : (k : Int) ≤ (b - a - 1) / step := by omega
      have : (k : Int) * step ≤ b - a - 1 := by
        have := (Int.le_ediv_iff_mul_le hs).1 hk'; linarith
      refine ⟨by nlinarith [Int.natCast_nonneg k], by linarith, ⟨k, by ring⟩⟩
    · rintro ⟨h1, h2, k, hk⟩
      have hk0 : 0 ≤ k := by
        by_contra hneg; push Not at hneg; nlinarith
      refine ⟨k.toNat, ?_, ?_⟩
      · have : k ≤ (b - a - 1) / step := by
          rw [Int.le_ediv_iff_mul_le hs]; nlinarith
        omega
      · rw [Int.toNat_of_nonneg hk0]; linarith
  · simp only [hab, if_false]
    constructor
    · rintro ⟨k, hk, _⟩; omega
    · rintro ⟨h1, h2, _⟩; omega

theorem mem_arith_neg {a b step i : Int} (hs : step < 0) :
    i ∈ ((List.range (if b < a then ((a - b - 1) / (-step) + 1).toNat else 0)).map
      (fun k : Nat => a + (k : Int) * step)) ↔ b < i ∧ i ≤ a ∧ step ∣ (i - a) := by
  simp only [List.mem_map, List.mem_range]
  have hs' : 0 < -step := by omega
  by_cases hab : b < a
  · simp only [hab, if_true]
    have hq : 0 ≤ (a - b - 1) / (-step) := Int.ediv_nonneg (by omega) (by omega)
    constructor
    · rintro ⟨k, hk, rfl⟩
      have hk' : (k : Int) ≤ (a - b - 1) / (-step) := by omega
      have : (k : Int) * (-step) ≤ a - b - 1 := by
        have := (Int.le_ediv_iff_mul_le hs').1 hk'; linarith
      refine ⟨by linarith, by nlinarith [Int.natCast_nonneg k], ⟨k, by ring⟩⟩
    · rintro ⟨h1, h2, k, hk⟩
      have hk0 : 0 ≤ k := by
        by_contra hneg; push Not at hneg; nlinarith
      refine ⟨k.toNat, ?_, ?_⟩
      · have : k ≤ (a - b - 1) / (-step) := by
          rw [Int.le_ediv_iff_mul_le hs']; nlinarith
        omega
      · rw [Int.toNat_of_nonneg hk0]; linarith
  · simp only [hab, if_false]
    constructor
    · rintro ⟨k, hk, _⟩; omega
    · rintro ⟨h1, h2, _⟩; omega

theorem mem_sliceRange {n : Nat} {s : PySlice} {l : List Int} (h : sliceRange n s = some l) (i : Int) :
    i ∈ l ↔ InSlice n s i := by
  unfold sliceRange at h
  unfold InSlice
  simp only at h ⊢
  split at h
  · simp at h
  · rename_i h0
    split at h
    · rename_i hp
      simp only [Option.some.injEq] at h
      subst h
      rw [if_pos hp, mem_arith_pos hp, adjust_pos, adjust_pos]
    · rename_i hp
      simp only [Option.some.injEq] at h
      subst h
      rw [if_neg hp, mem_arith_neg (by omega), adjust_neg, adjust_neg]

theorem nodup_arith {step a : Int} (hs : step ≠ 0) (len : Nat) :
    ((List.range len).map (fun k : Nat => a + (k : Int) * step)).Nodup := by
  refine List.Nodup.map ?_ List.nodup_range
  intro x y hxy
  have : (x : Int) * step = y * step := by simpa using hxy
  have := mul_right_cancel₀ hs this
  exact_mod_cast this

theorem nodup_sliceRange {n : Nat} {s : PySlice} {l : List Int} (h : sliceRange n s = some l) : l.Nodup := by
  unfold sliceRange at h
  simp only at h
  split at h
  · simp at h
  · rename_i h0
    split at h <;> (simp only [Option.some.injEq] at h; subst h; exact nodup_arith h0 _)

theorem inSlice_range {n : Nat} {s : PySlice} {i : Int} (h : InSlice n s i) : 0 ≤ i ∧ i < n := by
  unfold InSlice at h
  simp only at h
  split at h
  · obtain ⟨h1, h2, -⟩ := h
    constructor
    · refine le_trans ?_ h1; cases s.start <;> simp only [bound] <;> omega
    · refine lt_of_lt_of_le h2 ?_; cases s.stop <;> simp only [bound] <;> omega
  · obtain ⟨h1, h2, -⟩ := h
    constructor
    · have : (-1 : Int) ≤ bound n (-1) (n - 1) (-1) s.stop := by cases s.stop <;> simp only [bound] <;> omega
      omega
    · have : bound n (-1) (n - 1) (n - 1) s.start ≤ n - 1 := by cases s.start <;> simp only [bound] <;> omega
      omega

/-! ## Selections -/

theorem mem_selection {s : Scenario} {l : List Int} (h : s.selection = .ok l) (i : Int) :
    i ∈ l ↔ s.Selects i := by
  unfold Scenario.selection at h
  unfold Scenario.Selects
  split at h
  · rename_i sl hsl
    rw [hsl]
    split at h
    · rename_i l' hl'; cases h; exact mem_sliceRange hl' i
    · cases h
  · rename_i hsl
    rw [hsl]
    cases h
    simp only [List.mem_map, List.mem_range]
    constructor
    · rintro ⟨k, hk, rfl⟩; simp; omega
    · rintro ⟨h1, h2⟩; exact ⟨i.toNat, by omega, by simp [h1]⟩

theorem nodup_selection {s : Scenario} {l : List Int} (h : s.selection = .ok l) : l.Nodup := by
  unfold Scenario.selection at h
  split at h
  · split at h
    · rename_i l' hl'; cases h; exact nodup_sliceRange hl'
    · cases h
  · cases h
    exact List.Nodup.map (fun a b h => by simpa using h) List.nodup_range

theorem selects_range {s : Scenario} {i : Int} (h : s.Selects i) : 0 ≤ i ∧ i < s.size := by
  unfold Scenario.Selects at h
  split at h
  · exact h
  · exact inSlice_range h

theorem selections_forall2 {ss : List Scenario} {ls : List (List Int)} (h : selections ss = .ok ls) :
    List.Forall₂ (fun s l => Scenario.selection s = .ok l) ss ls := by
  induction ss generalizing ls with
  | nil => simp [selections] at h; subst h; exact .nil
  | cons s ss ih =>
    simp only [selections] at h
    split at h
    · cases h
    · rename_i l hl
      split at h
      · cases h
      · rename_i ls' hls
        cases h
        exact .cons hl (ih hls)

/-! ## Products -/

theorem mem_product {ls : List (List Int)} {c : List Int} :
    c ∈ product ls ↔ List.Forall₂ (fun i l => i ∈ l) c ls := by
  induction ls generalizing c with
  | nil => simp [product, List.forall₂_nil_right_iff]
  | cons l ls ih =>
    simp only [product, List.mem_flatMap, List.mem_map]
    constructor
    · rintro ⟨x, hx, d, hd, rfl⟩; exact .cons hx (ih.1 hd)
    · intro h
      cases h with
      | cons h1 h2 => exact ⟨_, h1, _, ih.2 h2, rfl⟩

theorem nodup_product {ls : List (List Int)} (h : ∀ l ∈ ls, l.Nodup) : (product ls).Nodup := by
  induction ls with
  | nil => simp [product]
  | cons l ls ih =>
    simp only [product]
    rw [List.nodup_flatMap]
    refine ⟨fun x _ => (ih (fun l' hl' => h l' (by simp [hl']))).map (fun a b hab => by simpa using hab), ?_⟩
    refine (h l (by simp)).imp ?_
    intro a b hab
    simp only [Function.onFun]
    rw [List.disjoint_left]
    intro c hc1 hc2
    simp only [List.mem_map] at hc1 hc2
    obtain ⟨c1, _, rfl⟩ := hc1
    obtain ⟨c2, _, h2⟩ := hc2
    simp at h2; exact hab h2.1.symm

theorem length_product (ls : List (List Int)) : (product ls).length = (ls.map List.length).prod := by
  induction ls with
  | nil => simp [product]
  | cons l ls ih =>
    simp only [product, List.length_flatMap, List.length_map, ih, List.map_const', List.sum_replicate,
      List.map_cons, List.prod_cons, smul_eq_mul]

/-- Lexicographic order of the product when every list is increasing. -/
theorem pairwise_product {ls : List (List Int)} (h : ∀ l ∈ ls, l.Pairwise (· < ·)) :
    (product ls).Pairwise (· < ·) := by
  induction ls with
  | nil => simp [product]
  | cons l ls ih =>
    simp only [product]
    have ih' := ih (fun l' hl' => h l' (by simp [hl']))
    have hl := h l (by simp)
    rw [List.pairwise_flatMap]
    refine ⟨fun x _ => ?_, ?_⟩
    · rw [List.pairwise_map]
      exact ih'.imp (fun {a b} hab => List.Lex.cons hab)
    · refine hl.imp ?_
      intro a b hab c hc d hd
      simp only [List.mem_map] at hc hd
      obtain ⟨c', _, rfl⟩ := hc
      obtain ⟨d', _, rfl⟩ := hd
      exact List.Lex.rel hab

/-- Reading the product at the flat position of a tuple of positions gives the tuple of the entries. -/
theorem product_ravel {ls : List (List Int)} {p : List Nat} (h : List.Forall₂ (fun k l => k < l.length) p ls) :
    ∃ g, ravelMultiIndex (p.map Int.ofNat) (ls.map List.length) = some g ∧
      (product ls)[g]? = some (List.zipWith (fun (l : List Int) k => l.getD k 0) ls p) ∧
      g < (ls.map List.length).prod := by
  induction h with
  | nil => exact ⟨0, by simp [ravelMultiIndex], by simp [product], by simp⟩
  | @cons k l p ls hk hp ih =>
    obtain ⟨g, h1, h2, h3⟩ := ih
    refine ⟨k * (ls.map List.length).prod + g, ?_, ?_, ?_⟩
    · simp only [List.map_cons, ravelMultiIndex]
      rw [if_pos (by constructor <;> simp; omega), h1]
      simp
    · simp only [product, List.zipWith_cons_cons]
      have key : ∀ (l : List Int) (k : Nat), k < l.length →
          (l.flatMap fun x => (product ls).map (x :: ·))[k * (ls.map List.length).prod + g]? =
            some (l.getD k 0 :: List.zipWith (fun (l : List Int) k => l.getD k 0) ls p) := by
        intro l
        induction l with
        | nil => intro k hk; simp at hk
        | cons x l ihl =>
          intro k hk
          simp only [List.flatMap_cons]
          cases k with
          | zero =>
            rw [List.getElem?_append_left (by simp [length_product, h3])]
            simp [h2]
          | succ k =>
            rw [List.getElem?_append_right (by simp only [List.length_map, length_product]; nlinarith)]
            have := ihl k (by simpa using hk)
            simp only [List.length_map, length_product]
            have e : (k + 1) * (List.map List.length ls).prod + g - (List.map List.length ls).prod =
                k * (List.map List.length ls).prod + g := by
              rw [Nat.succ_mul]; omega
            rw [e, this]; simp
      exact key l k hk
    · simp only [List.map_cons, List.prod_cons]
      calc k * (ls.map List.length).prod + g < k * (ls.map List.length).prod + (ls.map List.length).prod := by omega
        _ = (k + 1) * (ls.map List.length).prod := by ring
        _ ≤ l.length * (ls.map List.length).prod := Nat.mul_le_mul_right _ hk

theorem ravel_lt {is : List Int} {ds : List Nat} {r : Nat} (h : ravelMultiIndex is ds = some r) : r < ds.prod := by
  induction is generalizing ds r with
  | nil => cases ds <;> simp [ravelMultiIndex] at h; subst h; simp
  | cons i is ih =>
    cases ds with
    | nil => simp [ravelMultiIndex] at h
    | cons d ds =>
      simp only [ravelMultiIndex] at h
      split at h
      · rename_i hi
        simp only [Option.map_eq_some_iff] at h
        obtain ⟨r', hr', rfl⟩ := h
        have := ih hr'
        simp only [List.prod_cons]
        have hk : i.toNat + 1 ≤ d := by omega
        calc i.toNat * ds.prod + r' < (i.toNat + 1) * ds.prod := by rw [Nat.succ_mul]; omega
          _ ≤ d * ds.prod := Nat.mul_le_mul_right _ hk
      · simp at h

theorem ravel_injective {is js : List Int} {ds : List Nat} {r : Nat} (h1 : ravelMultiIndex is ds = some r)
    (h2 : ravelMultiIndex js ds = some r) : is = js := by
  induction is generalizing js ds r with
  | nil =>
    cases ds <;> simp [ravelMultiIndex] at h1
    cases js <;> simp [ravelMultiIndex] at h2 ⊢
  | cons i is ih =>
    cases ds with
    | nil => simp [ravelMultiIndex] at h1
    | cons d ds =>
      cases js with
      | nil => simp [ravelMultiIndex] at h2
      | cons j js =>
        simp only [ravelMultiIndex] at h1 h2
        split at h1
        · split at h2
          · rename_i hi hj
            simp only [Option.map_eq_some_iff] at h1 h2
            obtain ⟨r1, hr1, e1⟩ := h1
            obtain ⟨r2, hr2, e2⟩ := h2
            have l1 := ravel_lt hr1
            have l2 := ravel_lt hr2
            have hp : 0 < ds.prod := by omega
            have hij : i.toNat = j.toNat := by
              have a1 : (i.toNat * ds.prod + r1) / ds.prod = i.toNat := by
                rw [Nat.mul_comm, Nat.mul_add_div hp, Nat.div_eq_of_lt l1]; omega
              have a2 : (j.toNat * ds.prod + r2) / ds.prod = j.toNat := by
                rw [Nat.mul_comm, Nat.mul_add_div hp, Nat.div_eq_of_lt l2]; omega
              rw [← a1, ← a2, e1, e2]
            have hr : r1 = r2 := by
              have : i.toNat * ds.prod = j.toNat * ds.prod := by rw [hij]
              omega
            subst hr
            rw [ih hr1 hr2]
            congr 1; omega
          · simp at h2
        · simp at h1

/-! ## Enumeration -/

theorem getElem?_enumerate (rows : List (List Int)) (g : Nat) :
    (enumerate rows)[g]? = rows[g]?.map (fun r => (g, r)) := by
  simp only [enumerate, List.getElem?_map, List.getElem?_zipIdx]
  cases rows[g]? <;> simp

theorem mem_enumerate {rows : List (List Int)} {g : Nat} {r : List Int} :
    (g, r) ∈ enumerate rows ↔ rows[g]? = some r := by
  rw [List.mem_iff_getElem?]
  constructor
  · rintro ⟨i, hi⟩
    rw [getElem?_enumerate] at hi
    simp only [Option.map_eq_some_iff, Prod.mk.injEq] at hi
    obtain ⟨a, ha, rfl, rfl⟩ := hi
    exact ha
  · intro h
    exact ⟨g, by rw [getElem?_enumerate, h]; rfl⟩

theorem enumerate_snd (rows : List (List Int)) : (enumerate rows).map Prod.snd = rows := by
  apply List.ext_getElem?
  intro i
  rw [List.getElem?_map, getElem?_enumerate]
  cases rows[i]? <;> simp

theorem enumerate_fst (rows : List (List Int)) : (enumerate rows).map Prod.fst = List.range rows.length := by
  apply List.ext_getElem?
  intro i
  rw [List.getElem?_map, getElem?_enumerate]
  by_cases hi : i < rows.length
  · simp [hi]
  · simp [hi]

theorem length_enumerate (rows : List (List Int)) : (enumerate rows).length = rows.length := by
  simp [enumerate]

theorem isEmpty_enumerate (rows : List (List Int)) : (enumerate rows).isEmpty = rows.isEmpty := by
  cases rows <;> simp [enumerate]

theorem mem_product_iff_choice {ss : List Scenario} {ls : List (List Int)}
    (hf : List.Forall₂ (fun s l => Scenario.selection s = .ok l) ss ls) (choice : List Int) :
    choice ∈ product ls ↔ IsChoice ss choice := by
  rw [mem_product]
  unfold IsChoice
  induction hf generalizing choice with
  | nil => simp [List.forall₂_nil_right_iff]
  | cons hsl _ ih =>
    cases choice with
    | nil => simp
    | cons i is => simp only [List.forall₂_cons, ih, mem_selection hsl]

theorem forall_nodup_selections {ss : List Scenario} {ls : List (List Int)}
    (hf : List.Forall₂ (fun s l => Scenario.selection s = .ok l) ss ls) : ∀ l ∈ ls, l.Nodup := by
  induction hf with
  | nil => simp
  | cons hsl _ ih =>
    intro l hl
    rcases List.mem_cons.1 hl with rfl | hl
    · exact nodup_selection hsl
    · exact ih l hl

theorem selection_increasing {s : Scenario} {l : List Int} (h : s.selection = .ok l)
    (hs : ∀ sl, s.slice = some sl → 0 < sl.step.getD 1) : l.Pairwise (· < ·) := by
  unfold Scenario.selection at h
  split at h
  · rename_i sl hsl
    have hp := hs sl hsl
    split at h
    · rename_i l' hl'
      cases h
      unfold sliceRange at hl'
      simp only at hl'
      rw [if_neg (by omega), if_pos hp] at hl'
      simp only [Option.some.injEq] at hl'
      subst hl'
      rw [List.pairwise_map]
      refine List.pairwise_lt_range.imp ?_
      intro a b hab
      have : (a : Int) < b := by exact_mod_cast hab
      nlinarith
    · cases h
  · cases h
    rw [List.pairwise_map]
    refine List.pairwise_lt_range.imp ?_
    intro a b hab
    simpa using hab

theorem selections_error_iff {ss : List Scenario} :
    (∃ e, selections ss = .error e) ↔ ∃ s ∈ ss, ∃ sl, s.slice = some sl ∧ sl.step = some 0 := by
  have hone : ∀ s : Scenario, (∃ e, s.selection = .error e) ↔ ∃ sl, s.slice = some sl ∧ sl.step = some 0 := by
    intro s
    unfold Scenario.selection
    cases hsl : s.slice with
    | none => simp
    | some sl =>
      simp only [Option.some.injEq, exists_eq_left']
      unfold sliceRange
      cases hst : sl.step with
      | none => simp
      | some k =>
        simp only [Option.getD_some, Option.some.injEq]
        by_cases hk : k = 0
        · simp only [hk, if_true, iff_true]; exact ⟨Err.valueError, by simp⟩
        · simp only [hk, if_false, iff_false, not_exists]
          intro e
          split_ifs <;> simp
  induction ss with
  | nil => simp [selections]
  | cons s ss ih =>
    simp only [selections, List.mem_cons, exists_eq_or_imp]
    refine Iff.trans ?_ (or_congr (hone s) ih)
    cases h1 : s.selection with
    | error e => exact ⟨fun _ => Or.inl ⟨e, rfl⟩, fun _ => ⟨e, rfl⟩⟩
    | ok l =>
      cases h2 : selections ss with
      | error e => simp
      | ok ls => simp

theorem getCombinations_product {ss : List Scenario} (hs : ss ≠ []) {combos : List Index}
    (h : Collection.getCombinations ⟨ss, none⟩ = .ok combos) :
    ∃ ls, selections ss = .ok ls ∧ combos = enumerate (product ls) := by
  unfold Collection.getCombinations at h
  have hlen : ss.length ≠ 0 := by simpa using hs
  simp only [hlen, if_false] at h
  cases hsel : selections ss with
  | error e => simp [hsel] at h
  | ok ls =>
    simp only [hsel] at h
    split at h
    · cases h
    · cases h; exact ⟨ls, rfl, rfl⟩

theorem forall₂_zip_any {row : List Int} {ss : List Scenario} (hl : row.length = ss.length) :
    (((row.zip ss).any (fun p => p.1 ≥ p.2.size)) = false ∧ (row.any (fun v => v < 0)) = false) ↔ ValidRow ss row := by
  induction row generalizing ss with
  | nil => cases ss with
    | nil => simp [ValidRow]
    | cons => simp at hl
  | cons i is ih =>
    cases ss with
    | nil => simp at hl
    | cons s ss =>
      have := ih (ss := ss) (by simpa using hl)
      unfold ValidRow at this ⊢
      simp only [List.zip_cons_cons, List.any_cons, Bool.or_eq_false_iff, List.forall₂_cons, ← this,
        decide_eq_false_iff_not, not_le, ge_iff_le, not_lt]
      tauto

end Verif.Scenarios

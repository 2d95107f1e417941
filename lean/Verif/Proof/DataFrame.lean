import Mathlib.Data.List.GetD
import Verif.Model.DataFrame
import Verif.Spec.DataFrame
import Verif.Proof.Scenarios

/-! # Lemmas on table look-ups -/

namespace Verif.DataFrame

open Verif.Scenarios

theorem resolve_nat {n m : Nat} (h : m < n) : resolve n (m : Int) = some m := by
  unfold resolve
  rw [if_pos ⟨by omega, by omega⟩]
  simp

theorem resolve_eq {n : Nat} {i : Int} (h0 : 0 ≤ i) (h : i < n) : resolve n i = some i.toNat := by
  unfold resolve; rw [if_pos ⟨h0, h⟩]

theorem mem_insertSorted {x y : Int} {l : List Int} : y ∈ insertSorted x l ↔ y = x ∨ y ∈ l := by
  induction l with
  | nil => simp [insertSorted]
  | cons z zs ih =>
    unfold insertSorted
    by_cases h1 : x < z
    · rw [if_pos h1]; simp
    · rw [if_neg h1]
      by_cases h2 : x = z
      · rw [if_pos h2]; subst h2; simp
      · rw [if_neg h2]; simp only [List.mem_cons, ih]; tauto

theorem mem_sortedSet {y : Int} {l : List Int} : y ∈ sortedSet l ↔ y ∈ l := by
  induction l with
  | nil => simp [sortedSet]
  | cons x xs ih => simp only [sortedSet, mem_insertSorted, ih, List.mem_cons]

theorem resolveAll_ok {n : Nat} {l : List Int} (h : ∀ i ∈ l, 0 ≤ i ∧ i < (n : Int)) :
    resolveAll n l = some (l.map Int.toNat) := by
  induction l with
  | nil => rfl
  | cons i is ih =>
    simp only [resolveAll, resolve_eq (h i (by simp)).1 (h i (by simp)).2,
      ih (fun j hj => h j (List.mem_cons_of_mem _ hj)), List.map_cons]

/-- After the loop every member of the list is mapped to a position holding it. -/
theorem assignIds_ok {l : List Int} (ids : List Nat) (n : Nat) (h : ∀ i ∈ l, 0 ≤ i ∧ i < (ids.length : Int)) :
    ∃ ids', assignIds ids n l = .ok ids' ∧ ids'.length = ids.length ∧
      (∀ p : Nat, (p : Int) ∉ l → ids'[p]? = ids[p]?) ∧
      ∀ p : Nat, (p : Int) ∈ l → ∃ q, ids'[p]? = some (n + q) ∧ l[q]? = some (p : Int) := by
  induction l generalizing ids n with
  | nil => exact ⟨ids, rfl, rfl, fun _ _ => rfl, fun p hp => by simp at hp⟩
  | cons i is ih =>
    obtain ⟨hi0, hi⟩ := h i (by simp)
    obtain ⟨ids', h1, h2, h3, h4⟩ := ih (ids.set i.toNat n) (n + 1)
      (fun j hj => by simpa using h j (List.mem_cons_of_mem _ hj))
    refine ⟨ids', ?_, by simpa using h2, ?_, ?_⟩
    · unfold assignIds; rw [resolve_eq hi0 hi]; exact h1
    · intro p hp
      rw [h3 p (fun hc => hp (List.mem_cons_of_mem _ hc)), List.getElem?_set_ne]
      intro hc
      apply hp
      have : (p : Int) = i := by omega
      simp [this]
    · intro p hp
      by_cases hin : (p : Int) ∈ is
      · obtain ⟨q, hq1, hq2⟩ := h4 p hin
        exact ⟨q + 1, by rw [hq1]; congr 1; omega, by simpa using hq2⟩
      · have hpi : (p : Int) = i := by
          rcases List.mem_cons.1 hp with h | h
          · exact h
          · exact absurd h hin
        refine ⟨0, ?_, by simp [hpi]⟩
        have : i.toNat = p := by omega
        rw [h3 p hin, this, List.getElem?_set_self (by omega)]
        simp

theorem rowIndex_spec {rows index : Nat} {offset : Int} (h : 0 < rows) :
    ∃ r : Nat, rowIndex rows index offset = (r : Int) ∧ IsRow rows ((index : Int) + offset) r := by
  refine ⟨(rowIndex rows index offset).toNat, ?_, ?_⟩
  · unfold rowIndex; omega
  · unfold IsRow rowIndex; omega

theorem forall₂_getElem? {α β : Type} {R : α → β → Prop} {l : List α} {m : List β} (h : List.Forall₂ R l m) (k : Nat)
    (b : β) (hb : m[k]? = some b) : ∃ a, l[k]? = some a ∧ R a b := by
  induction h generalizing k with
  | nil => simp at hb
  | cons hr _ ih =>
    cases k with
    | zero => simp at hb; subst hb; exact ⟨_, rfl, hr⟩
    | succ k => simpa using ih k (by simpa using hb)

/-- A member of a plain slice is among the columns found from the end of the slice. -/
theorem stopIndices_ok {n : Nat} {sl : PySlice} (hp : Plain n sl) :
    ∃ l, stopIndices sl = .ok l ∧ (∀ i ∈ l, 0 ≤ i ∧ i < (n : Int)) ∧ ∀ i, InSlice n sl i → i ∈ l := by
  obtain ⟨⟨b, hb, hb0, hbn, hs⟩, hstep⟩ := hp
  have hne : sl.step.getD 1 ≠ 0 := by omega
  have hsome : ∃ l, sliceRange b.toNat sl = some l := by
    unfold sliceRange
    simp only [if_neg hne, if_pos hstep]
    exact ⟨_, rfl⟩
  obtain ⟨l, hl⟩ := hsome
  refine ⟨l, ?_, ?_, ?_⟩
  · unfold stopIndices; simp only [hb, hl]; rw [if_neg (by omega)]
  · intro i hi
    have := inSlice_range ((mem_sliceRange hl i).1 hi)
    omega
  · intro i hi
    rw [mem_sliceRange hl]
    unfold InSlice at hi ⊢
    simp only [if_pos (show sl.step.getD 1 > 0 from hstep), hb, bound] at hi ⊢
    obtain ⟨h1, h2, h3⟩ := hi
    have hbt : ((b.toNat : Nat) : Int) = b := Int.toNat_of_nonneg hb0
    have hnb : ¬ b < 0 := by omega
    simp only [if_neg hnb, hbt] at h2 ⊢
    cases hst : sl.start with
    | none =>
      simp only [hst] at h1 h3 ⊢
      exact ⟨h1, by omega, h3⟩
    | some a =>
      simp only [hst] at h1 h3 ⊢
      by_cases ha : a < 0
      · simp only [if_pos ha] at h1 h3 ⊢
        rcases hs with hs | hs | hs
        · exact absurd (hs a hst) (by omega)
        · rw [hs] at h3 ⊢
          exact ⟨by omega, by omega, one_dvd _⟩
        · subst hs
          exact ⟨by omega, by omega, h3⟩
      · simp only [if_neg ha] at h1 h3 ⊢
        have : max 0 (min (n : Int) a) = max 0 (min b a) := by omega
        rw [this] at h1 h3
        exact ⟨h1, by omega, h3⟩

/-- A combination of the model addresses an existing member of every scenario. -/
theorem combo_member {c : Collection} (hv : ValidUser c) {combos : List Index} (hc : c.getCombinations = .ok combos)
    {k : Nat} {s : Scenario} (hk : c.scenarios[k]? = some s) {g : Nat} {combo : List Int} (hm : (g, combo) ∈ combos) :
    ∃ m : Nat, combo[k]? = some (m : Int) ∧ m < s.size ∧
      (c.user = none → s.Selects m) ∧ ∀ rows, c.user = some rows → combo ∈ rows := by
  obtain ⟨ss, user⟩ := c
  have hne : ss ≠ [] := by rintro rfl; simp at hk
  cases user with
  | some rows =>
    have hmem : combo ∈ rows := by
      unfold Collection.getCombinations at hc
      have hlen : ss.length ≠ 0 := by simpa using hne
      simp only [hlen, if_false] at hc
      split at hc
      · cases hc
      · cases hc
        rw [mem_enumerate] at hm
        exact List.mem_of_getElem? hm
    obtain ⟨i, hi, hi0, hin⟩ := forall₂_getElem? (hv rows rfl combo hmem) k s hk
    refine ⟨i.toNat, by rw [hi]; congr 1; omega, by omega, (by intro h; cases h), ?_⟩
    intro rows' hr; cases hr; exact hmem
  | none =>
    obtain ⟨ls, hsel, rfl⟩ := getCombinations_product hne hc
    rw [mem_enumerate] at hm
    have hch := (mem_product_iff_choice (selections_forall2 hsel) combo).1 (List.mem_of_getElem? hm)
    obtain ⟨i, hi, hsi⟩ := forall₂_getElem? hch k s hk
    have hr := selects_range hsi
    have he : ((i.toNat : Nat) : Int) = i := Int.toNat_of_nonneg hr.1
    refine ⟨i.toNat, by rw [hi, he], by omega, fun _ => by rw [he]; exact hsi, ?_⟩
    intro rows' hr; cases hr

/-- The members to load contain every member that is run. -/
theorem scenarioIndices_ok {c : Collection} (hv : ValidUser c) {combos : List Index}
    (hc : c.getCombinations = .ok combos) {k : Nat} {s : Scenario} (hk : c.scenarios[k]? = some s)
    (hsl : c.user = none → ∀ sl, s.slice = some sl → Plain s.size sl) :
    scenarioIndices c k s = .ok none ∨
      ∃ idx, scenarioIndices c k s = .ok (some idx) ∧ (∀ i ∈ idx, 0 ≤ i ∧ i < (s.size : Int)) ∧
        ∀ g combo, (g, combo) ∈ combos → ∀ m : Int, combo[k]? = some m → m ∈ idx := by
  cases hu : c.user with
  | some rows =>
    cases rows with
    | nil =>
      exfalso
      unfold Collection.getCombinations at hc
      have hne : c.scenarios ≠ [] := by intro h; simp [h] at hk
      have hlen : c.scenarios.length ≠ 0 := by simpa using hne
      simp [hlen, hu, enumerate] at hc
    | cons r rs =>
      right
      refine ⟨sortedSet ((r :: rs).map (fun row => row.getD k 0)), by simp only [scenarioIndices, hu], ?_, ?_⟩
      · intro i hi
        rw [mem_sortedSet, List.mem_map] at hi
        obtain ⟨row, hrow, rfl⟩ := hi
        obtain ⟨v, hv1, hv2⟩ := forall₂_getElem? (hv _ hu row hrow) k s hk
        simp only [List.getD, hv1, Option.getD_some]
        exact hv2
      · intro g combo hm m hmk
        rw [mem_sortedSet, List.mem_map]
        obtain ⟨_, _, _, _, hmem⟩ := combo_member hv hc hk hm
        exact ⟨combo, hmem _ hu, by simp [List.getD, hmk]⟩
  | none =>
    cases hs : s.slice with
    | none => left; simp only [scenarioIndices, hu, hs]
    | some sl =>
      right
      obtain ⟨l, hl, hb, hin⟩ := stopIndices_ok (hsl hu sl hs)
      refine ⟨l, by simp only [scenarioIndices, hu, hs, hl], hb, ?_⟩
      intro g combo hm m hmk
      obtain ⟨m', hm', _, hsel, _⟩ := combo_member hv hc hk hm
      rw [hm'] at hmk
      cases hmk
      have := hsel hu
      unfold Scenario.Selects at this
      rw [hs] at this
      exact hin _ this

/-- Looking up a loaded member finds its column. -/
theorem loaded_value {α : Type} {f : Frame α} {k : Nat} {size : Nat} {idx : List Int}
    (hidx : ∀ i ∈ idx, 0 ≤ i ∧ i < (size : Int)) (hcols : size ≤ f.cols) :
    ∃ ids loaded, scenarioIds size idx = .ok ids ∧ f.columns idx = .ok loaded ∧ loaded.rows = f.rows ∧
      (∀ r n, n < loaded.cols → ∃ m, m < size ∧ loaded.cell r n = f.cell r m) ∧
      ∀ combo : List Int, ∀ m : Nat, combo[k]? = some (m : Int) → (m : Int) ∈ idx → ∀ r : Nat, r < f.rows →
        ∀ index offset, rowIndex f.rows index offset = (r : Int) →
        (State.mk loaded (some k) (some ids)).value index offset combo = .ok (f.cell r m) := by
  obtain ⟨ids, h1, h2, _, h4⟩ := assignIds_ok (l := idx) (List.replicate size size) 0 (by simpa using hidx)
  have hra := resolveAll_ok (n := f.cols) (l := idx) (fun i hi => ⟨(hidx i hi).1, by have := (hidx i hi).2; omega⟩)
  refine ⟨ids, ⟨f.rows, (idx.map Int.toNat).length, fun r n => f.cell r ((idx.map Int.toNat).getD n 0)⟩, h1,
    by simp only [Frame.columns, hra], rfl, ?_, ?_⟩
  · intro r n hn
    simp only [List.length_map] at hn
    have hmem : idx[n] ∈ idx := List.getElem_mem hn
    refine ⟨idx[n].toNat, by have := hidx _ hmem; omega, ?_⟩
    show f.cell r ((idx.map Int.toNat).getD n 0) = _
    rw [List.getD_eq_getElem _ _ (by simpa using hn)]
    simp
  · intro combo m hm hin r hr index offset hrow
    obtain ⟨q, hq1, hq2⟩ := h4 m hin
    have hms : m < size := by have := hidx _ hin; omega
    have hlen : ids.length = size := by simpa using h2
    have hget : ids.getD m 0 = q := by simp [List.getD, hq1]
    have hql : q < idx.length := by
      by_contra hc
      rw [List.getElem?_eq_none (by omega)] at hq2
      cases hq2
    simp only [State.value, State.column, hm, resolve_nat (show m < ids.length by omega), hget, hrow, Frame.get,
      resolve_nat hr, List.length_map, resolve_nat hql]
    congr 2
    rw [List.getD_eq_getElem _ _ (by simpa using hql)]
    rw [List.getElem?_eq_getElem hql] at hq2
    simp only [Option.some.injEq] at hq2
    simp [hq2]

end Verif.DataFrame

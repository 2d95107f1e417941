import Verif.Proof.RowValues
/-! # Flow decomposition on acyclic networks -/

namespace Verif.Lp

open Verif Verif.Bounds

/-- Consecutive pairs of a path. -/
def pairs (r : List Nat) : List (Nat × Nat) := r.zip r.tail

theorem pairs_snd (r : List Nat) : (pairs r).map (·.2) = r.tail := by
  unfold pairs; exact List.map_snd_zip (by simp)

theorem pairs_cons_cons (a b : Nat) (r : List Nat) : pairs (a :: b :: r) = (a, b) :: pairs (b :: r) := rfl

theorem pairs_fst (r : List Nat) : (pairs r).map (·.1) = r.dropLast := by
  induction r with
  | nil => rfl
  | cons a r ih =>
    cases r with
    | nil => rfl
    | cons b r => rw [pairs_cons_cons, List.map_cons, ih]; rfl

theorem pairs_nodup {r : List Nat} (h : r.Nodup) : (pairs r).Nodup := by
  refine List.Nodup.of_map (·.2) ?_
  rw [pairs_snd]
  exact h.sublist (List.tail_sublist r)

theorem chain_pairs {R : Nat → Nat → Prop} {r : List Nat} : r.IsChain R ↔ ∀ p ∈ pairs r, R p.1 p.2 := by
  induction r with
  | nil => simp [pairs]
  | cons a r ih =>
    cases r with
    | nil => simp [pairs]
    | cons b r =>
      rw [List.isChain_cons_cons, ih, pairs_cons_cons]
      simp

theorem sum_pairs_snd {r : List Nat} (h : r.Nodup) (n : Nat) :
    ((pairs r).map fun e => if e.2 = n then (1 : Rat) else 0).sum = if n ∈ r.tail then 1 else 0 := by
  have h2 := sum_eq_ite (h.sublist (List.tail_sublist r)) n 1
  rw [← h2, ← pairs_snd, List.map_map]
  congr 1
  apply List.map_congr_left
  intro e _
  simp only [Function.comp]
  exact if_congr eq_comm rfl rfl

theorem sum_pairs_fst {r : List Nat} (h : r.Nodup) (n : Nat) :
    ((pairs r).map fun e => if e.1 = n then (1 : Rat) else 0).sum = if n ∈ r.dropLast then 1 else 0 := by
  have h2 := sum_eq_ite (h.sublist (List.dropLast_sublist r)) n 1
  rw [← h2, ← pairs_fst, List.map_map]
  congr 1
  apply List.map_congr_left
  intro e _
  simp only [Function.comp]
  exact if_congr eq_comm rfl rfl

theorem sum_indicator' {l r : List (Nat × Nat)} (hl : l.Nodup) (hr : r.Nodup) (hsub : ∀ e ∈ r, e ∈ l) (f : Nat × Nat → Rat) :
    (l.map fun e => f e * if e ∈ r then 1 else 0).sum = (r.map f).sum := by
  have h : (l.map fun e => f e * if e ∈ r then 1 else 0) = l.map fun e => if (decide (e ∈ r)) = true then f e else 0 := by
    apply List.map_congr_left; intro e _; by_cases h : e ∈ r <;> simp [h]
  rw [h, ← sum_map_filter]
  apply List.Perm.sum_eq
  apply List.Perm.map
  rw [List.perm_ext_iff_of_nodup (hl.filter _) hr]
  intro a
  simp only [List.mem_filter, decide_eq_true_eq]
  exact ⟨fun h => h.2, fun h => ⟨hsub a h, h⟩⟩

theorem S_map {α : Type} (l : List α) (X : α → Rat) (f : α → Rat) : S l (l.map X) f = (l.map fun a => f a * X a).sum := by
  unfold S
  have : (l.map fun a => f a * X a) = (l.zipIdx.map fun q => f q.1 * X q.1) := by
    have e : l = l.zipIdx.map (·.1) := by simp [List.zipIdx_map_fst]
    conv_lhs => rw [e]
    rw [List.map_map]; rfl
  rw [this]
  congr 1
  apply List.map_congr_left
  intro q hq
  obtain ⟨h1, h2⟩ := List.mem_zipIdx' hq
  rw [List.getD_eq_getElem?_getD, List.getElem?_map, List.getElem?_eq_getElem h1, h2]
  rfl

theorem exists_fn {α : Type} [DecidableEq α] {l : List α} (hl : l.Nodup) {y : List Rat} (h : y.length = l.length) :
    ∃ Y : α → Rat, y = l.map Y := by
  refine ⟨fun a => y.getD (l.idxOf a) 0, ?_⟩
  apply List.ext_getElem
  · simp [h]
  · intro i h1 h2
    have hi : i < l.length := by omega
    rw [List.getElem_map, List.Nodup.idxOf_getElem hl i hi]
    simp [List.getElem?_eq_getElem h1]

/-- A supply route: a simple path along edges from an input to an output. -/
def IsSupply (kind : Nat → Kind) (edges : List (Nat × Nat)) (r : List Nat) : Prop :=
  r.Nodup ∧ r.IsChain (fun a b => (a, b) ∈ edges) ∧ (∃ s, r.head? = some s ∧ kind s = .input) ∧
    ∃ t, r.getLast? = some t ∧ kind t = .output

/-- Edge flows as superposition of route flows. -/
def Decomposes (edges : List (Nat × Nat)) (routes : List (List Nat)) (X : List Nat → Rat) (Y : Nat × Nat → Rat) : Prop :=
  ∀ e ∈ edges, Y e = (routes.map fun r => (if e ∈ pairs r then 1 else 0) * X r).sum

theorem S_decomposes {edges : List (Nat × Nat)} (he : edges.Nodup) {routes : List (List Nat)}
    (hr : ∀ r ∈ routes, r.Nodup ∧ ∀ e ∈ pairs r, e ∈ edges) {X : List Nat → Rat} {Y : Nat × Nat → Rat}
    (h : Decomposes edges routes X Y) (f : Nat × Nat → Rat) :
    S edges (edges.map Y) f = S routes (routes.map X) (fun r => ((pairs r).map f).sum) := by
  rw [S_map, S_map]
  have h1 : (edges.map fun e => f e * Y e) = edges.map fun e => (routes.map fun r => f e * (if e ∈ pairs r then 1 else 0) * X r).sum := by
    apply List.map_congr_left
    intro e hm
    rw [h e hm, ← List.sum_map_mul_left]
    congr 1
    apply List.map_congr_left
    intro r _
    ring
  rw [h1, sum_swap]
  congr 1
  apply List.map_congr_left
  intro r hm
  rw [List.sum_map_mul_right, sum_indicator' he (pairs_nodup (hr r hm).1) (hr r hm).2]

/-! ## Existence of a decomposition -/

theorem exists_min {l : List (Nat × Nat)} (hl : l ≠ []) (Y : Nat × Nat → Rat) : ∃ e ∈ l, ∀ e' ∈ l, Y e ≤ Y e' := by
  induction l with
  | nil => exact absurd rfl hl
  | cons a l ih =>
    by_cases hn : l = []
    · subst hn; exact ⟨a, by simp, by simp⟩
    · obtain ⟨e, he, hm⟩ := ih hn
      by_cases h : Y a ≤ Y e
      · refine ⟨a, by simp, ?_⟩
        intro e' he'
        rcases List.mem_cons.1 he' with rfl | he'
        · exact le_refl _
        · exact le_trans h (hm e' he')
      · refine ⟨e, by simp [he], ?_⟩
        intro e' he'
        rcases List.mem_cons.1 he' with rfl | he'
        · exact (not_le.1 h).le
        · exact hm e' he'

theorem filter_length_lt {β : Type} {l : List β} {p q : β → Bool} (h : ∀ a ∈ l, p a = true → q a = true)
    {a : β} (ha : a ∈ l) (h1 : q a = true) (h2 : p a = false) : (l.filter p).length < (l.filter q).length := by
  have hle : ∀ l : List β, (∀ a ∈ l, p a = true → q a = true) → (l.filter p).length ≤ (l.filter q).length := by
    intro l
    induction l with
    | nil => simp
    | cons b l ih =>
      intro h
      have := ih fun a ha => h a (by simp [ha])
      have hb := h b (by simp)
      cases hp : p b <;> cases hq : q b <;> simp [hp, hq] at hb ⊢ <;> omega
  induction l with
  | nil => cases ha
  | cons b l ih =>
    have hl := hle l fun a ha => h a (by simp [ha])
    rcases List.mem_cons.1 ha with rfl | ha
    · simp [h1, h2]; omega
    · have := ih (fun a ha => h a (by simp [ha])) ha
      have hb := h b (by simp)
      cases hp : p b <;> cases hq : q b <;> simp [hp, hq] at hb ⊢ <;> omega

section
variable {kind : Nat → Kind} {edges : List (Nat × Nat)} {rank : Nat → Nat}

/-- Sum of the edge flows into / out of a node. -/
def sumIn (edges : List (Nat × Nat)) (Y : Nat × Nat → Rat) (n : Nat) : Rat := (edges.map fun e => (if e.2 = n then 1 else 0) * Y e).sum

/-- See `sumIn`. -/
def sumOut (edges : List (Nat × Nat)) (Y : Nat × Nat → Rat) (n : Nat) : Rat := (edges.map fun e => (if e.1 = n then 1 else 0) * Y e).sum

theorem exists_pos_of_sum {l : List (Nat × Nat)} {f : Nat × Nat → Rat} (h : 0 < (l.map f).sum) : ∃ e ∈ l, 0 < f e := by
  induction l with
  | nil => simp at h
  | cons a l ih =>
    rw [List.map_cons, List.sum_cons] at h
    by_cases ha : 0 < f a
    · exact ⟨a, by simp, ha⟩
    · obtain ⟨e, he, hf⟩ := ih (by linarith [not_lt.1 ha])
      exact ⟨e, by simp [he], hf⟩

theorem sum_pos_of_mem {l : List (Nat × Nat)} {f : Nat × Nat → Rat} (h0 : ∀ e ∈ l, 0 ≤ f e) {e : Nat × Nat} (he : e ∈ l) (hf : 0 < f e) :
    0 < (l.map f).sum := by
  have h := List.single_le_sum (l := l.map f) (by
    intro v hv
    obtain ⟨e, he, rfl⟩ := List.mem_map.1 hv
    exact h0 e he) (f e) (List.mem_map.2 ⟨e, he, rfl⟩)
  linarith

/-- A positive edge. -/
def Pos (edges : List (Nat × Nat)) (Y : Nat × Nat → Rat) (a b : Nat) : Prop := (a, b) ∈ edges ∧ 0 < Y (a, b)

theorem forward (hrank : ∀ e ∈ edges, rank e.1 < rank e.2) (hin : ∀ e ∈ edges, kind e.2 = .link ∨ kind e.2 = .output)
    {Y : Nat × Nat → Rat} (h0 : ∀ e ∈ edges, 0 ≤ Y e) (hbal : ∀ n, kind n = .link → sumIn edges Y n = sumOut edges Y n)
    (M : Nat) (hM : ∀ e ∈ edges, rank e.2 ≤ M) (k : Nat) :
    ∀ u v, M - rank v ≤ k → Pos edges Y u v → ∃ p, (v :: p).IsChain (Pos edges Y) ∧ ∃ t, (v :: p).getLast? = some t ∧ kind t = .output := by
  induction k with
  | zero =>
    intro u v hk hp
    rcases hin _ hp.1 with hl | ho
    · exfalso
      have h1 : 0 < sumIn edges Y v := by
        refine sum_pos_of_mem (fun e he => mul_nonneg (by split_ifs <;> norm_num) (h0 e he)) hp.1 ?_
        simp [hp.2]
      rw [hbal v hl] at h1
      obtain ⟨e, he, hf⟩ := exists_pos_of_sum h1
      by_cases hev : e.1 = v
      · have := hrank e he
        have := hM e he
        rw [hev] at *
        omega
      · simp [hev] at hf
    · exact ⟨[], by simp, v, rfl, ho⟩
  | succ k ih =>
    intro u v hk hp
    rcases hin _ hp.1 with hl | ho
    · have h1 : 0 < sumIn edges Y v := by
        refine sum_pos_of_mem (fun e he => mul_nonneg (by split_ifs <;> norm_num) (h0 e he)) hp.1 ?_
        simp [hp.2]
      rw [hbal v hl] at h1
      obtain ⟨e, he, hf⟩ := exists_pos_of_sum h1
      by_cases hev : e.1 = v
      · have h2 := hrank e he
        have h3 := hM e he
        rw [hev] at h2
        simp only [hev, if_true, one_mul] at hf
        have hpos : Pos edges Y v e.2 := by
          have : e = (v, e.2) := by rw [← hev]
          exact ⟨this ▸ he, this ▸ hf⟩
        obtain ⟨p, hc, t, ht, hk⟩ := ih v e.2 (by omega) hpos
        refine ⟨e.2 :: p, List.isChain_cons_cons.2 ⟨hpos, hc⟩, t, ?_, hk⟩
        rw [List.getLast?_cons_cons]; exact ht
      · simp [hev] at hf
    · exact ⟨[], by simp, v, rfl, ho⟩

theorem backward (hrank : ∀ e ∈ edges, rank e.1 < rank e.2) (hout : ∀ e ∈ edges, kind e.1 = .input ∨ kind e.1 = .link)
    {Y : Nat × Nat → Rat} (h0 : ∀ e ∈ edges, 0 ≤ Y e) (hbal : ∀ n, kind n = .link → sumIn edges Y n = sumOut edges Y n) (k : Nat) :
    ∀ u v, rank u ≤ k → Pos edges Y u v → ∃ p, (p ++ [u]).IsChain (Pos edges Y) ∧ ∃ s, (p ++ [u]).head? = some s ∧ kind s = .input := by
  induction k with
  | zero =>
    intro u v hk hp
    rcases hout _ hp.1 with hl | ho
    · exact ⟨[], by simp, u, rfl, hl⟩
    · exfalso
      have h1 : 0 < sumOut edges Y u := by
        refine sum_pos_of_mem (fun e he => mul_nonneg (by split_ifs <;> norm_num) (h0 e he)) hp.1 ?_
        simp [hp.2]
      rw [← hbal u ho] at h1
      obtain ⟨e, he, hf⟩ := exists_pos_of_sum h1
      by_cases hev : e.2 = u
      · have := hrank e he
        rw [hev] at this
        omega
      · simp [hev] at hf
  | succ k ih =>
    intro u v hk hp
    rcases hout _ hp.1 with hl | ho
    · exact ⟨[], by simp, u, rfl, hl⟩
    · have h1 : 0 < sumOut edges Y u := by
        refine sum_pos_of_mem (fun e he => mul_nonneg (by split_ifs <;> norm_num) (h0 e he)) hp.1 ?_
        simp [hp.2]
      rw [← hbal u ho] at h1
      obtain ⟨e, he, hf⟩ := exists_pos_of_sum h1
      by_cases hev : e.2 = u
      · have h2 := hrank e he
        rw [hev] at h2
        simp only [hev, if_true, one_mul] at hf
        have hpos : Pos edges Y e.1 u := by
          have : e = (e.1, u) := by rw [← hev]
          exact ⟨this ▸ he, this ▸ hf⟩
        obtain ⟨p, hc, s, hs, hk⟩ := ih e.1 u (by omega) hpos
        refine ⟨p ++ [e.1], ?_, s, ?_, hk⟩
        · rw [List.isChain_append]
          refine ⟨hc, by simp, ?_⟩
          intro x hx y hy
          simp at hx hy
          subst hx; subst hy
          exact hpos
        · rw [List.head?_append, hs]; rfl
      · simp [hev] at hf

theorem exists_path (hrank : ∀ e ∈ edges, rank e.1 < rank e.2) (hin : ∀ e ∈ edges, kind e.2 = .link ∨ kind e.2 = .output)
    (hout : ∀ e ∈ edges, kind e.1 = .input ∨ kind e.1 = .link)
    {Y : Nat × Nat → Rat} (h0 : ∀ e ∈ edges, 0 ≤ Y e) (hbal : ∀ n, kind n = .link → sumIn edges Y n = sumOut edges Y n)
    {e : Nat × Nat} (he : e ∈ edges) (hp : 0 < Y e) :
    ∃ r, IsSupply kind edges r ∧ pairs r ≠ [] ∧ ∀ e' ∈ pairs r, 0 < Y e' := by
  have hpos : Pos edges Y e.1 e.2 := ⟨he, hp⟩
  obtain ⟨q, hq, t, ht, htk⟩ := forward hrank hin h0 hbal (edges.map fun e => rank e.2).sum (fun e he =>
    List.single_le_sum (l := edges.map fun e => rank e.2) (by simp) _ (List.mem_map.2 ⟨e, he, rfl⟩)) _ e.1 e.2 (le_refl _) hpos
  obtain ⟨p, hpc, s, hs, hsk⟩ := backward hrank hout h0 hbal _ e.1 e.2 (le_refl _) hpos
  have hchain : ((p ++ [e.1]) ++ e.2 :: q).IsChain (Pos edges Y) := by
    rw [List.isChain_append]
    refine ⟨hpc, hq, ?_⟩
    intro x hx y hy
    simp at hx hy
    subst hx; subst hy
    exact hpos
  refine ⟨(p ++ [e.1]) ++ e.2 :: q, ⟨?_, ?_, ⟨s, ?_, hsk⟩, ⟨t, ?_, htk⟩⟩, ?_, ?_⟩
  · have h1 : ((p ++ [e.1]) ++ e.2 :: q).IsChain (fun a b => rank a < rank b) := hchain.imp fun a b h => hrank _ h.1
    have h2 : ((p ++ [e.1]) ++ e.2 :: q).Pairwise (fun a b => rank a < rank b) := by
      have : IsTrans Nat (fun a b => rank a < rank b) := ⟨fun _ _ _ h1 h2 => lt_trans h1 h2⟩
      exact List.isChain_iff_pairwise.1 h1
    exact h2.imp fun h he => by rw [he] at h; exact lt_irrefl _ h
  · exact hchain.imp fun a b h => h.1
  · rw [List.head?_append, hs]; rfl
  · rw [List.getLast?_append, ht]; rfl
  · intro h
    have := congrArg List.length h
    simp [pairs] at this
  · intro e' he'
    exact (chain_pairs.1 hchain e' he').2

theorem decompose (hnd : edges.Nodup) (hrank : ∀ e ∈ edges, rank e.1 < rank e.2)
    (hin : ∀ e ∈ edges, kind e.2 = .link ∨ kind e.2 = .output) (hout : ∀ e ∈ edges, kind e.1 = .input ∨ kind e.1 = .link)
    {routes : List (List Nat)} (hrn : routes.Nodup) (hall : ∀ r, IsSupply kind edges r → r ∈ routes) (k : Nat) :
    ∀ Y : Nat × Nat → Rat, (edges.filter fun e => decide (0 < Y e)).length ≤ k → (∀ e ∈ edges, 0 ≤ Y e) →
      (∀ n, kind n = .link → sumIn edges Y n = sumOut edges Y n) → ∃ X, (∀ r, 0 ≤ X r) ∧ Decomposes edges routes X Y := by
  induction k with
  | zero =>
    intro Y hk h0 hbal
    refine ⟨fun _ => 0, fun _ => le_refl _, ?_⟩
    intro e he
    have : ¬ 0 < Y e := by
      intro h
      have hm : e ∈ edges.filter fun e => decide (0 < Y e) := by simp [he, h]
      have := List.length_pos_of_mem hm
      omega
    simp only [mul_zero]
    rw [le_antisymm (not_lt.1 this) (h0 e he)]
    symm
    apply List.sum_eq_zero
    intro v hv
    obtain ⟨r, -, rfl⟩ := List.mem_map.1 hv
    rfl
  | succ k ih =>
    intro Y hk h0 hbal
    by_cases hz : ∃ e ∈ edges, 0 < Y e
    · obtain ⟨e, he, hp⟩ := hz
      obtain ⟨r, hr, hne, hrp⟩ := exists_path hrank hin hout h0 hbal he hp
      obtain ⟨e0, he0, hmin⟩ := exists_min hne Y
      have hsub : ∀ e ∈ pairs r, e ∈ edges := chain_pairs.1 hr.2.1
      have hm0 : 0 < Y e0 := hrp e0 he0
      have hrr : r ∈ routes := hall r hr
      let Y' : Nat × Nat → Rat := fun e => Y e - Y e0 * if e ∈ pairs r then 1 else 0
      have h0' : ∀ e ∈ edges, 0 ≤ Y' e := by
        intro e he
        by_cases hm : e ∈ pairs r
        · have := hmin e hm; simp only [Y', hm, if_true]; linarith
        · have := h0 e he; simp only [Y', hm, if_false]; linarith
      have hcount : (edges.filter fun e => decide (0 < Y' e)).length ≤ k := by
        have := filter_length_lt (l := edges) (p := fun e => decide (0 < Y' e)) (q := fun e => decide (0 < Y e)) (by
          intro e he h
          simp only [decide_eq_true_eq] at h ⊢
          by_cases hm : e ∈ pairs r
          · exact hrp e hm
          · simp only [Y', hm, if_false] at h; linarith) (hsub e0 he0) (by simpa using hm0) (by simp [Y', he0])
        omega
      have hsplit : ∀ (c : Nat × Nat → Rat), (edges.map fun e => c e * Y' e).sum =
          (edges.map fun e => c e * Y e).sum - Y e0 * ((pairs r).map c).sum := by
        intro c
        rw [← sum_indicator' hnd (pairs_nodup hr.1) hsub c]
        rw [← List.sum_map_mul_left]
        have : ∀ l : List (Nat × Nat), (l.map fun e => c e * Y' e).sum = (l.map fun e => c e * Y e).sum -
            (l.map fun e => Y e0 * (c e * if e ∈ pairs r then 1 else 0)).sum := by
          intro l
          induction l with
          | nil => simp
          | cons a l ih => 
            simp only [List.map_cons, List.sum_cons]
            rw [ih]
            simp only [Y']
            ring
        exact this edges
      have hbal' : ∀ n, kind n = .link → sumIn edges Y' n = sumOut edges Y' n := by
        intro n hn
        unfold sumIn sumOut
        rw [hsplit, hsplit, sum_pairs_snd hr.1, sum_pairs_fst hr.1]
        have h := hbal n hn
        unfold sumIn sumOut at h
        rw [h]
        congr 3
        apply propext
        obtain ⟨-, -, ⟨s, hs, hsk⟩, ⟨t, ht, htk⟩⟩ := hr
        have hns : n ≠ s := by rintro rfl; rw [hsk] at hn; cases hn
        have hnt : n ≠ t := by rintro rfl; rw [htk] at hn; cases hn
        have a1 : n ∈ r ↔ n ∈ r.tail := by
          cases r with
          | nil => simp
          | cons a l => simp at hs; subst hs; simp [hns]
        have a2 : n ∈ r ↔ n ∈ r.dropLast := by
          have hrne : r ≠ [] := by rintro rfl; cases hs
          rw [List.getLast?_eq_getLast_of_ne_nil hrne] at ht
          injection ht with ht
          conv_lhs => rw [← List.dropLast_append_getLast hrne, ht]
          simp [hnt]
        rw [← a1, a2]
      obtain ⟨X, hX, hdec⟩ := ih Y' hcount h0' hbal'
      refine ⟨fun r' => X r' + if r' = r then Y e0 else 0, ?_, ?_⟩
      · intro r'
        have := hX r'
        simp only
        split_ifs <;> linarith
      · intro e he
        have h1 := hdec e he
        have h2 : (routes.map fun r' => (if e ∈ pairs r' then (1 : Rat) else 0) * (X r' + if r' = r then Y e0 else 0)).sum =
            (routes.map fun r' => (if e ∈ pairs r' then (1 : Rat) else 0) * X r').sum + (if e ∈ pairs r then 1 else 0) * Y e0 := by
          have e1 : (fun r' => (if e ∈ pairs r' then (1 : Rat) else 0) * (X r' + if r' = r then Y e0 else 0)) =
              fun r' => (if e ∈ pairs r' then (1 : Rat) else 0) * X r' + (if e ∈ pairs r' then (1 : Rat) else 0) * (if r' = r then Y e0 else 0) := by
            funext r'; ring
          rw [e1, List.sum_map_add]
          congr 1
          rw [sum_map_single hrn hrr]
          · simp
          · intro b _ hb; simp [hb]
        rw [h2, ← h1]
        simp only [Y']
        ring
    · refine ih Y ?_ h0 hbal
      have : (edges.filter fun e => decide (0 < Y e)) = [] := by
        rw [List.filter_eq_nil_iff]
        intro e he h
        exact hz ⟨e, he, by simpa using h⟩
      rw [this]; simp

end

end Verif.Lp

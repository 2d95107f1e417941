import Verif.Spec.MultiSplit
import Verif.Proof.Chain
import Verif.Props.RouteLp
import Mathlib.Algebra.Order.BigOperators.Group.List
import Mathlib.Data.List.Forall2
import Mathlib.Tactic.FieldSimp
/-! # C65: splits of a river -/

namespace Verif.Composite

open Verif Verif.Lp Verif.Bounds

/-! ## What the constructor makes -/

private theorem create_inv {b nsteps extra : Nat} {slots : Option (List Slot)} {factors : Option (List (Option Rat))} {m : MultiSplit}
    (h : MultiSplit.create b nsteps extra slots factors = some m) :
    1 ≤ extra ∧ m.slotNames = slots.getD ((List.range (extra + 1)).map .number) ∧ m.slotNames.length = extra + 1 ∧
    m.link = ⟨b + 1, (List.range (nsteps + extra)).map fun i => b + 3 + i, b + 2, b⟩ ∧
    m.extraOutputs = ((List.range extra).map fun i => b + 4 + nsteps + extra + 2 * i) ∧
    m.extraInputs = ((List.range extra).map fun i => b + 4 + nsteps + extra + 2 * i + 1) ∧
    ∀ fs, factors = some fs → fs.length = extra + 1 ∧ m.shares = some (shareList fs (splitLinks m.link.sublinks nsteps)) := by
  unfold MultiSplit.create at h
  by_cases h1 : extra < 1
  · rw [if_pos h1] at h; cases h
  rw [if_neg h1] at h
  simp only at h
  by_cases h2 : extra + 1 ≠ (slots.getD ((List.range (extra + 1)).map .number)).length
  · rw [if_pos h2] at h; cases h
  rw [if_neg h2] at h
  have h2' : (slots.getD ((List.range (extra + 1)).map .number)).length = extra + 1 := by
    by_contra hc; exact h2 fun e => hc e.symm
  cases factors with
  | none =>
    cases h
    exact ⟨by omega, rfl, h2', rfl, rfl, rfl, fun fs hf => by cases hf⟩
  | some fs =>
    simp only at h
    by_cases h3 : extra + 1 ≠ fs.length
    · rw [if_pos h3] at h; cases h
    rw [if_neg h3] at h
    have h3' : fs.length = extra + 1 := by by_contra hc; exact h3 fun e => hc e.symm
    cases h
    refine ⟨by omega, rfl, h2', rfl, rfl, rfl, fun fs' hf => ?_⟩
    cases hf
    refine ⟨h3', ?_⟩
    simp [List.length_map, List.length_range]

private theorem nodup_range_map {k : Nat} (f : Nat → Nat) (hf : ∀ i j, f i = f j → i = j) : ((List.range k).map f).Nodup :=
  List.nodup_range.map (fun i j h => hf i j h)

/-- **C65 (outlets).** The first outlet name leads to the piecewise link's input, the following ones to the extra outlets in order, and any other name is
refused; all provided the names are distinct. -/
theorem C65_slots (b nsteps extra : Nat) (slots : Option (List Slot)) (factors : Option (List (Option Rat))) (m : MultiSplit)
    (h : MultiSplit.create b nsteps extra slots factors = some m) (hd : m.slotNames.Nodup) :
    (∀ s, m.slotNames[0]? = some s → m.outlet s = some m.link.input) ∧
    (∀ i s, m.slotNames[i + 1]? = some s → ∃ o, m.extraInputs[i]? = some o ∧ m.outlet s = some o) ∧
    (∀ s, s ∉ m.slotNames → m.outlet s = none) := by
  obtain ⟨-, -, hlen, -, -, hin, -⟩ := create_inv h
  have key : ∀ i s, m.slotNames[i]? = some s → m.slotNames.idxOf? s = some i := by
    intro i s hs
    obtain ⟨hi, hs'⟩ := List.getElem?_eq_some_iff.1 hs
    rw [List.idxOf?_eq_some_iff]
    refine ⟨hi, by simp [hs'], fun j hj => ?_⟩
    intro e
    rw [← hs'] at e
    have := (List.Nodup.getElem_inj_iff hd).1 e
    omega
  refine ⟨fun s hs => ?_, fun i s hs => ?_, fun s hs => ?_⟩
  · unfold MultiSplit.outlet; rw [key 0 s hs]
  · have hi : i < extra := by
      obtain ⟨hi, -⟩ := List.getElem?_eq_some_iff.1 hs
      omega
    have : m.extraInputs[i]? = some (b + 4 + nsteps + extra + 2 * i + 1) := by
      rw [hin, List.getElem?_map, List.getElem?_range hi]; rfl
    refine ⟨_, this, ?_⟩
    unfold MultiSplit.outlet; rw [key _ s hs]; exact this
  · unfold MultiSplit.outlet
    rw [List.idxOf?_eq_none_iff.2 hs]

/-! ## Flows -/

section

variable {d : Data} {routes : List (List Nat)} {m : MultiSplit}

private theorem carries_input {r : List Nat} {n : Nat} (hk : d.kind n = .input) : Carries d r n ↔ r.head? = some n := by
  unfold Carries; rw [hk]

private theorem carries_output {r : List Nat} {n : Nat} (hk : d.kind n = .output) : Carries d r n ↔ r.getLast? = some n := by
  unfold Carries; rw [hk]

private theorem mem_of_last {r : List Nat} {n : Nat} (h : r.getLast? = some n) : n ∈ r := List.mem_of_getLast? h

/-- Water on the segments leaves through the sub-output or an extra outlet. -/
private theorem segments_out (hs : HasSplit d routes m) (hw : WellRouted d routes) (x : List Rat) (hn1 : m.link.sublinks.Nodup)
    (hn2 : (m.link.subOutput :: m.extraOutputs).Nodup) :
    (m.link.sublinks.map (routeNodeFlow d routes x)).sum =
      routeNodeFlow d routes x m.link.subOutput + (m.extraOutputs.map (routeNodeFlow d routes x)).sum := by
  have e1 := sum_members hw x hn1 .input (fun n hn => (hs.kinds.segments n hn).2) List.head? (fun r n hk => carries_input hk)
  have e2 := sum_members hw x hn2 .output (fun n hn => by
    rcases List.mem_cons.1 hn with rfl | hn
    · exact hs.kinds.outputs.2.1
    · exact hs.kinds.outputs.2.2 n hn) List.getLast? (fun r n hk => carries_output hk)
  rw [List.map_cons, List.sum_cons] at e2
  show (m.link.sublinks.map fun n => routeNodeFlow d routes x n).sum = _
  rw [e1]
  show _ = routeNodeFlow d routes x m.link.subOutput + (m.extraOutputs.map fun n => routeNodeFlow d routes x n).sum
  rw [e2]
  apply S_congr
  intro r hr
  apply if_congr _ rfl rfl
  have mem : ∀ (o : Option Nat) (l : List Nat), inList o l = true ↔ ∃ n ∈ l, o = some n := by
    intro o l; cases o <;> simp [inList]
  rw [mem, mem]
  constructor
  · rintro ⟨n, hn, hh⟩
    rcases hs.routes r hr ⟨n, mem_of_head? hh, .inl hn⟩ with ⟨s, -, rfl⟩ | ⟨q, hq, rfl⟩
    · exact ⟨_, by simp, rfl⟩
    · exact ⟨q.2, List.mem_cons_of_mem _ (List.of_mem_zip hq).2, rfl⟩
  · rintro ⟨n, hn, hh⟩
    have hI : m.Inner n := by
      rcases List.mem_cons.1 hn with rfl | hn
      · exact .inr (.inl rfl)
      · exact .inr (.inr hn)
    rcases hs.routes r hr ⟨n, mem_of_last hh, hI⟩ with ⟨s, hs', rfl⟩ | ⟨q, hq, rfl⟩
    · exact ⟨s, hs', rfl⟩
    · exact ⟨q.1, List.mem_of_mem_drop (List.of_mem_zip hq).1, rfl⟩

/-- An outlet only receives water of its own segment. -/
private theorem outlet_le (hs : HasSplit d routes m) (hw : WellRouted d routes) {x : List Rat} (hx : ∀ v ∈ x, 0 ≤ v)
    (hn2 : (m.link.subOutput :: m.extraOutputs).Nodup) {q : Nat × Nat} (hq : q ∈ m.extraLinks.zip m.extraOutputs) :
    routeNodeFlow d routes x q.2 ≤ routeNodeFlow d routes x q.1 := by
  rw [routeNodeFlow_eq hw, routeNodeFlow_eq hw]
  apply S_le hx
  intro r hr
  have ho : q.2 ∈ m.extraOutputs := (List.of_mem_zip hq).2
  have hl : q.1 ∈ m.link.sublinks := List.mem_of_mem_drop (List.of_mem_zip hq).1
  rw [if_congr (carries_output (hs.kinds.outputs.2.2 _ ho)) rfl rfl, if_congr (carries_input (hs.kinds.segments _ hl).2) rfl rfl]
  by_cases h : r.getLast? = some q.2
  · rw [if_pos h]
    rcases hs.routes r hr ⟨q.2, mem_of_last h, .inr (.inr ho)⟩ with ⟨s, -, rfl⟩ | ⟨q', hq', rfl⟩
    · simp only [List.getLast?_cons_cons, List.getLast?_singleton, Option.some.injEq] at h
      rw [h] at hn2
      exact absurd ho (List.nodup_cons.1 hn2).1
    · simp only [List.getLast?_cons_cons, List.getLast?_singleton, Option.some.injEq] at h
      have : q'.1 = q.1 := by
        obtain ⟨i, hi, rfl⟩ := List.getElem_of_mem hq
        obtain ⟨j, hj, rfl⟩ := List.getElem_of_mem hq'
        rw [List.getElem_zip, List.getElem_zip] at h
        have := (List.Nodup.getElem_inj_iff (List.nodup_cons.1 hn2).2).1 h
        subst this
        rfl
      rw [if_pos (by rw [← this]; rfl)]
  · rw [if_neg h]; split_ifs <;> norm_num

end

/-- The nodes of a newly created split are distinct. -/
theorem C65_created (b nsteps extra : Nat) (slots : Option (List Slot)) (factors : Option (List (Option Rat))) (m : MultiSplit)
    (h : MultiSplit.create b nsteps extra slots factors = some m) :
    (m.link.input :: m.link.output :: m.link.subOutput :: (m.link.sublinks ++ (m.extraOutputs ++ m.extraInputs))).Nodup ∧
    m.link.sublinks.length = nsteps + extra ∧ m.extraOutputs.length = extra ∧ m.extraInputs.length = extra := by
  obtain ⟨-, -, -, hl, ho, hi, -⟩ := create_inv h
  refine ⟨?_, by rw [hl]; simp, by rw [ho]; simp, by rw [hi]; simp⟩
  rw [hl, ho, hi]
  simp only [List.nodup_cons, List.nodup_append, List.mem_cons, List.mem_append, List.mem_map, List.mem_range]
  refine ⟨?_, ?_, ?_, nodup_range_map _ (fun i j h => by omega), ⟨nodup_range_map _ (fun i j h => by omega),
    nodup_range_map _ (fun i j h => by omega), ?_⟩, ?_⟩
  · rintro (h | h | ⟨i, -, h⟩ | ⟨i, -, h⟩ | ⟨i, -, h⟩) <;> omega
  · rintro (h | ⟨i, -, h⟩ | ⟨i, -, h⟩ | ⟨i, -, h⟩) <;> omega
  · rintro (⟨i, -, h⟩ | ⟨i, -, h⟩ | ⟨i, -, h⟩) <;> omega
  · rintro _ ⟨i, -, rfl⟩ _ ⟨j, -, rfl⟩ h; omega
  · rintro _ ⟨i, hi, rfl⟩ _ (⟨j, -, rfl⟩ | ⟨j, -, rfl⟩) h <;> omega

private theorem created_parts {b nsteps extra : Nat} {slots : Option (List Slot)} {factors : Option (List (Option Rat))} {m : MultiSplit}
    (h : MultiSplit.create b nsteps extra slots factors = some m) :
    m.link.sublinks.Nodup ∧ (m.link.subOutput :: m.extraOutputs).Nodup := by
  obtain ⟨hn, -⟩ := C65_created _ _ _ _ _ _ h
  simp only [List.nodup_cons, List.nodup_append, List.mem_append, not_or] at hn
  refine ⟨hn.2.2.2.1, List.nodup_cons.2 ⟨hn.2.2.1.2.1, hn.2.2.2.2.1.1⟩⟩

/-- **C65 (balance).** In every solution, what enters a split is divided among its segments, and all of it leaves through its outlets. -/
theorem C65_balance (d : Data) (routes : List (List Nat)) (hw : WellRouted d routes) (x : List Rat) (hx : RouteFeasible d routes x)
    (b nsteps extra : Nat) (slots : Option (List Slot)) (factors : Option (List (Option Rat))) (m : MultiSplit)
    (h : MultiSplit.create b nsteps extra slots factors = some m) (hs : HasSplit d routes m) :
    routeNodeFlow d routes x m.link.output = m.link.flow (routeNodeFlow d routes x) ∧
    routeNodeFlow d routes x m.link.output =
      routeNodeFlow d routes x m.link.input + (m.extraInputs.map (routeNodeFlow d routes x)).sum := by
  obtain ⟨hn1, hn2⟩ := created_parts h
  obtain ⟨-, -, h2, h3⟩ := C65_created _ _ _ _ _ _ h
  have e0 : routeNodeFlow d routes x m.link.output = m.link.flow (routeNodeFlow d routes x) := by
    have := C53_cross d routes hw x hx m.link.output (m.link.sublinks.map fun s => (s, 1)) (hs.cross _ (by simp [MultiSplit.cross, Piecewise.cross]))
      hs.kinds.outputs.1 (by
        intro i hi
        obtain ⟨s, hs', rfl⟩ := List.mem_map.1 hi
        exact (hs.kinds.segments s hs').2)
    rw [this, List.map_map]
    unfold Piecewise.flow
    congr 1
    apply List.map_congr_left
    intro s _
    simp
  refine ⟨e0, ?_⟩
  rw [e0]
  unfold Piecewise.flow
  rw [segments_out hs hw x hn1 hn2]
  congr 1
  · have := C53_cross d routes hw x hx m.link.subOutput [(m.link.input, 1)] (hs.cross _ (by simp [MultiSplit.cross, Piecewise.cross]))
      hs.kinds.outputs.2.1 (by
        intro i hi
        simp at hi; rw [hi]; exact hs.kinds.inputs.1)
    rw [this]; simp
  · congr 1
    apply List.ext_getElem
    · simp [h2, h3]
    · intro i hi1 hi2
      simp only [List.getElem_map]
      simp only [List.length_map] at hi1 hi2
      have hz : (m.extraOutputs[i], m.extraInputs[i]) ∈ m.extraOutputs.zip m.extraInputs := by
        rw [← List.getElem_zip (h := by rw [List.length_zip]; omega)]; exact List.getElem_mem _
      have := C53_cross d routes hw x hx m.extraOutputs[i] [(m.extraInputs[i], 1)] (hs.cross _ (by
        unfold MultiSplit.cross
        exact List.mem_append_right _ (List.mem_map.2 ⟨_, hz, rfl⟩)))
        (hs.kinds.outputs.2.2 _ (List.getElem_mem _)) (by
          intro i hi
          simp at hi; rw [hi]; exact hs.kinds.inputs.2 _ (List.getElem_mem _))
      rw [this]; simp

private theorem outlet_value {d : Data} {routes : List (List Nat)} {m : MultiSplit} (hw : WellRouted d routes) {x : List Rat} (hx : RouteFeasible d routes x)
    (hs : HasSplit d routes m) {q : Nat × Nat} (hq : q ∈ m.extraOutputs.zip m.extraInputs) :
    routeNodeFlow d routes x q.2 = routeNodeFlow d routes x q.1 := by
  have := C53_cross d routes hw x hx q.1 [(q.2, 1)] (hs.cross _ (List.mem_append_right _ (List.mem_map.2 ⟨q, hq, rfl⟩)))
    (hs.kinds.outputs.2.2 _ (List.of_mem_zip hq).1) (by
      intro i hi
      simp at hi; rw [hi]; exact hs.kinds.inputs.2 _ (List.of_mem_zip hq).2)
  rw [this]; simp

/-- **C65 (proportions of the segments).** The flows of the segments with a factor are proportional to the factors. -/
theorem C65_proportional (d : Data) (routes : List (List Nat)) (hw : WellRouted d routes) (x : List Rat) (hx : RouteFeasible d routes x)
    (b nsteps extra : Nat) (slots : Option (List Slot)) (fs : List (Option Rat)) (m : MultiSplit)
    (h : MultiSplit.create b nsteps extra slots (some fs) = some m) (hs : HasSplit d routes m) (hn : 1 ≤ nsteps) :
    ∃ c, ∀ (i s : Nat) (g : Rat), m.link.sublinks[nsteps - 1 + i]? = some s → fs[i]? = some (some g) →
      g ≠ 0 ∧ routeNodeFlow d routes x s = c * g := by
  obtain ⟨-, -, -, -, -, -, hsh⟩ := create_inv h
  obtain ⟨hfl, hsh⟩ := hsh fs rfl
  set l := shareList fs (splitLinks m.link.sublinks nsteps) with hl
  have hlinks : splitLinks m.link.sublinks nsteps = m.link.sublinks.drop (nsteps - 1) := by
    unfold splitLinks; rw [if_neg (by omega)]
  have hsub : ∀ p ∈ l, p.1 ∈ m.link.sublinks := by
    intro p hp
    obtain ⟨q, hq, he⟩ := List.mem_filterMap.1 hp
    cases h1 : q.1 with
    | none => rw [h1] at he; cases he
    | some g =>
      rw [h1] at he
      cases he
      have := (List.of_mem_zip hq).2
      rw [hlinks] at this
      exact List.mem_of_mem_drop this
  have ha : (⟨l.map (·.1), none, some (l.map (·.2)), .negInf, .posInf⟩ : AggData) ∈ d.aggs := by
    apply hs.agg
    unfold MultiSplit.agg
    rw [hsh]
    exact List.mem_singleton.2 rfl
  obtain ⟨c, hc⟩ := C21_route_partial d routes hw x hx _ ha (l.map (·.2)) rfl (by simp) (by
    intro n hn r hr hnr
    obtain ⟨p, hp, rfl⟩ := List.mem_map.1 hn
    have hk := (hs.kinds.segments _ (hsub p hp)).2
    rw [carries_input hk]
    rcases hs.routes r hr ⟨_, hnr, .inl (hsub p hp)⟩ with ⟨s, -, rfl⟩ | ⟨q, hq, rfl⟩
    · simp only [List.mem_cons, List.not_mem_nil, or_false] at hnr
      rcases hnr with e | e
      · rw [e]; rfl
      · rw [e, hs.kinds.outputs.2.1] at hk; cases hk
    · simp only [List.mem_cons, List.not_mem_nil, or_false] at hnr
      rcases hnr with e | e
      · rw [e]; rfl
      · rw [e, hs.kinds.outputs.2.2 _ (List.of_mem_zip hq).2] at hk; cases hk)
  refine ⟨c, fun i s g hi hg => ?_⟩
  have hmem : (s, g) ∈ l := by
    rw [hl, hlinks]
    refine List.mem_filterMap.2 ⟨(some g, s), ?_, rfl⟩
    rw [List.mem_iff_getElem?]
    refine ⟨i, ?_⟩
    rw [List.getElem?_zip_eq_some]
    exact ⟨hg, by rw [List.getElem?_drop]; exact hi⟩
  have hz : (s, g) ∈ (l.map (·.1)).zip (l.map (·.2)) := by
    rw [List.zip_map']
    exact List.mem_map.2 ⟨_, hmem, rfl⟩
  exact hc _ hz

/-- Without a segment of its own (`nsteps = 0`) only the first factor is used, and for the last of the extra outlets: the others have no share at all. -/
theorem C65_no_steps_fails (b extra : Nat) (slots : Option (List Slot)) (f : Rat) (fs : List (Option Rat)) (m : MultiSplit)
    (h : MultiSplit.create b 0 extra slots (some (some f :: fs)) = some m) : m.shares = some [(b + 2 + extra, f)] := by
  obtain ⟨h1, -, -, hl, -, -, hsh⟩ := create_inv h
  rw [(hsh _ rfl).2, hl]
  unfold splitLinks
  rw [if_pos rfl]
  obtain ⟨e, rfl⟩ : ∃ e, extra = e + 1 := ⟨extra - 1, by omega⟩
  have : ((List.range (0 + (e + 1))).map fun i => b + 3 + i).drop (((List.range (0 + (e + 1))).map fun i => b + 3 + i).length - 1) = [b + 3 + e] := by
    rw [Nat.zero_add, List.range_succ, List.map_append, List.length_append]
    simp
  rw [this]
  unfold shareList
  simp
  omega

example : (MultiSplit.create 0 0 2 none (some [some 1, some 2, some 3])).isSome = true := by decide +kernel

/-- **C65 (shares, partial).** With a positive factor `g` for every outlet, the water not taken by the first `nsteps - 1` segments is divided exactly in
the ratio of the factors *between the segments*; an extra outlet delivers at most its share of it, and the first outlet at least its own share on top of
what the first segments take. Missing: that the extra outlets deliver exactly their shares (see `C65_split_fails`). -/
theorem C65_shares_partial (d : Data) (routes : List (List Nat)) (hw : WellRouted d routes) (x : List Rat) (hx : RouteFeasible d routes x)
    (b nsteps extra : Nat) (slots : Option (List Slot)) (gs : List Rat) (m : MultiSplit)
    (h : MultiSplit.create b nsteps extra slots (some (gs.map some)) = some m) (hs : HasSplit d routes m) (hn : 1 ≤ nsteps)
    (hpos : ∀ g ∈ gs, 0 < g) (free : Rat)
    (hfree : free = routeNodeFlow d routes x m.link.output - ((m.link.sublinks.take (nsteps - 1)).map (routeNodeFlow d routes x)).sum) :
    (∀ (i s : Nat) (g : Rat), m.link.sublinks[nsteps - 1 + i]? = some s → gs[i]? = some g → routeNodeFlow d routes x s = g / gs.sum * free) ∧
    (∀ (i o : Nat) (g : Rat), m.extraInputs[i]? = some o → gs[i + 1]? = some g → routeNodeFlow d routes x o ≤ g / gs.sum * free) ∧
    (∀ g, gs.head? = some g → ((m.link.sublinks.take (nsteps - 1)).map (routeNodeFlow d routes x)).sum + g / gs.sum * free ≤
      routeNodeFlow d routes x m.link.input) := by
  obtain ⟨hn1, hn2⟩ := created_parts h
  obtain ⟨-, hlen1, hlen2, hlen3⟩ := C65_created _ _ _ _ _ _ h
  obtain ⟨-, -, -, -, -, -, hsh⟩ := create_inv h
  obtain ⟨hfl, -⟩ := hsh _ rfl
  rw [List.length_map] at hfl
  have hx0 : ∀ v ∈ x, 0 ≤ v := by obtain ⟨-, -, -, h0, -⟩ := hx; exact h0
  obtain ⟨c, hc⟩ := C65_proportional d routes hw x hx b nsteps extra slots _ m h hs hn
  obtain ⟨hb1, hb2⟩ := C65_balance d routes hw x hx b nsteps extra slots _ m h hs
  have hc' : ∀ (i s : Nat) (g : Rat), m.link.sublinks[nsteps - 1 + i]? = some s → gs[i]? = some g → routeNodeFlow d routes x s = c * g := by
    intro i s g h1 h2
    exact (hc i s g h1 (by rw [List.getElem?_map, h2]; rfl)).2
  have hsum : 0 < gs.sum := by
    cases gs with
    | nil => simp at hfl
    | cons g gs =>
      rw [List.sum_cons]
      have := hpos g (by simp)
      have : 0 ≤ gs.sum := List.sum_nonneg fun g hg => le_of_lt (hpos g (List.mem_cons_of_mem _ hg))
      linarith
  have hdrop : ((m.link.sublinks.drop (nsteps - 1)).map (routeNodeFlow d routes x)) = gs.map fun g => c * g := by
    apply List.ext_getElem?
    intro i
    rw [List.getElem?_map, List.getElem?_map, List.getElem?_drop]
    by_cases hi : i < gs.length
    · have hi' : nsteps - 1 + i < m.link.sublinks.length := by omega
      rw [List.getElem?_eq_getElem hi, List.getElem?_eq_getElem hi']
      simp only [Option.map_some]
      rw [hc' i _ _ (List.getElem?_eq_getElem hi') (List.getElem?_eq_getElem hi)]
    · rw [List.getElem?_eq_none (by omega), List.getElem?_eq_none (by omega)]; rfl
  have hcsum : (gs.map fun g => c * g).sum = c * gs.sum := by
    rw [List.sum_map_mul_left]; simp
  have hfr : free = c * gs.sum := by
    rw [hfree, hb1]
    unfold Piecewise.flow
    conv_lhs => rw [← List.take_append_drop (nsteps - 1) m.link.sublinks]
    rw [List.map_append, List.sum_append, hdrop, hcsum]
    rw [List.take_append_drop]
    ring
  have hcf : ∀ g, c * g = g / gs.sum * free := by
    intro g; rw [hfr]; field_simp
  have hzip : ∀ (i o : Nat), m.extraInputs[i]? = some o → ∃ s, m.link.sublinks[nsteps + i]? = some s ∧
      routeNodeFlow d routes x o ≤ routeNodeFlow d routes x s := by
    intro i o ho
    obtain ⟨hi, rfl⟩ := List.getElem?_eq_some_iff.1 ho
    have h1 : i < m.extraOutputs.length := by omega
    have h2 : nsteps + i < m.link.sublinks.length := by omega
    refine ⟨m.link.sublinks[nsteps + i], List.getElem?_eq_getElem h2, ?_⟩
    have z1 : (m.extraOutputs[i], m.extraInputs[i]) ∈ m.extraOutputs.zip m.extraInputs := by
      rw [← List.getElem_zip (h := by rw [List.length_zip]; omega)]; exact List.getElem_mem _
    have z2 : (m.link.sublinks[nsteps + i], m.extraOutputs[i]) ∈ m.extraLinks.zip m.extraOutputs := by
      rw [List.mem_iff_getElem?]
      refine ⟨i, List.getElem?_zip_eq_some.2 ⟨?_, List.getElem?_eq_getElem h1⟩⟩
      unfold MultiSplit.extraLinks
      rw [List.getElem?_drop, hlen1, hlen2, Nat.add_sub_cancel]
      exact List.getElem?_eq_getElem h2
    have e1 := outlet_value hw hx hs z1
    have e2 := outlet_le hs hw hx0 hn2 z2
    simp only at e1 e2
    rw [e1]; exact e2
  refine ⟨fun i s g h1 h2 => by rw [hc' i s g h1 h2, hcf], fun i o g ho hg => ?_, fun g hg => ?_⟩
  · obtain ⟨s, hs1, hle⟩ := hzip i o ho
    rw [← hcf, ← hc' (i + 1) s g (by rw [← hs1]; congr 1; omega) hg]
    exact hle
  · have hg0 : gs[0]? = some g := by rw [← hg, List.head?_eq_getElem?]
    have h0 : nsteps - 1 < m.link.sublinks.length := by omega
    have e0 := hc' 0 _ g (List.getElem?_eq_getElem h0) hg0
    have hle : (m.extraInputs.map (routeNodeFlow d routes x)).sum ≤ ((m.link.sublinks.drop nsteps).map (routeNodeFlow d routes x)).sum := by
      have key : List.Forall₂ (· ≤ ·) (m.extraInputs.map (routeNodeFlow d routes x)) ((m.link.sublinks.drop nsteps).map (routeNodeFlow d routes x)) := by
        rw [List.forall₂_iff_get]
        refine ⟨by simp [hlen1, hlen3], fun i h1 h2 => ?_⟩
        simp only [List.length_map] at h1 h2
        obtain ⟨s, hs1, hle⟩ := hzip i _ (List.getElem?_eq_getElem h1)
        obtain ⟨hi', rfl⟩ := List.getElem?_eq_some_iff.1 hs1
        simpa using hle
      exact List.Forall₂.sum_le_sum key
    have hsplit : m.link.flow (routeNodeFlow d routes x) = ((m.link.sublinks.take (nsteps - 1)).map (routeNodeFlow d routes x)).sum +
        (routeNodeFlow d routes x m.link.sublinks[nsteps - 1] + ((m.link.sublinks.drop nsteps).map (routeNodeFlow d routes x)).sum) := by
      unfold Piecewise.flow
      conv_lhs => rw [← List.take_append_drop (nsteps - 1) m.link.sublinks]
      rw [List.map_append, List.sum_append, List.drop_eq_getElem_cons h0, List.map_cons, List.sum_cons, Nat.sub_add_cancel hn]
    rw [← hcf, ← e0]
    rw [hb1, hsplit] at hb2
    linarith

/-- **C65 (routes).** What `HasSplit` says about the routes follows from the connections made by the constructor, when the solver's routes are those of
`find_all_routes`, the inner nodes lie in a domain of their own and nothing else is connected to them. -/
theorem C65_routes (d : Data) (g : Digraph) (hg : g.WF) (info : Routes.NodeInfo) (routes : List (List Nat)) (m : MultiSplit)
    (hfound : Routes.findAllRoutes g info (.cls fun n => d.kind n == .input) (.cls fun n => d.kind n == .output)
      (some fun n => d.kind n != .other) none .strict = .ok routes)
    (hkind : SplitKinds d m) (own : Nat)
    (hin : ∀ n, m.Inner n → info.domain n = own)
    (hout : info.domain m.link.output ≠ own ∧ info.domain m.link.input ≠ own ∧ ∀ i ∈ m.extraInputs, info.domain i ≠ own)
    (honly : ∀ e ∈ g.edges, (m.Inner e.1 ∨ m.Inner e.2) → e ∈ m.edges) :
    ∀ r ∈ routes, (∃ n ∈ r, m.Inner n) →
      (∃ s ∈ m.link.sublinks, r = [s, m.link.subOutput]) ∨ ∃ q ∈ m.extraLinks.zip m.extraOutputs, r = [q.1, q.2] := by
  obtain ⟨-, hex⟩ := Routes.C26_routes_exact g hg info _ _ _ _ _ routes hfound
  intro r hr
  obtain ⟨a, z, ha, hz, haz, ⟨hp1, hp2, hp3, hp4⟩, -, -, hstrict⟩ := (hex r).1 hr
  have hstrict : ∀ x ∈ r, ∀ y ∈ r, info.domain x = info.domain y := hstrict
  have ka : d.kind a = .input := by simpa using ha.2
  have mem_e : ∀ e ∈ m.edges, e = (m.link.subOutput, m.link.input) ∨ (∃ t ∈ m.link.sublinks, e = (t, m.link.subOutput) ∨ e = (m.link.output, t)) ∨
      e ∈ m.extraOutputs.zip m.extraInputs ∨ e ∈ m.extraLinks.zip m.extraOutputs := by
    intro e he
    simp only [MultiSplit.edges, Piecewise.edges, List.mem_append, List.mem_cons, List.mem_flatMap, List.not_mem_nil, or_false] at he
    rcases he with ((h | h) | h) | h
    · exact .inl h
    · exact .inr (.inl h)
    · exact .inr (.inr (.inl h))
    · exact .inr (.inr (.inr h))
  have sub_kind : ∀ s ∈ m.link.sublinks, d.kind s = .input := fun s hs => (hkind.segments s hs).2
  have xl_sub : ∀ q ∈ m.extraLinks.zip m.extraOutputs, q.1 ∈ m.link.sublinks := fun q hq => List.mem_of_mem_drop (List.of_mem_zip hq).1
  -- a route with a segment
  have first : ∀ s ∈ m.link.sublinks, s ∈ r →
      (∃ s ∈ m.link.sublinks, r = [s, m.link.subOutput]) ∨ ∃ q ∈ m.extraLinks.zip m.extraOutputs, r = [q.1, q.2] := by
    intro s hs hsr
    have hdom : ∀ n ∈ r, info.domain n = own := fun n hn => (hstrict n hn s hsr).trans (hin s (.inl hs))
    have hhead : r.head? = some s := by
      by_contra hh
      obtain ⟨i, hi, e, he⟩ := pred_index hp3 hsr hh
      have hir : r[i] ∈ r := List.getElem_mem _
      rcases mem_e _ (honly _ he (.inr (.inl hs))) with h | ⟨t, ht, h | h⟩ | h | h
      · injection h with h1 h2; exact hout.2.1 (h2 ▸ hdom s hsr)
      · injection h with h1 h2
        have := sub_kind s hs
        rw [h2, hkind.outputs.2.1] at this; cases this
      · injection h with h1 h2; exact hout.1 (h1 ▸ hdom _ hir)
      · exact hout.2.2 _ (List.of_mem_zip h).2 (hdom s hsr)
      · have := sub_kind s hs
        rw [hkind.outputs.2.2 _ (List.of_mem_zip h).2] at this; cases this
    have hlast : r.getLast? ≠ some s := by
      intro h; rw [hp1] at hhead; rw [hp2] at h; exact haz (by rw [Option.some.inj hhead, Option.some.inj h])
    match r, hhead, hlast, hp3, hdom with
    | [a], hhead, hlast, _, _ => simp at hhead hlast; exact absurd hhead hlast
    | a :: c :: rest, hhead, hlast, hp3, hdom =>
      simp only [List.head?_cons, Option.some.injEq] at hhead
      subst hhead
      rw [List.isChain_cons_cons] at hp3
      -- the second node is an outlet, and the end
      have stop : ∀ o, d.kind o = .output → m.Inner o → c = o → rest = [] := by
        rintro o ho hI rfl
        match rest, hp3, hdom with
        | [], _, _ => rfl
        | u :: rest, hp3, hdom =>
          exfalso
          have h3 := hp3.2
          rw [List.isChain_cons_cons] at h3
          have hu : info.domain u = own := hdom u (by simp)
          rcases mem_e _ (honly _ h3.1 (.inl hI)) with h | ⟨t, ht, h | h⟩ | h | h
          · injection h with h1 h2; exact hout.2.1 (h2 ▸ hu)
          · injection h with h1 h2
            have := sub_kind t ht
            rw [← h1, ho] at this; cases this
          · injection h with h1 h2; exact hout.1 (h1 ▸ hin _ hI)
          · exact hout.2.2 _ (List.of_mem_zip h).2 hu
          · have := sub_kind _ (xl_sub _ h)
            rw [ho] at this; cases this
      rcases mem_e _ (honly _ hp3.1 (.inl (.inl hs))) with h | ⟨t, ht, h | h⟩ | h | h
      · injection h with h1 h2
        have := sub_kind _ hs
        rw [h1, hkind.outputs.2.1] at this; cases this
      · injection h with h1 h2
        have := stop _ hkind.outputs.2.1 (.inr (.inl rfl)) h2
        exact .inl ⟨_, hs, by rw [this, h2]⟩
      · injection h with h1 h2; exact absurd (h1 ▸ hdom _ (by simp)) hout.1
      · have := sub_kind _ hs
        rw [hkind.outputs.2.2 _ (List.of_mem_zip h).1] at this; cases this
      · have := stop _ (hkind.outputs.2.2 _ (List.of_mem_zip h).2) (.inr (.inr (List.of_mem_zip h).2)) rfl
        exact .inr ⟨_, h, by rw [this]⟩
  rintro ⟨n, hnr, hI⟩
  -- a route with an outlet has a segment before it
  have second : d.kind n = .output → ∃ s ∈ m.link.sublinks, s ∈ r := by
    intro ho
    have hdom : ∀ u ∈ r, info.domain u = own := fun u hu => (hstrict u hu n hnr).trans (hin n hI)
    have hh : r.head? ≠ some n := by
      intro hh; rw [hp1] at hh
      rw [Option.some.inj hh, ho] at ka; cases ka
    obtain ⟨i, hi, e, he⟩ := pred_index hp3 hnr hh
    have hir : r[i] ∈ r := List.getElem_mem _
    rcases mem_e _ (honly _ he (.inr hI)) with h | ⟨t, ht, h | h⟩ | h | h
    · injection h with h1 h2; exact absurd (h2 ▸ hdom n hnr) hout.2.1
    · injection h with h1 h2; exact ⟨t, ht, h1 ▸ hir⟩
    · injection h with h1 h2; exact absurd (h1 ▸ hdom _ hir) hout.1
    · exact absurd (hdom n hnr) (hout.2.2 _ (List.of_mem_zip h).2)
    · exact ⟨_, xl_sub _ h, hir⟩
  rcases hI with hI | rfl | hI
  · exact first n hI hnr
  · obtain ⟨s, hs, hsr⟩ := second hkind.outputs.2.1
    exact first s hs hsr
  · obtain ⟨s, hs, hsr⟩ := second (hkind.outputs.2.2 n hI)
    exact first s hs hsr

/-! ## The hypotheses are met, and the ratio is not enforced at the outlets

Supply 8 feeds a split with factors 1 : 1 (nodes 0 to 7), its first outlet supplies demand 9 and its second one demand 10. -/

/-- The split of the example. -/
def evenSplit : MultiSplit := ⟨⟨1, [3, 4], 2, 0⟩, [.number 0, .number 1], [6], [7], some [(3, 1), (4, 1)]⟩

example : riverSplit 0 1 [some 1, some 1] none = some evenSplit := by
  rfl

/-- The model of the example: the supply is fixed at 10, there are no costs. -/
def evenModel : Data :=
  ⟨fun n => match n with
    | 0 => .input | 1 => .output | 2 => .output | 3 => .input | 4 => .input | 6 => .output | 7 => .input | 8 => .input | 9 => .output | 10 => .output
    | _ => .other,
    [0, 1, 2, 3, 4, 5, 6, 7, 8, 9, 10], fun n => if n = 8 then .fin 10 else .fin 0, fun n => if n = 8 then .fin 10 else .posInf,
    fun _ => 0, [], [], evenSplit.agg, evenSplit.cross, 1⟩

/-- Its graph. -/
def evenGraph : Digraph := ⟨[0, 1, 2, 3, 4, 5, 6, 7, 8, 9, 10], evenSplit.edges ++ [(8, 1), (0, 9), (7, 10)]⟩

/-- Its routes. -/
def evenRoutes : List (List Nat) := [[0, 9], [3, 2], [4, 2], [4, 6], [7, 10], [8, 1]]

/-- Its domains: the inner nodes of the split, and everything else. -/
def evenInfo : Routes.NodeInfo := ⟨fun n => toString n, fun n => toString n, fun n => if n ∈ [2, 3, 4, 6] then 1 else 0⟩

private theorem even_kinds : SplitKinds evenModel evenSplit := by
  refine ⟨by decide +kernel, by decide +kernel, by decide +kernel⟩

private theorem even_has : HasSplit evenModel evenRoutes evenSplit := by
  refine ⟨even_kinds, ?_, by decide +kernel, fun a ha => ha⟩
  intro r hr h
  have : r = [0, 9] ∨ r = [7, 10] ∨ r = [8, 1] ∨ (∃ s ∈ evenSplit.link.sublinks, r = [s, evenSplit.link.subOutput]) ∨
      ∃ q ∈ evenSplit.extraLinks.zip evenSplit.extraOutputs, r = [q.1, q.2] := by
    clear h; revert r; decide +kernel
  have no : ∀ r ∈ ([[0, 9], [7, 10], [8, 1]] : List (List Nat)), ∀ n ∈ r, ¬ (n ∈ evenSplit.link.sublinks ∨ n = evenSplit.link.subOutput ∨ n ∈ evenSplit.extraOutputs) := by
    decide +kernel
  obtain ⟨n, hn, hI⟩ := h
  rcases this with rfl | rfl | rfl | h | h
  · exact absurd hI (no _ (by simp) n hn)
  · exact absurd hI (no _ (by simp) n hn)
  · exact absurd hI (no _ (by simp) n hn)
  · exact .inl h
  · exact .inr h

private theorem even_routed : WellRouted evenModel evenRoutes := by decide +kernel

/-- A solution with water through both outlets: 7 through the first one and 3 through the second one, 5 through each segment. -/
example : RouteFeasible evenModel evenRoutes [7, 5, 2, 3, 3, 10] ∧
    evenSplit.link.sublinks.map (routeNodeFlow evenModel evenRoutes [7, 5, 2, 3, 3, 10]) = [5, 5] ∧
    routeNodeFlow evenModel evenRoutes [7, 5, 2, 3, 3, 10] 7 = 3 := by
  decide +kernel

/-- The hypotheses of `C65_routes` are met by the example. -/
example : evenGraph.WF ∧ (∃ routes, Routes.findAllRoutes evenGraph evenInfo (.cls fun n => evenModel.kind n == .input)
      (.cls fun n => evenModel.kind n == .output) (some fun n => evenModel.kind n != .other) none .strict = .ok routes) ∧
    (∀ n, evenSplit.Inner n → evenInfo.domain n = 1) ∧
    (evenInfo.domain evenSplit.link.output ≠ 1 ∧ evenInfo.domain evenSplit.link.input ≠ 1 ∧ ∀ i ∈ evenSplit.extraInputs, evenInfo.domain i ≠ 1) ∧
    ∀ e ∈ evenGraph.edges, (evenSplit.Inner e.1 ∨ evenSplit.Inner e.2) → e ∈ evenSplit.edges := by
  refine ⟨⟨by decide, by decide, ?_⟩, Routes.C26_routes_total _ _ _ _ _ _ _ (by decide), ?_, by decide, ?_⟩
  · have : ∀ e ∈ evenGraph.edges, e.1 ∈ evenGraph.nodes ∧ e.2 ∈ evenGraph.nodes := by decide
    exact fun u v h => this (u, v) h
  · intro n hn
    have : ∀ n ∈ [3, 4, 2, 6], evenInfo.domain n = 1 := by decide
    apply this
    rcases hn with hn | rfl | hn
    · have h : ∀ n ∈ evenSplit.link.sublinks, n ∈ [3, 4, 2, 6] := by decide
      exact h n hn
    · decide
    · have h : ∀ n ∈ evenSplit.extraOutputs, n ∈ [3, 4, 2, 6] := by decide
      exact h n hn
  · unfold MultiSplit.Inner; decide

/-- **C65 fails at the outlets.** The ratio is enforced between the segments only, and every segment also leads to the first outlet. So, although a split
with factors 1 : 1 is documented to distribute the flow in a fixed ratio, there is a cost-optimal solution in which the 10 units entering it all leave
through its first outlet and none through the second one. -/
theorem C65_split_fails : ∃ (d : Data) (routes : List (List Nat)) (m : MultiSplit) (x : List Rat) (o : Nat),
    riverSplit 0 1 [some 1, some 1] none = some m ∧ WellRouted d routes ∧ HasSplit d routes m ∧ Optimal d routes x ∧
    m.outlet (.number 1) = some o ∧ routeNodeFlow d routes x m.link.output = 10 ∧ routeNodeFlow d routes x o = 0 ∧
    routeNodeFlow d routes x m.link.input = 10 := by
  refine ⟨evenModel, evenRoutes, evenSplit, [10, 5, 5, 0, 0, 10], 7, rfl, even_routed, even_has, ⟨by decide +kernel, ?_⟩, by decide, by decide +kernel,
    by decide +kernel, by decide +kernel⟩
  have zero : ∀ r ∈ evenRoutes, roundCost (routeCost evenModel r) = 0 := by decide +kernel
  have obj : ∀ x, routeObjective evenModel evenRoutes x = 0 := by
    intro x
    have : routeObjective evenModel evenRoutes x = S evenRoutes x (fun r => roundCost (routeCost evenModel r)) := rfl
    rw [this, S_congr (g := fun _ => 0) zero, S_zero]
  intro x' _
  rw [obj, obj]

end Verif.Composite

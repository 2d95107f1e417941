import Verif.Spec.ModelCache
import Verif.Props.Optimisation
/-! # C91: evaluations with a cached model -/

namespace Verif.ModelCache

open Verif.Opt

variable {J H R : Type}

/-- Two variables with the same sizes and bounds. -/
private def Alike (v w : Var) : Prop := v.dsize = w.dsize ∧ v.isize = w.isize ∧ v.dRange = w.dRange ∧ v.iRange = w.iRange

private def AllAlike (vs ws : List Var) : Prop := List.Forall₂ Alike vs ws

private theorem set_alike {v v' : Var} {x : List Rat} (h : v.set x = some v') : Alike v' v ∧ v'.dsize + v'.isize = x.length := by
  unfold Var.set at h
  split at h
  · simp at h
  · next hl =>
    simp only [Option.some.injEq] at h
    subst h
    exact ⟨⟨rfl, rfl, rfl, rfl⟩, by simpa using (not_not.1 hl).symm⟩

private theorem setUntil_alike (map : List Nat) (x : List Rat) (i : Nat) (vs : List Var) : AllAlike (setUntil map x i vs).1 vs := by
  induction vs generalizing i with
  | nil => exact .nil
  | cons v vs ih =>
    rw [setUntil]
    have refl : AllAlike (v :: vs) (v :: vs) := by
      unfold AllAlike
      rw [List.forall₂_same]
      exact fun w _ => ⟨rfl, rfl, rfl, rfl⟩
    split
    · split
      · exact refl
      · next v' hv' => exact .cons (set_alike hv').1 (ih (i + 1))
    · exact refl

private theorem setUntil_setAll (map : List Nat) (x : List Rat) (i : Nat) (vs : List Var) :
    setAll map x i vs = if (setUntil map x i vs).2 then some (setUntil map x i vs).1 else none := by
  induction vs generalizing i with
  | nil => rfl
  | cons v vs ih =>
    rw [setAll, setUntil]
    cases ha : map[i]? with
    | none => simp
    | some a =>
      cases hb : map[i + 1]? with
      | none => simp
      | some b =>
        simp only [Option.bind_eq_bind, Option.bind_some]
        cases hv : v.set (slice x a b) with
        | none => simp
        | some v' =>
          simp only [Option.bind_some]
          rw [ih]
          cases (setUntil map x (i + 1) vs).2 <;> simp

/-- Setting gives the same for variables that differ in their values only: everything is overwritten. -/
private theorem set_congr {v w : Var} (h : Alike v w) (hv : v.doubles.length = v.dsize) (hw : w.doubles.length = w.dsize) (iv : v.ints.length = v.isize) (iw : w.ints.length = w.isize)
    (x : List Rat) : v.set x = w.set x := by
  obtain ⟨d, n, dv, nv, rd, rn⟩ := v
  obtain ⟨d', n', dv', nv', rd', rn'⟩ := w
  obtain ⟨h1, h2, h3, h4⟩ := h
  simp only at h1 h2 h3 h4 hv hw iv iw
  subst h1 h2 h3 h4
  unfold Var.set
  simp only
  split
  · rfl
  · congr 2
    · split
      · rfl
      · have e1 : dv = [] := List.eq_nil_of_length_eq_zero (by omega)
        have e2 : dv' = [] := List.eq_nil_of_length_eq_zero (by omega)
        rw [e1, e2]
    · split
      · rfl
      · have e1 : nv = [] := List.eq_nil_of_length_eq_zero (by omega)
        have e2 : nv' = [] := List.eq_nil_of_length_eq_zero (by omega)
        rw [e1, e2]

private def Full (v : Var) : Prop := v.doubles.length = v.dsize ∧ v.ints.length = v.isize

private theorem set_full {v v' : Var} {x : List Rat} (hv : Full v) (h : v.set x = some v') : Full v' := by
  unfold Var.set at h
  split at h
  · simp at h
  · next hl =>
    rw [not_not] at hl
    simp only [Option.some.injEq] at h
    subst h
    refine ⟨?_, ?_⟩
    · simp only
      split
      · rw [List.length_take]; omega
      · exact hv.1
    · simp only
      split
      · rw [List.length_map, List.length_drop]; omega
      · exact hv.2

private theorem setUntil_full (map : List Nat) (x : List Rat) (i : Nat) (vs : List Var) (h : ∀ v ∈ vs, Full v) : ∀ v ∈ (setUntil map x i vs).1, Full v := by
  induction vs generalizing i with
  | nil => exact h
  | cons v vs ih =>
    rw [setUntil]
    split
    · split
      · exact h
      · next v' hv' =>
        intro w hw
        rcases List.mem_cons.1 hw with rfl | hw
        · exact set_full (h v (by simp)) hv'
        · exact ih (i + 1) (fun u hu => h u (List.mem_cons_of_mem _ hu)) w hw
    · exact h

private theorem setUntil_congr (map : List Nat) (x : List Rat) (i : Nat) (vs ws : List Var) (ha : AllAlike vs ws) (hv : ∀ v ∈ vs, Full v) (hw : ∀ w ∈ ws, Full w) :
    (setUntil map x i vs).2 = (setUntil map x i ws).2 ∧ ((setUntil map x i vs).2 = true → (setUntil map x i vs).1 = (setUntil map x i ws).1) := by
  induction ha generalizing i with
  | nil => exact ⟨rfl, fun _ => rfl⟩
  | @cons v w vs ws h ha ih =>
    have fv := hv v (by simp)
    have fw := hw w (by simp)
    have hset := set_congr h fv.1 fw.1 fv.2 fw.2
    rw [setUntil, setUntil]
    simp only [hset]
    cases map[i]? with
    | none => exact ⟨rfl, by simp⟩
    | some a =>
      cases map[i + 1]? with
      | none => exact ⟨rfl, by simp⟩
      | some b =>
        simp only
        cases w.set (slice x a b) with
        | none => exact ⟨rfl, by simp⟩
        | some u =>
          obtain ⟨h1, h2⟩ := ih (i + 1) (fun u hu => hv u (List.mem_cons_of_mem _ hu)) (fun u hu => hw u (List.mem_cons_of_mem _ hu))
          simp only
          exact ⟨h1, fun ht => by rw [h2 ht]⟩

/-- A cached model is one made from the document, whose variables may have been changed. -/
private def Good (W : World J H R) (m : Cached J H) : Prop :=
  variableMap ((W.decl m.doc).map Var.size) = some m.map ∧ AllAlike m.vars (W.decl m.doc) ∧ ∀ v ∈ m.vars, Full v

private theorem alike_trans {a b c : List Var} (h : AllAlike a b) (h' : AllAlike b c) : AllAlike a c := by
  unfold AllAlike at *
  induction h generalizing c with
  | nil => exact h'
  | cons hab _ ih =>
    cases h' with
    | cons hbc h' => exact .cons ⟨hab.1.trans hbc.1, hab.2.1.trans hbc.2.1, hab.2.2.1.trans hbc.2.2.1, hab.2.2.2.trans hbc.2.2.2⟩ (ih h')

private theorem cached_good (W : World J H R) (hW : ∀ j, ∀ v ∈ W.decl j, Full v) (c : Cache J H) (hc : ∀ u m, c u = some m → Good W m) (w : Wrapper J) (m : Cached J H)
    (hm : cached W c w = some m) : Good W m := by
  unfold cached at hm
  cases hu : c w.uid with
  | some m' => rw [hu] at hm; cases hm; exact hc _ _ hu
  | none =>
    rw [hu] at hm
    cases hv : variableMap ((W.decl w.doc).map Var.size) with
    | none => rw [hv] at hm; simp at hm
    | some map =>
      rw [hv] at hm
      simp only [Option.map_some, Option.some.injEq] at hm
      subst hm
      refine ⟨hv, ?_, hW _⟩
      unfold AllAlike
      rw [List.forall₂_same]
      exact fun _ _ => ⟨rfl, rfl, rfl, rfl⟩

private theorem evaluate_good (W : World J H R) (hW : ∀ j, ∀ v ∈ W.decl j, Full v) (c : Cache J H) (hc : ∀ u m, c u = some m → Good W m) (w : Wrapper J) (x : List Rat) :
    ∀ u m, (evaluate W c w x).2 u = some m → Good W m := by
  unfold evaluate
  cases hm : cached W c w with
  | none => exact hc
  | some m =>
    have hg := cached_good W hW c hc w m hm
    have hs : ∀ h, Good W { m with vars := (setUntil m.map x 0 m.vars).1, state := h } := fun h =>
      ⟨hg.1, alike_trans (setUntil_alike _ _ _ _) hg.2.1, setUntil_full _ _ _ _ hg.2.2⟩
    simp only
    split
    · intro u m' hu
      simp only at hu
      split at hu
      · cases hu; exact hs m.state
      · exact hc _ _ hu
    · intro u m' hu
      simp only at hu
      split at hu
      · cases hu; exact hs _
      · exact hc _ _ hu

/-- The document of the cached model is that of a wrapper with its identifier. -/
private def From (ws : List (Wrapper J)) (c : Cache J H) : Prop := ∀ u m, c u = some m → ∃ w ∈ ws, w.uid = u ∧ w.doc = m.doc

private theorem cached_doc (W : World J H R) (ws : List (Wrapper J)) (c : Cache J H) (hc : From ws c) (w : Wrapper J) (m : Cached J H) (hm : cached W c w = some m) :
    ∃ w' ∈ w :: ws, w'.uid = w.uid ∧ w'.doc = m.doc := by
  unfold cached at hm
  cases hu : c w.uid with
  | some m' =>
    rw [hu] at hm; cases hm
    obtain ⟨w', h1, h2, h3⟩ := hc _ _ hu
    exact ⟨w', List.mem_cons_of_mem _ h1, h2, h3⟩
  | none =>
    rw [hu] at hm
    cases hv : variableMap ((W.decl w.doc).map Var.size) with
    | none => rw [hv] at hm; simp at hm
    | some map =>
      rw [hv] at hm
      simp only [Option.map_some, Option.some.injEq] at hm
      subst hm
      exact ⟨w, by simp, rfl, rfl⟩

private theorem evaluate_from (W : World J H R) (ws : List (Wrapper J)) (c : Cache J H) (hc : From ws c) (w : Wrapper J) (x : List Rat) : From (w :: ws) (evaluate W c w x).2 := by
  have hc' : From (w :: ws) c := fun u m hu => by
    obtain ⟨w', h1, h2⟩ := hc u m hu
    exact ⟨w', List.mem_cons_of_mem _ h1, h2⟩
  unfold evaluate
  cases hm : cached W c w with
  | none => exact hc'
  | some m =>
    obtain ⟨w', h1, h2, h3⟩ := cached_doc W ws c hc w m hm
    simp only
    split
    · intro u m' hu
      simp only at hu
      split at hu
      · next e => cases hu; exact ⟨w', h1, h2.trans e.symm, h3⟩
      · exact hc' _ _ hu
    · intro u m' hu
      simp only at hu
      split at hu
      · next e => cases hu; exact ⟨w', h1, h2.trans e.symm, h3⟩
      · exact hc' _ _ hu

private theorem from_mono {ws ws' : List (Wrapper J)} {c : Cache J H} (h : From ws c) (hs : ∀ w ∈ ws, w ∈ ws') : From ws' c := fun u m hu => by
  obtain ⟨w', h1, h2⟩ := h u m hu
  exact ⟨w', hs _ h1, h2⟩

private theorem wrappers_append (es es' : List (Event J)) : wrappers (es ++ es') = wrappers es ++ wrappers es' := by
  induction es with
  | nil => rfl
  | cons e es ih => cases e <;> simp [wrappers, ih]

private theorem after_spec (W : World J H R) (hW : ∀ j, ∀ v ∈ W.decl j, Full v) (es : List (Event J)) (p : Nat) :
    (∀ u m, after W es p u = some m → Good W m) ∧ From (wrappers es) (after W es p) := by
  induction es using List.reverseRecOn generalizing p with
  | nil => exact ⟨fun u m h => by simp [after] at h, fun u m h => by simp [after] at h⟩
  | append_singleton es e ih =>
    have hstep : after W (es ++ [e]) = step W (after W es) e := by simp [after, List.foldl_append]
    rw [hstep, wrappers_append]
    have hs : ∀ w ∈ wrappers es, w ∈ wrappers es ++ wrappers [e] := fun w hw => List.mem_append_left _ hw
    cases e with
    | evaluate q w x =>
      simp only [step]
      split
      · obtain ⟨h1, h2⟩ := ih q
        refine ⟨evaluate_good W hW _ h1 w x, from_mono (evaluate_from W _ _ h2 w x) ?_⟩
        intro w' hw'
        rcases List.mem_cons.1 hw' with rfl | hw'
        · simp [wrappers]
        · exact hs _ hw'
      · exact ⟨(ih p).1, from_mono (ih p).2 hs⟩
    | clear q =>
      simp only [step]
      split
      · exact ⟨fun u m h => by simp at h, fun u m h => by simp at h⟩
      · exact ⟨(ih p).1, from_mono (ih p).2 hs⟩
    | fork q q' =>
      simp only [step]
      split
      · exact ⟨(ih q).1, from_mono (ih q).2 hs⟩
      · exact ⟨(ih p).1, from_mono (ih p).2 hs⟩

/-- **C91.** Whatever was evaluated before, in whichever processes, with whichever results (also failed assertions and failed runs), and wherever caches were cleared or copied: the evaluation of a
decision vector gives what a model just made from the wrapper's document gives, provided that runs start from scratch (C18) and that no identifier is used for two documents. -/
theorem C91_history_partial (W : World J H R) (hW : ∀ j, ∀ v ∈ W.decl j, v.Ok) (hA : W.Amnesic) (es : List (Event J)) (p : Nat) (w : Wrapper J) (x : List Rat)
    (hd : Distinct (w :: wrappers es)) : (evaluate W (after W es p) w x).1 = W.once w.doc x := by
  have hF : ∀ j, ∀ v ∈ W.decl j, Full v := fun j v hv => ⟨(hW j v hv).doubles, (hW j v hv).ints⟩
  obtain ⟨h1, h2⟩ := after_spec W hF es p
  unfold evaluate
  cases hm : cached W (after W es p) w with
  | none =>
    have hv : variableMap ((W.decl w.doc).map Var.size) = none := by
      unfold cached at hm
      cases hu : after W es p w.uid with
      | some m => rw [hu] at hm; simp at hm
      | none =>
        rw [hu] at hm
        cases hv : variableMap ((W.decl w.doc).map Var.size) with
        | none => rfl
        | some map => rw [hv] at hm; simp at hm
    simp [World.once, assign, hv]
  | some m =>
    obtain ⟨w', m1, m2, m3⟩ := cached_doc W (wrappers es) _ h2 w m hm
    have hdoc : m.doc = w.doc := m3.symm.trans (hd w' m1 w (by simp) m2)
    obtain ⟨g1, g2, g3⟩ := cached_good W hF _ h1 w m hm
    rw [hdoc] at g1 g2
    obtain ⟨c1, c2⟩ := setUntil_congr m.map x 0 m.vars (W.decl w.doc) g2 g3 (hF _)
    have hassign : assign (W.decl w.doc) x = if (setUntil m.map x 0 (W.decl w.doc)).2 then some (setUntil m.map x 0 (W.decl w.doc)).1 else none := by
      unfold assign
      rw [g1]
      exact setUntil_setAll _ _ _ _
    simp only [World.once, hassign]
    cases hb : (setUntil m.map x 0 m.vars).2 with
    | false => rw [← c1, hb]; simp
    | true =>
      rw [← c1, hb, ← c2 hb]
      simp only [Bool.true_eq_false, if_false, if_true, Option.bind_some, hdoc]
      exact hA _ _ _ _

/-- **C91 (cleared).** After the cache of a process has been cleared, the next evaluation there gives what a model just made gives, also if runs do not start from scratch and identifiers were used twice; the caches of
the other processes stay as they are. An evaluation changes the cache of its own process only. -/
theorem C91_cleared (W : World J H R) (es : List (Event J)) (p : Nat) (w : Wrapper J) (x : List Rat) :
    (evaluate W (after W (es ++ [.clear p]) p) w x).1 = W.once w.doc x ∧
    (∀ q, q ≠ p → after W (es ++ [.clear p]) q = after W es q) ∧ (∀ q, q ≠ p → after W (es ++ [.evaluate p w x]) q = after W es q) := by
  have ha : ∀ e, after W (es ++ [e]) = step W (after W es) e := fun e => by simp [after]
  refine ⟨?_, fun q hq => by rw [ha]; exact if_neg hq, fun q hq => by rw [ha]; exact if_neg hq⟩
  rw [ha]
  have h0 : step W (after W es) (.clear p) p = fun _ => none := if_pos rfl
  rw [h0]
  unfold evaluate cached World.once assign
  cases hv : variableMap ((W.decl w.doc).map Var.size) with
  | none => simp
  | some map =>
    simp only [Option.map_some]
    show _ = (setAll map x 0 (W.decl w.doc)).bind _
    rw [setUntil_setAll]
    cases hb : (setUntil map x 0 (W.decl w.doc)).2 <;> simp

/-- **C91 (accepted).** Every decision vector of the right length is evaluated: exactly then the run takes place with the variables it stands for. -/
theorem C91_accepted (W : World J H R) (hW : ∀ j, ∀ v ∈ W.decl j, v.Ok) (j : J) (x : List Rat) (hx : x.length = total (W.decl j)) :
    ∃ vars, assign (W.decl j) x = some vars ∧ W.once j x = (W.run j vars (W.fresh j)).1 := by
  obtain ⟨r, hr, -⟩ := C66_assign (W.decl j) (hW j) x hx
  exact ⟨r, hr, by simp [World.once, hr]⟩

private def sampleVar (x : Rat) : Var := ⟨1, 0, [x], [], [⟨none, none⟩], []⟩

/-- Documents are numbers; the result is the document and the variable. -/
private def sampleWorld : World Nat Nat (Nat × Option Rat) where
  decl _ := [sampleVar 0]
  fresh _ := 0
  run j vars h := (some (j, (vars.head?.bind fun v => v.doubles.head?)), h + 1)

example : (∀ j, ∀ v ∈ sampleWorld.decl j, v.Ok) ∧ sampleWorld.Amnesic ∧
    Distinct (⟨7, 1⟩ :: wrappers [Event.evaluate 0 ⟨7, 1⟩ [3], .fork 0 1, .evaluate 1 ⟨7, 1⟩ [3, 4]]) ∧
    (evaluate sampleWorld (after sampleWorld [.evaluate 0 ⟨7, 1⟩ [3], .fork 0 1, .evaluate 1 ⟨7, 1⟩ [3, 4]] 1) ⟨7, 1⟩ [5]).1 = some (7, some 5) := by
  refine ⟨?_, fun _ _ _ _ => rfl, ?_, by decide +kernel⟩
  · intro j v hv
    simp only [sampleWorld, List.mem_singleton] at hv
    subst hv
    exact ⟨by decide, rfl, rfl, rfl, rfl⟩
  · intro w hw w' hw' _
    simp only [wrappers, List.mem_cons, List.not_mem_nil, or_false] at hw hw'
    rcases hw with rfl | rfl | rfl <;> rcases hw' with rfl | rfl | rfl <;> rfl

/-- An identifier used twice, with the cache cleared in between. -/
example : (evaluate sampleWorld (after sampleWorld [.evaluate 0 ⟨7, 1⟩ [3], .clear 0] 0) ⟨8, 1⟩ [5]).1 = some (8, some 5) := by decide +kernel

/-- **C91 fails** for an identifier given for two documents: the second wrapper evaluates the model of the first. -/
theorem C91_uid_fails : ∃ (w w' : Wrapper Nat) (x : List Rat), w.uid = w'.uid ∧
    (evaluate sampleWorld (after sampleWorld [.evaluate 0 w x] 0) w' x).1 ≠ sampleWorld.once w'.doc x :=
  ⟨⟨7, 1⟩, ⟨8, 1⟩, [5], rfl, by decide +kernel⟩

end Verif.ModelCache

import Verif.Spec.Component
import Verif.Props.Run
import Verif.Props.MultiRun

/-! # A recorder in a run -/

namespace Verif.Run

open Verif.Timestepper

variable {W Freq S O : Type}

/-- All calls of the plan are made, none raises. -/
inductive Calm (env : Env W Freq) : W → List (Nat × Call) → W → Prop
  | nil {w} : Calm env w [] w
  | cons {w i c cs w'} : (env.behave i c w).1 = none → Calm env (env.behave i c w).2 cs w' → Calm env w ((i, c) :: cs) w'

theorem calm_of {env : Env W Freq} {plan : List (Nat × Call)} {es : List Entry} (h : Followed plan es false) :
    ∀ {w w' : W}, Ran env w es w' → Calm env w plan w' := by
  generalize hf : false = s at h
  induction h with
  | nil => intro w w' hr; cases hr; exact .nil
  | ok _ ih =>
    intro w w' hr
    cases hr with
    | cons h1 h2 => exact .cons (by simpa using h1) (ih hf h2)
  | raised => cases hf

theorem Calm.append {env : Env W Freq} {a b : List (Nat × Call)} {w1 w' : W} (h2 : Calm env w1 b w') :
    ∀ {w : W}, Calm env w a w1 → Calm env w (a ++ b) w' := by
  intro w h
  induction h with
  | nil => exact h2
  | cons h1 _ ih => exact .cons h1 (ih h2)

theorem Ran.split {env : Env W Freq} {a b : List Entry} : ∀ {w w' : W}, Ran env w (a ++ b) w' →
    ∃ w1, Ran env w a w1 ∧ Ran env w1 b w' := by
  induction a with
  | nil => intro w w' h; exact ⟨w, .nil, h⟩
  | cons x a ih =>
    intro w w' h
    cases h with
    | cons h1 h2 =>
      obtain ⟨w1, h3, h4⟩ := ih h2
      exact ⟨w1, .cons h1 h3, h4⟩

/-- The state of a recorder along its hooks. -/
inductive Steps (rec : Rec S O) : List Ev → List O → S → S → Prop
  | nil {s} : Steps rec [] [] s s
  | setup {s s1 s' es os} : Steps rec es os s1 s' → Steps rec (.setup :: es) os s s'
  | reset {s s' es os} : Steps rec es os rec.init s' → Steps rec (.reset :: es) os s s'
  | after {s s1 s' k o es os} : rec.after k o s = some s1 → Steps rec es os s1 s' →
      Steps rec (.after k :: es) (o :: os) s s'
  | finish {s s1 s' cur es os} : rec.finish cur s = some s1 → Steps rec es os s1 s' →
      Steps rec (.finish cur :: es) os s s'

theorem evOf_inv {id r i : Nat} {c : Call} {e : Ev} (h : evOf id r (i, c) = some e) :
    i = id ∧ (c = .compSetup r ∧ e = .setup ∨ c = .compReset r ∧ e = .reset ∨
      (∃ k, c = .compAfter r k ∧ e = .after k) ∨ ∃ cur, c = .compFinish r cur ∧ e = .finish cur) := by
  cases c <;> simp only [evOf, reduceCtorEq] at h <;> split_ifs at h with hc <;> obtain ⟨rfl, rfl⟩ := hc <;>
    cases h <;> simp

variable {env : Env W Freq} {id r : Nat} {st : W → S} {obs : W → O} {rec : Rec S O}

theorem calm_steps (hO : Observer env id r st obs rec) {plan : List (Nat × Call)} :
    ∀ {w w' : W}, Calm env w plan w' →
      Steps rec (plan.filterMap (evOf id r)) (seen env id r obs w plan) (st w) (st w') := by
  induction plan with
  | nil => intro w w' h; cases h; exact .nil
  | cons x plan ih =>
    intro w w' h
    cases h with
    | @cons _ i c _ _ h1 h2 =>
      rw [List.filterMap_cons, seen]
      have hi := ih h2
      cases he : evOf id r (i, c) with
      | none =>
        rw [hO.other _ _ _ he] at hi
        exact hi
      | some e =>
        obtain ⟨rfl, ⟨rfl, rfl⟩ | ⟨rfl, rfl⟩ | ⟨k, rfl, rfl⟩ | ⟨cur, rfl, rfl⟩⟩ := evOf_inv he
        · exact .setup hi
        · rw [hO.reset _ h1] at hi
          exact .reset hi
        · exact .after (hO.after _ _ h1) hi
        · exact .finish (hO.finish _ _ h1) hi

theorem seen_append (a b : List (Nat × Call)) : ∀ {w w1 : W}, Calm env w a w1 →
    seen env id r obs w (a ++ b) = seen env id r obs w a ++ seen env id r obs w1 b := by
  intro w w1 h
  induction h with
  | nil => rfl
  | cons _ _ ih => simp only [List.cons_append, seen, ih, List.append_assoc]

theorem steps_after {d : Nat} : ∀ {k : Nat} {es : List Ev} {os : List O} {s s' : S},
    Steps rec ((List.range' k d).map .after ++ es) os s s' →
    ∃ os1 os2 s1, os = os1 ++ os2 ∧ os1.length = d ∧ rec.fold k os1 s = some s1 ∧ Steps rec es os2 s1 s' := by
  induction d with
  | zero => intro k es os s s' h; exact ⟨[], os, s, rfl, rfl, rfl, h⟩
  | succ d ih =>
    intro k es os s s' h
    rw [List.range'_succ, List.map_cons, List.cons_append] at h
    cases h with
    | @after _ s1 _ _ o _ os h1 h2 =>
      obtain ⟨os1, os2, s2, rfl, hl, hf, hs⟩ := ih h2
      exact ⟨o :: os1, os2, s2, rfl, by simp [hl], by simp [Rec.fold, h1, hf], hs⟩

/-- The shape of a run as a recorder sees it. -/
theorem steps_run {n : Nat} {cur : Option Nat} {pre : List Ev} {os : List O} {s s' : S}
    (hpre : pre = [.setup, .reset] ∨ pre = [.reset])
    (h : Steps rec (pre ++ ((List.range' 0 n).map .after ++ [.finish cur])) os s s') :
    os.length = n ∧ ∃ s1, rec.fold 0 os rec.init = some s1 ∧ rec.finish cur s1 = some s' := by
  have key : Steps rec ((List.range' 0 n).map .after ++ [.finish cur]) os rec.init s' := by
    rcases hpre with rfl | rfl
    · cases h with
      | setup h => cases h with | reset h => exact h
    · cases h with | reset h => exact h
  obtain ⟨os1, os2, s1, rfl, hl, hf, hs⟩ := steps_after key
  cases hs with
  | finish h1 h2 =>
    cases h2
    exact ⟨by simpa using hl, s1, by simpa using hf, h1⟩

theorem filterMap_none {α : Type} (f : α → Nat × Call) (l : List α) (h : ∀ a ∈ l, evOf id r (f a) = none) :
    (l.map f).filterMap (evOf id r) = [] := by
  rw [List.filterMap_eq_nil_iff]
  intro x hx
  obtain ⟨a, ha, rfl⟩ := List.mem_map.1 hx
  exact h a ha

theorem filterMap_one {l : List Nat} (f : Nat → Call) (e : Ev) (hn : l.Nodup) (hr : r ∈ l)
    (h1 : evOf id r (id, f r) = some e) (h2 : ∀ a, a ≠ r → evOf id r (id, f a) = none) :
    (tag id (l.map f)).filterMap (evOf id r) = [e] := by
  obtain ⟨a, b, rfl⟩ := List.append_of_mem hr
  have ha : r ∉ a := fun h => (List.nodup_append.1 hn).2.2 r h r List.mem_cons_self rfl
  have hb : r ∉ b := (List.nodup_cons.1 (List.nodup_append.1 hn).2.1).1
  have hno : ∀ l : List Nat, r ∉ l → (l.map (fun a => (id, f a))).filterMap (evOf id r) = [] :=
    fun l hl => filterMap_none _ l (fun a hm => h2 a (fun he => hl (he ▸ hm)))
  have := hno a ha
  have := hno b hb
  simp only [tag, List.map_map, List.map_append, List.map_cons, List.filterMap_append, List.filterMap_cons,
    h1]
  simp_all [Function.comp_def]

theorem events_tag_append (a b : List Call) :
    (tag id (a ++ b)).filterMap (evOf id r) = (tag id a).filterMap (evOf id r) ++ (tag id b).filterMap (evOf id r) := by
  simp [tag]

theorem events_none (f : Nat → Call) (l : List Nat) (h : ∀ a, evOf id r (id, f a) = none) :
    (tag id (l.map f)).filterMap (evOf id r) = [] := by
  rw [tag, List.map_map]
  exact filterMap_none _ _ (fun a _ => h a)

theorem events_setup {nodes top comps : List Nat} (hn : comps.Nodup) (hr : r ∈ comps) :
    (tag id (setupPlan nodes top comps)).filterMap (evOf id r) = [.setup, .reset] := by
  unfold setupPlan
  simp only [events_tag_append]
  rw [events_none .nodeSetup _ (fun _ => rfl), events_none .nodeReset _ (fun _ => rfl),
    filterMap_one .compSetup .setup hn hr (by simp [evOf]) (fun a ha => by simp [evOf, ha]),
    filterMap_one .compReset .reset hn hr (by simp [evOf]) (fun a ha => by simp [evOf, ha])]
  rfl

theorem events_reset {top comps : List Nat} (hn : comps.Nodup) (hr : r ∈ comps) :
    (tag id (resetPlan top comps)).filterMap (evOf id r) = [.reset] := by
  unfold resetPlan
  simp only [events_tag_append]
  rw [events_none .nodeReset _ (fun _ => rfl),
    filterMap_one .compReset .reset hn hr (by simp [evOf]) (fun a ha => by simp [evOf, ha])]
  rfl

theorem events_step {nodes comps : List Nat} {param : Nat → Bool} {k : Nat} (hn : comps.Nodup) (hr : r ∈ comps) :
    (tag id (stepPlan nodes comps param k)).filterMap (evOf id r) = [.after k] := by
  unfold stepPlan
  simp only [events_tag_append]
  rw [events_none (.nodeBefore · k) _ (fun _ => rfl), events_none (.compBefore · k) _ (fun _ => rfl),
    events_none (.calcValues · k) _ (fun _ => rfl), events_none (.nodeAfter · k) _ (fun _ => rfl),
    filterMap_one (.compAfter · k) (.after k) hn hr (by simp [evOf]) (fun a ha => by simp [evOf, ha])]
  rfl

theorem events_finish {nodes comps : List Nat} {cur : Option Nat} (hn : comps.Nodup) (hr : r ∈ comps) :
    (tag id (finishPlan nodes comps cur)).filterMap (evOf id r) = [.finish cur] := by
  unfold finishPlan
  simp only [events_tag_append]
  rw [events_none (.nodeFinish · cur) _ (fun _ => rfl),
    filterMap_one (.compFinish · cur) (.finish cur) hn hr (by simp [evOf]) (fun a ha => by simp [evOf, ha])]
  rfl

theorem seen_none {plan : List (Nat × Call)} (h : ∀ x ∈ plan, ∀ k, evOf id r x ≠ some (.after k)) :
    ∀ w : W, seen env id r obs w plan = [] := by
  induction plan with
  | nil => intro w; rfl
  | cons x plan ih =>
    intro w
    obtain ⟨i, c⟩ := x
    rw [seen, ih (fun y hy => h y (List.mem_cons_of_mem _ hy))]
    have := h (i, c) List.mem_cons_self
    cases he : evOf id r (i, c) with
    | none => rfl
    | some e =>
      cases e with
      | after k => exact absurd he (this k)
      | _ => rfl

theorem flatMap_single {α β : Type} (f : α → β) (l : List α) : (l.flatMap fun a => [f a]) = l.map f := by
  induction l with
  | nil => rfl
  | cons a l ih => simp [ih]

/-- **A recorder in a run of a model.** After a run that returns normally, the recorder has been reset, its after-hook
has been called exactly once per timestep, in order, with what it saw then, and it has been finished while the
timestepper stood one past the end. -/
theorem recorder_run {m : Mdl Freq} {P : List Period} {comps : List Nat} (h : Ready env m P comps)
    (hf : m.flat = none ∨ m.flat = some comps) (hO : Observer env m.id r st obs rec)
    (hn : comps.Nodup) (hr : r ∈ comps) (g : Global W) {t : Timestep} (hok : (m.run env g).1 = .ok t) :
    (seen env m.id r obs g.world (startPlan m comps ++ stepsPlan m comps P.length)).length = P.length ∧
    ∃ s, rec.fold 0 (seen env m.id r obs g.world (startPlan m comps ++ stepsPlan m comps P.length)) rec.init = some s ∧
      rec.finish (some P.length) s = some (st (m.run env g).2.2.world) := by
  obtain ⟨es, fs, r1, r2, cur, -, h1, h2, h3, h4, h5, -⟩ := C50_run env m P comps h hf g
  obtain ⟨rfl, rfl⟩ := h5.1 ⟨t, hok⟩
  obtain rfl := h4 rfl
  obtain ⟨w1, k1, k2⟩ := h3.split
  have c1 := calm_of h1 k1
  have c2 := calm_of h2 k2
  have hst := calm_steps hO (Calm.append c2 c1)
  rw [seen_append _ _ c1, seen_none (plan := tag m.id (finishPlan m.graphNodes comps (some P.length))), List.append_nil,
    List.filterMap_append, List.filterMap_append, events_finish hn hr, stepsPlan, List.filterMap_flatMap] at hst
  · simp only [events_step hn hr, flatMap_single, List.range_eq_range', List.append_assoc] at hst
    have := steps_run (pre := (startPlan m comps).filterMap (evOf m.id r)) (by
      unfold startPlan
      split_ifs
      · left; exact events_setup hn hr
      · right; exact events_reset hn hr) hst
    rwa [stepsPlan, List.range_eq_range']
  · intro x hx k he
    have : (Ev.after k) ∈ (tag m.id (finishPlan m.graphNodes comps (some P.length))).filterMap (evOf m.id r) :=
      List.mem_filterMap.2 ⟨x, hx, he⟩
    rw [events_finish hn hr] at this
    simp at this

theorem events_other {j : Nat} (hj : j ≠ id) (cs : List Call) : (tag j cs).filterMap (evOf id r) = [] := by
  rw [tag]
  refine filterMap_none _ _ (fun c _ => ?_)
  cases c <;> simp [evOf, hj]

theorem events_subs {subs : List (Sub Freq)} (hid : (subs.map fun s => s.m.id).Nodup) {s : Sub Freq} (hs : s ∈ subs)
    (f : Sub Freq → List Call) :
    (subs.flatMap fun s => tag s.m.id (f s)).filterMap (evOf s.m.id r) = (tag s.m.id (f s)).filterMap (evOf s.m.id r) := by
  obtain ⟨a, b, rfl⟩ := List.append_of_mem hs
  simp only [List.map_append, List.map_cons] at hid
  have ha : ∀ x ∈ a, x.m.id ≠ s.m.id := fun x hx he =>
    (List.nodup_append.1 hid).2.2 _ (List.mem_map_of_mem hx) _ List.mem_cons_self he
  have hb : ∀ x ∈ b, x.m.id ≠ s.m.id := fun x hx he =>
    (List.nodup_cons.1 (List.nodup_append.1 hid).2.1).1 (he ▸ List.mem_map_of_mem (f := fun s : Sub Freq => s.m.id) hx)
  have hno : ∀ l : List (Sub Freq), (∀ x ∈ l, x.m.id ≠ s.m.id) →
      (l.flatMap fun s => tag s.m.id (f s)).filterMap (evOf s.m.id r) = [] := by
    intro l hl
    rw [List.filterMap_flatMap, List.flatMap_eq_nil_iff]
    intro x hx
    exact events_other (hl x hx) _
  rw [List.flatMap_append, List.flatMap_cons, List.filterMap_append, List.filterMap_append, hno a ha, hno b hb]
  simp

theorem events_multiFinish {s : Sub Freq} (hn : s.comps.Nodup) (hr : r ∈ s.comps) : ∀ {subs : List (Sub Freq)}
    {curs : List (Option Nat)}, (subs.map fun s => s.m.id).Nodup → curs.length = subs.length → ∀ {i : Nat},
    subs[i]? = some s → ∃ c, curs[i]? = some c ∧
      (multiFinish subs curs).filterMap (evOf s.m.id r) = [.finish c] := by
  intro subs
  induction subs with
  | nil => intro curs _ _ i hi; simp at hi
  | cons x subs ih =>
    intro curs hid hl i hi
    cases curs with
    | nil => simp at hl
    | cons c curs =>
      rw [multiFinish, List.filterMap_append]
      simp only [List.map_cons, List.nodup_cons] at hid
      cases i with
      | zero =>
        simp only [List.getElem?_cons_zero, Option.some.injEq] at hi
        subst hi
        refine ⟨c, rfl, ?_⟩
        rw [events_finish hn hr]
        have : ∀ (l : List (Sub Freq)) (cs : List (Option Nat)), (∀ y ∈ l, y.m.id ≠ x.m.id) →
            (multiFinish l cs).filterMap (evOf x.m.id r) = [] := by
          intro l
          induction l with
          | nil => intro cs _; rfl
          | cons y l ihl =>
            intro cs hl
            cases cs with
            | nil => rfl
            | cons c cs =>
              rw [multiFinish, List.filterMap_append, events_other (hl y List.mem_cons_self),
                ihl cs (fun z hz => hl z (List.mem_cons_of_mem _ hz))]
              rfl
        rw [this subs curs (fun y hy he => hid.1 (he ▸ List.mem_map_of_mem (f := fun s : Sub Freq => s.m.id) hy))]
        rfl
      | succ i =>
        simp only [List.getElem?_cons_succ] at hi ⊢
        obtain ⟨c', hc, he⟩ := ih hid.2 (by simpa using hl) hi
        refine ⟨c', hc, ?_⟩
        rw [he, events_other]
        · rfl
        · intro he
          exact hid.1 (he ▸ List.mem_map_of_mem (f := fun s : Sub Freq => s.m.id) (List.mem_of_getElem? hi))

/-- **A recorder of a sub-model in a coupled run over the same `n` dates.** As `recorder_run`, except for the timestep
shown when it is finished: one past the end for the first model, the last timestep for all others. -/
theorem recorder_multi {subs : List (Sub Freq)} (h : MultiReady env subs) {n : Nat} {dates : List Int}
    (hd : ∀ s ∈ subs, s.P.map Period.start = dates) (hdn : dates.length = n)
    (hid : (subs.map fun s => s.m.id).Nodup) {i : Nat} {s : Sub Freq} (hi : subs[i]? = some s)
    (hO : Observer env s.m.id r st obs rec) (hn : s.comps.Nodup) (hr : r ∈ s.comps) (g : Global W)
    (hok : (multiRun env true (subs.map Sub.m) g).1 = none) :
    (seen env s.m.id r obs g.world (multiStart subs ++ roundsPlan subs n)).length = n ∧
    ∃ s1, rec.fold 0 (seen env s.m.id r obs g.world (multiStart subs ++ roundsPlan subs n)) rec.init = some s1 ∧
      rec.finish (some (if i = 0 then n else n - 1)) s1 =
        some (st (multiRun env true (subs.map Sub.m) g).2.2.world) := by
  obtain ⟨es, fs, r1, r2, curs, -, h1, h2, h3, h4, h5⟩ := C49_same_dates env subs h n dates hd hdn g
  obtain ⟨rfl, rfl⟩ := h5.1 hok
  have hc := h3 rfl
  have hs := List.mem_of_getElem? hi
  have hpos : 0 < subs.length := List.length_pos_iff.2 h.nonempty
  obtain ⟨c, hci, hfe⟩ := events_multiFinish hn hr hid (curs := curs) (by rw [hc]; simp; omega) hi
  obtain rfl : c = some (if i = 0 then n else n - 1) := by
    rw [hc] at hci
    cases i with
    | zero => simp at hci; simp [hci]
    | succ i =>
      rw [List.getElem?_cons_succ, List.getElem?_replicate] at hci
      split_ifs at hci with hlt
      simp at hci
      simp [hci]
  obtain ⟨w1, k1, k2⟩ := h4.split
  have c1 := calm_of h1 k1
  have c2 := calm_of h2 k2
  have hst := calm_steps hO (Calm.append c2 c1)
  rw [seen_append _ _ c1, seen_none (plan := multiFinish subs curs), List.append_nil, List.filterMap_append,
    List.filterMap_append, hfe, roundsPlan, List.filterMap_flatMap] at hst
  · have hr1 : ∀ k, (roundPlan subs k).filterMap (evOf s.m.id r) = [.after k] := by
      intro k
      unfold roundPlan
      rw [events_subs hid hs, events_step hn hr]
    simp only [hr1, flatMap_single, List.range_eq_range', List.append_assoc] at hst
    have := steps_run (pre := (multiStart subs).filterMap (evOf s.m.id r)) (by
      unfold multiStart
      rw [events_subs hid hs]
      split_ifs
      · left; exact events_setup hn hr
      · right; exact events_reset hn hr) hst
    rwa [roundsPlan, List.range_eq_range']
  · intro x hx k he
    have : (Ev.after k) ∈ (multiFinish subs curs).filterMap (evOf s.m.id r) := List.mem_filterMap.2 ⟨x, hx, he⟩
    rw [hfe] at this
    simp at this

end Verif.Run

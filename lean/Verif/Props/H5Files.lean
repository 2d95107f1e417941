import Verif.Proof.H5Files
/-!
# C115: files of results and of data are opened and closed by whom they should be
-/

namespace Verif.H5Files

private theorem reachable (cs disk dirs l) : (calls cs (fresh disk dirs) l).st.Good cs ∧ Only cs (calls cs (fresh disk dirs) l).st ∧ Made cs (calls cs (fresh disk dirs) l) :=
  ⟨calls_good cs (fresh_good cs disk dirs) l, calls_only cs (fresh_only cs disk dirs) l, calls_made cs (fun h => by cases h) l⟩

/-- Whatever has been called and whatever was raised: every open file that the user did not open is held by exactly one component, of the name that this was given and in its mode, or else by a generator of
`generate_dataframes`, for reading. So nothing stays open that nobody has, and no component has two. -/
theorem C115_handles (cs : List (Nat × Comp)) (disk : Path → Option Attrs) (dirs : List Dir) (l : List Call) (s : St) (hs : s = (calls cs (fresh disk dirs) l).st) (h : Handle) (hh : h ∈ s.handles)
    (hu : h.user = false) : ((∃! i, HeldBy cs s i h) ∧ ¬ InFrames s h) ∨ (InFrames s h ∧ ∀ i, ¬ HeldBy cs s i h) := by
  subst hs
  obtain ⟨g, -, -⟩ := reachable cs disk dirs l
  rcases g.held h hh hu with ⟨i, hi⟩ | hf
  · refine .inl ⟨⟨i, ⟨hi, (g.slotOwn i h.id hi h hh rfl).2⟩, fun j hj => g.slotInj j i h.id hj.1 hi⟩, fun hf => g.slotFrame i h.id hi hf.1⟩
  · exact .inr ⟨⟨hf, (g.frameOwn _ hf h hh rfl).2⟩, fun i hi => g.slotFrame i h.id hi.1 hf⟩

/-- Files which the user opened are closed by the user only: any other call leaves them open as they were. -/
theorem C115_user (cs : List (Nat × Comp)) (disk : Path → Option Attrs) (dirs : List Dir) (l : List Call) (x : MSt) (hx : x = calls cs (fresh disk dirs) l) (c : Call)
    (ho : ∀ p m, c ≠ .openFile p m) (hc : ∀ h, c ≠ .closeFile h) : (call cs x c).1.st.handles.filter Handle.user = x.st.handles.filter Handle.user := by
  subst hx
  obtain ⟨g, -, -⟩ := reachable cs disk dirs l
  generalize calls cs (fresh disk dirs) l = x at g ⊢
  cases c with
  | openFile p m => exact absurd rfl (ho p m)
  | closeFile h => exact absurd rfl (hc h)
  | frames p =>
    have e0 : makeStore x.st (.path p) .r none false = match openFile x.st p .r false with
      | none => (x.st, none)
      | some (s, h) => (metadata s h none, some ⟨h, true⟩) := rfl
    unfold call
    dsimp only
    rw [e0]
    cases ho : openFile x.st p .r false with
    | none => rfl
    | some q =>
      obtain ⟨s, h⟩ := q
      obtain ⟨_, h1, _⟩ := openFile_some ho
      dsimp only
      rw [metadata_handles, h1, List.filter_append]
      simp
  | framesEnd k =>
    unfold call
    dsimp only
    rw [drop_handles]
    refine keep_user fun y hy e => ?_
    obtain ⟨st, hst⟩ := Option.isSome_iff_exists.1 (by rw [e]; rfl : (x.st.frames[k]?).isSome)
    rw [hst] at e
    cases e
    exact (g.frameOwn _ (List.mem_of_getElem? hst) y hy rfl).1
  | setup sc => exact (call_acts cs x (.setup sc) trivial).user g
  | reset longer sc => exact (call_acts cs x (.reset longer sc) trivial).user g
  | step sc => exact (call_acts cs x (.step sc) trivial).user g
  | run longer sc => exact (call_acts cs x (.run longer sc) trivial).user g
  | finish sc => exact (call_acts cs x (.finish sc) trivial).user g
  | edit => rfl
  | editTime => rfl

/-- After a run, whether it returned or raised, and after `finish`, no component has a file open, so that all open files are the user's and the generators', provided that no hook `finish` raised. What is missing: a hook that
raises leaves the files of the components after it open (`C115_stuck_fails`). -/
theorem C115_released_partial (cs : List (Nat × Comp)) (disk : Path → Option Attrs) (dirs : List Dir) (l : List Call) (x : MSt) (hx : x = calls cs (fresh disk dirs) l) (c : Call)
    (hc : (∃ longer sc, c = .run longer sc) ∨ ∃ sc, c = .finish sc) (hf : (call cs x c).2 ≠ .unfinished) :
    Closed (call cs x c).1.st ∧ ∀ h ∈ (call cs x c).1.st.handles, h.user = true ∨ InFrames (call cs x c).1.st h := by
  subst hx
  obtain ⟨g, o, -⟩ := reachable cs disk dirs l
  generalize calls cs (fresh disk dirs) l = x at g o hf ⊢
  have hclosed : Closed (call cs x c).1.st := by
    rcases hc with ⟨longer, sc, rfl⟩ | ⟨sc, rfl⟩
    · change (modelRun cs longer sc x).2 ≠ _ at hf
      show Closed (modelRun cs longer sc x).1.st
      have h1 : Acts cs x.st (if x.dirty || x.timeDirty then modelSetup cs sc x else modelReset cs longer sc x).1.st := by
        split
        · exact modelSetup_acts cs sc x
        · exact modelReset_acts cs longer sc x
      unfold modelRun at hf ⊢
      generalize (if x.dirty || x.timeDirty then modelSetup cs sc x else modelReset cs longer sc x) = q at h1 hf ⊢
      obtain ⟨x1, ok⟩ := q
      dsimp only at hf ⊢
      have h2 : Acts cs x.st (if ok then ({ x1 with current := true }, sc.steps) else (x1, false)).1.st := by
        cases ok <;> exact h1
      generalize (if ok then (({ x1 with current := true } : MSt), sc.steps) else (x1, false)) = q at h2 hf ⊢
      obtain ⟨x2, ok2⟩ := q
      dsimp only at h2 hf ⊢
      have h3 := modelFinish_closed (h2.only o) sc
      generalize modelFinish cs sc x2 = q at h3 hf ⊢
      obtain ⟨x3, ok3⟩ := q
      cases ok3 with
      | false => exact absurd rfl hf
      | true => exact h3 rfl
    · refine modelFinish_closed o sc ?_
      unfold call at hf
      dsimp only at hf
      cases e : (modelFinish cs sc x).2 with
      | true => rfl
      | false => rw [e] at hf; exact absurd rfl hf
  refine ⟨hclosed, fun h hh => ?_⟩
  have g' := call_good g c
  by_cases hu : h.user = true
  · exact .inl hu
  · have hu : h.user = false := by simpa using hu
    rcases g'.held h hh hu with ⟨i, hi⟩ | hfr
    · have := hclosed i
      unfold St.stores at hi
      rw [this] at hi; cases hi
    · exact .inr ⟨hfr, (g'.frameOwn _ hfr h hh rfl).2⟩

/-- If no component has a file open - as before the first run and after any finished one, however it ended - and nothing stands in the way, then no file is refused: the run returns unless something else raises. This holds after any
history, and so for any number of runs. What is missing: `setup` while files are open (`C115_setup_again`, `C115_setup_twice_fails`). -/
theorem C115_run_partial (cs : List (Nat × Comp)) (disk : Path → Option Attrs) (dirs : List Dir) (l : List Call) (x : MSt) (hx : x = calls cs (fresh disk dirs) l) (ha : Apart cs) (hf : Free cs x.st) (hc : Closed x.st)
    (longer : Bool) (sc : Script) (hsc : sc.Fine) : (call cs x (.run longer sc)).2 = .returned ∧ (call cs x (.setup sc)).2 = .returned := by
  subst hx
  obtain ⟨g, o, m⟩ := reachable cs disk dirs l
  refine ⟨modelRun_ok ha hsc longer g hf m hc, ?_⟩
  have h := modelSetup_ok ha hsc g hf (fun i _ _ => hc i)
  unfold call
  dsimp only
  rw [h]; rfl

/-- A model that has been set up can be reset at any time, with its files open or not: none is refused. -/
theorem C115_reset (cs : List (Nat × Comp)) (disk : Path → Option Attrs) (dirs : List Dir) (l : List Call) (x : MSt) (hx : x = calls cs (fresh disk dirs) l) (ha : Apart cs) (hf : Free cs x.st) (hd : x.dirty = false)
    (sc : Script) (hsc : sc.Fine) : (call cs x (.reset false sc)).2 = .returned := by
  subst hx
  obtain ⟨g, o, m⟩ := reachable cs disk dirs l
  have h := modelReset_ok ha hsc false g hf (fun _ => m hd) (fun e => by cases e)
  unfold call
  dsimp only
  rw [h]; rfl

/-- A run that returns leaves the model set up: neither it nor its timestepper is dirty, so that the next run resets the files and does not set them up again, unless the model is changed. So do `setup` and `step`. -/
theorem C115_clean (cs : List (Nat × Comp)) (x : MSt) (sc : Script) (c : Call) (hc : (∃ longer, c = .run longer sc) ∨ c = .setup sc ∨ c = .step sc)
    (hr : (call cs x c).2 = .returned) : (call cs x c).1.dirty = false ∧ (call cs x c).1.timeDirty = false := by
  have hset : ∀ x : MSt, (modelSetup cs sc x).2 = true → (modelSetup cs sc x).1.dirty = false ∧ (modelSetup cs sc x).1.timeDirty = false := by
    intro x h
    unfold modelSetup at h ⊢
    split at h
    · rename_i hs
      rw [if_pos hs]
      split at h
      · simp at h
      · rename_i s hs'
        split at h
        · rename_i y hy
          refine ⟨rfl, ?_⟩
          have := congrArg (fun q => q.1.timeDirty) hy
          simp only at this ⊢
          rw [← this]
          unfold modelReset
          rw [if_pos hs]
        · simp at h
    · simp at h
  have hres : ∀ (x : MSt) (longer : Bool), (modelReset cs longer sc x).1.dirty = x.dirty ∧ (modelReset cs longer sc x).1.timeDirty = x.timeDirty := by
    intro x longer
    unfold modelReset
    split <;> exact ⟨rfl, rfl⟩
  have hor : ∀ a b : Bool, ¬ (a || b) = true → a = false ∧ b = false := by decide
  rcases hc with ⟨longer, rfl⟩ | rfl | rfl
  · revert hr
    show (modelRun cs longer sc x).2 = .returned → (modelRun cs longer sc x).1.dirty = false ∧ (modelRun cs longer sc x).1.timeDirty = false
    unfold modelRun
    generalize hq : (if x.dirty || x.timeDirty then modelSetup cs sc x else modelReset cs longer sc x) = q
    have hq' : q.2 = true → q.1.dirty = false ∧ q.1.timeDirty = false := by
      subst hq
      split
      · exact hset x
      · rename_i hn
        intro _
        rw [(hres x longer).1, (hres x longer).2]
        exact hor _ _ hn
    obtain ⟨y, ok⟩ := q
    simp only at hq' ⊢
    cases ok with
    | false =>
      simp only [Bool.false_eq_true, if_false]
      unfold modelFinish
      simp only
      split <;> (intro h; cases h)
    | true =>
      obtain ⟨h1, h2⟩ := hq' rfl
      simp only [if_true]
      unfold modelFinish
      simp only
      split
      · intro h; cases h
      · rename_i z hz
        intro _
        obtain rfl := congrArg Prod.fst hz
        exact ⟨h1, h2⟩
  · revert hr
    show out (modelSetup cs sc x).2 = .returned → _
    intro h
    refine hset x ?_
    cases hb : (modelSetup cs sc x).2
    · rw [hb] at h; cases h
    · rfl
  · revert hr
    unfold call
    simp only
    generalize hq : (if x.dirty || x.timeDirty then modelSetup cs sc x else (x, true)) = q
    have hq' : q.2 = true → q.1.dirty = false ∧ q.1.timeDirty = false := by
      subst hq
      split
      · exact hset x
      · rename_i hn
        intro _
        exact hor _ _ hn
    obtain ⟨y, ok⟩ := q
    simp only at hq' ⊢
    cases ok with
    | false => simp only [Bool.false_eq_true, if_false]; intro h; cases h
    | true => simp only [if_true]; intro _; exact hq' rfl

/-- Calls of the model do not change the attributes of any file, nor make or empty one, but those its recorders write. -/
theorem C115_untouched (cs : List (Nat × Comp)) (disk : Path → Option Attrs) (dirs : List Dir) (l : List Call) (x : MSt) (hx : x = calls cs (fresh disk dirs) l) (c : Call) (hc : ∀ p m, c ≠ .openFile p m)
    (q : Path) (hq : ¬ Writes cs x.st q) : (call cs x c).1.st.disk q = x.st.disk q := by
  subst hx
  obtain ⟨g, -, -⟩ := reachable cs disk dirs l
  generalize calls cs (fresh disk dirs) l = x at g hq ⊢
  have gi : IdsLt x.st := g.ids
  cases c with
  | openFile p m => exact absurd rfl (hc p m)
  | closeFile h => rfl
  | frames p =>
    have e0 : makeStore x.st (.path p) .r none false = match openFile x.st p .r false with
      | none => (x.st, none)
      | some (s, h) => (metadata s h none, some ⟨h, true⟩) := rfl
    unfold call
    dsimp only
    rw [e0]
    cases ho : openFile x.st p .r false with
    | none => rfl
    | some y =>
      obtain ⟨s, h⟩ := y
      obtain ⟨-, -, -, -, -, -, h6, -, h8, -, h10, -⟩ := openFile_some ho
      dsimp only
      rw [metadata_none]
      by_cases e : q = p
      · rw [e]; exact h8 (by decide) (h10 (.inl rfl))
      · exact h6 q e
  | framesEnd k =>
    unfold call
    dsimp only
    rw [drop_disk]
  | setup sc => exact ((call_acts cs x (.setup sc) trivial).untouched gi q hq).1
  | reset longer sc => exact ((call_acts cs x (.reset longer sc) trivial).untouched gi q hq).1
  | step sc => exact ((call_acts cs x (.step sc) trivial).untouched gi q hq).1
  | run longer sc => exact ((call_acts cs x (.run longer sc) trivial).untouched gi q hq).1
  | finish sc => exact ((call_acts cs x (.finish sc) trivial).untouched gi q hq).1
  | edit => rfl
  | editTime => rfl

/-- While the user, or a generator, has a file open for reading, no call of the model changes it, not even if the model was given it to write to. -/
theorem C115_read_only (cs : List (Nat × Comp)) (disk : Path → Option Attrs) (dirs : List Dir) (l : List Call) (x : MSt) (hx : x = calls cs (fresh disk dirs) l) (c : Call) (hc : ∀ p m, c ≠ .openFile p m) (h : Handle)
    (hh : h ∈ x.st.handles) (hr : h.mode = .r) (ho : h.user = true ∨ InFrames x.st h) : (call cs x c).1.st.disk h.path = x.st.disk h.path := by
  subst hx
  obtain ⟨g, -, -⟩ := reachable cs disk dirs l
  have gc : Compat (calls cs (fresh disk dirs) l).st.handles := calls_compat cs (fun x hx => by simp [fresh] at hx) l
  generalize calls cs (fresh disk dirs) l = x at g gc hh ho ⊢
  have hn : ∀ j c, (j, c) ∈ cs → x.st.stores j ≠ some ⟨h.id, true⟩ := by
    intro j _ _ e
    rcases ho with ho | ho
    · rw [(g.slotOwn j h.id e h hh rfl).1] at ho; cases ho
    · exact g.slotFrame j h.id e ho.1
  have gi : IdsLt x.st := g.ids
  cases c with
  | openFile p m => exact absurd rfl (hc p m)
  | closeFile h => rfl
  | frames p =>
    have e0 : makeStore x.st (.path p) .r none false = match openFile x.st p .r false with
      | none => (x.st, none)
      | some (s, h) => (metadata s h none, some ⟨h, true⟩) := rfl
    unfold call
    dsimp only
    rw [e0]
    cases ho : openFile x.st p .r false with
    | none => rfl
    | some y =>
      obtain ⟨s, k⟩ := y
      obtain ⟨-, -, -, -, -, -, h6, -, h8, -, h10, -⟩ := openFile_some ho
      dsimp only
      rw [metadata_none]
      by_cases e : h.path = p
      · rw [e]; exact h8 (by decide) (h10 (.inl rfl))
      · exact h6 _ e
  | framesEnd k =>
    unfold call
    dsimp only
    rw [drop_disk]
  | setup sc => exact (call_acts cs x (.setup sc) trivial).reads gc gi hh hn hr
  | reset longer sc => exact (call_acts cs x (.reset longer sc) trivial).reads gc gi hh hn hr
  | step sc => exact (call_acts cs x (.step sc) trivial).reads gc gi hh hn hr
  | run longer sc => exact (call_acts cs x (.run longer sc) trivial).reads gc gi hh hn hr
  | finish sc => exact (call_acts cs x (.finish sc) trivial).reads gc gi hh hn hr
  | edit => rfl
  | editTime => rfl

/-- After `setup` the attributes of a recorder's file are the metadata given by the user and, where these do not say otherwise, format and version; in mode "w" nothing else, in mode "a" besides what was there. -/
theorem C115_metadata (cs : List (Nat × Comp)) (disk : Path → Option Attrs) (dirs : List Dir) (l : List Call) (x : MSt) (hx : x = calls cs (fresh disk dirs) l) (ha : Apart cs) (sc : Script)
    (hret : (call cs x (.setup sc)).2 = .returned) (i : Nat) (r : Recorder) (p : Path) (hm : (i, Comp.recorder r) ∈ cs) (hs : r.source = .path p) (hk : (r.metadata.map Prod.fst).Nodup) :
    ∃ a, (call cs x (.setup sc)).1.st.disk p = some a ∧ ∀ k, a k = (r.expected k).or (if r.mode = .w then none else (x.st.disk p).bind (· k)) := by
  subst hx
  obtain ⟨g, -, -⟩ := reachable cs disk dirs l
  generalize calls cs (fresh disk dirs) l = x at g hret ⊢
  have hret : (modelSetup cs sc x).2 = true := by
    unfold call at hret
    dsimp only at hret
    cases e : (modelSetup cs sc x).2 with
    | true => rfl
    | false => rw [e] at hret; cases hret
  show ∃ a, (modelSetup cs sc x).1.st.disk p = some a ∧ _
  have key := each_setup_metadata ha sc cs (fun _ h => h) ha.numbers x.st g.ids
  unfold modelSetup at hret ⊢
  split at hret
  · rename_i hst
    rw [if_pos hst]
    generalize each (fun i s c => c.setup i (sc.setup i) s) cs x.st = q at key hret ⊢
    obtain ⟨s1, ok⟩ := q
    cases ok with
    | false => cases hret
    | true =>
      dsimp only at key hret ⊢
      obtain ⟨a, h1, h2⟩ := key rfl i r p hm hs hk
      refine ⟨a, ?_, h2⟩
      have hr : (modelReset cs false sc { x with st := s1, timeDirty := false }).1.st.disk p = s1.disk p := by
        unfold modelReset
        rw [if_pos hst]
        exact each_reset_disk sc cs ha.named s1 p
      generalize modelReset cs false sc { x with st := s1, timeDirty := false } = q at hr hret ⊢
      obtain ⟨x1, ok⟩ := q
      cases ok with
      | false => cases hret
      | true => exact hr.trans h1
  · cases hret

/-- `setup`, and so `run` of a model that is dirty or whose timestepper is, as after any change of either, never succeeds while a file of the name of a recorder in mode "w" is open: the recorder's own file of a run that was not finished, one of the user's, or one of a generator that has
not come to its end. -/
theorem C115_setup_again (cs : List (Nat × Comp)) (disk : Path → Option Attrs) (dirs : List Dir) (l : List Call) (x : MSt) (hx : x = calls cs (fresh disk dirs) l) (hn : (cs.map Prod.fst).Nodup) (i : Nat) (r : Recorder)
    (hm : (i, Comp.recorder r) ∈ cs) (hw : r.mode = .w) (h : Handle) (hh : h ∈ x.st.handles) (hs : r.source = .path h.path) (ho : h.user = true ∨ InFrames x.st h ∨ HeldBy cs x.st i h) (sc : Script) :
    (call cs x (.setup sc)).2 ≠ .returned ∧ (x.dirty = true ∨ x.timeDirty = true → ∀ longer, (call cs x (.run longer sc)).2 ≠ .returned) ∧
    ∀ c, c = Call.edit ∨ c = Call.editTime → ∀ longer, (call cs (call cs x c).1 (.run longer sc)).2 ≠ .returned := by
  subst hx
  obtain ⟨g, -, -⟩ := reachable cs disk dirs l
  generalize calls cs (fresh disk dirs) l = x at g hh ho ⊢
  have key : ∀ y : MSt, y.st = x.st → (modelSetup cs sc y).2 = false := by
    intro y hy
    unfold modelSetup
    rw [hy]
    split
    · have := each_setup_refused sc cs hn x.st hh (g.ids h hh) hm hs hw rfl (fun j hj e => by
        rcases ho with ho | ho | ho
        · rw [(g.slotOwn j h.id e h hh rfl).1] at ho; cases ho
        · exact g.slotFrame j h.id e ho.1
        · exact hj (g.slotInj j i h.id e ho.1))
      generalize each (fun i s c => c.setup i (sc.setup i) s) cs x.st = q at this ⊢
      obtain ⟨s1, ok⟩ := q
      dsimp only at this
      subst this
      rfl
    · rfl
  have runs : ∀ y : MSt, y.st = x.st → y.dirty = true ∨ y.timeDirty = true → ∀ longer, (call cs y (.run longer sc)).2 ≠ .returned := by
    intro y hy hd longer
    have key := key y hy
    show (modelRun cs longer sc y).2 ≠ _
    unfold modelRun
    rw [if_pos (by rcases hd with hd | hd <;> simp [hd])]
    generalize modelSetup cs sc y = q at key ⊢
    obtain ⟨x1, ok⟩ := q
    dsimp only at key
    subst key
    dsimp only
    simp only [Bool.false_eq_true, if_false]
    split
    · simp
    · simp
  refine ⟨?_, runs x rfl, ?_⟩
  · unfold call
    dsimp only
    rw [key x rfl]; decide
  · rintro c (rfl | rfl)
    · exact runs _ rfl (.inl rfl)
    · exact runs _ rfl (.inr rfl)

private theorem assign_buffer (s : St) (i : Nat) (o : Option Store) (j : Nat) : ((assign s i o).slots j).buffer = (s.slots j).buffer := by
  unfold assign
  rw [drop_slots]
  show (if j = i then _ else _ : Slot).buffer = _
  split <;> rfl

private theorem act_buffer {cs : List (Nat × Comp)} (hb : ∀ i r, (i, Comp.recorder r) ∈ cs → r.buffered = false) {s s' : St} (h : Act cs s s')
    (g : ∀ j, (s.slots j).buffer = false) (j : Nat) : (s'.slots j).buffer = false := by
  cases h with
  | dirs d => exact g j
  | buffer i r hm =>
    show (if j = i then _ else _ : Slot).buffer = _
    split
    · exact hb i r hm
    · exact g j
  | release i c hm => rw [assign_buffer]; exact g j
  | path s1 i h c p m md hm hs ha ho => rw [assign_buffer, metadata_slots, (openFile_some ho).2.2.2.1]; exact g j
  | file i c h m md hm hs ha hh => rw [assign_buffer, metadata_slots]; exact g j

private theorem acts_buffer {cs : List (Nat × Comp)} (hb : ∀ i r, (i, Comp.recorder r) ∈ cs → r.buffered = false) {s s' : St} (h : Acts cs s s')
    (g : ∀ j, (s.slots j).buffer = false) : ∀ j, (s'.slots j).buffer = false := by
  induction h with
  | refl => exact g
  | tail _ h ih => exact act_buffer hb h ih

private theorem calls_buffer {cs : List (Nat × Comp)} (hb : ∀ i r, (i, Comp.recorder r) ∈ cs → r.buffered = false) (l : List Call) {x : MSt}
    (g : ∀ j, (x.st.slots j).buffer = false) : ∀ j, ((calls cs x l).st.slots j).buffer = false := by
  induction l generalizing x with
  | nil => exact g
  | cons c l ih =>
    refine ih (x := (call cs x c).1) ?_
    by_cases hc : c.OfModel
    · exact acts_buffer hb (call_acts cs x c hc) g
    · cases c with
      | openFile p m =>
        unfold call
        dsimp only
        split
        · rename_i s h e
          intro j
          dsimp only
          rw [(openFile_some e).2.2.2.1]
          exact g j
        · exact g
      | closeFile h => exact g
      | frames p =>
        have e0 : makeStore x.st (.path p) .r none false = match openFile x.st p .r false with
          | none => (x.st, none)
          | some (s, h) => (metadata s h none, some ⟨h, true⟩) := rfl
        unfold call
        dsimp only
        rw [e0]
        cases ho : openFile x.st p .r false with
        | none => exact g
        | some q =>
          obtain ⟨s, h⟩ := q
          intro j
          dsimp only
          rw [metadata_slots, (openFile_some ho).2.2.2.1]
          exact g j
      | framesEnd k =>
        unfold call
        intro j
        dsimp only
        rw [drop_slots]
        exact g j
      | _ => exact absurd trivial hc

private theorem finish_fine (cur : Bool) (f : Nat → Bool) (hf : ∀ i, f i = true) : ∀ (l : List (Nat × Comp)) (s : St), (∀ j, (s.slots j).buffer = false) →
    (each (fun i s c => c.finish i cur (f i) s) l s).2 = true
  | [], _, _ => rfl
  | (i, c) :: l, s, g => by
    unfold each
    cases c with
    | recorder r =>
      simp only [Comp.finish, g i, hf i, Bool.false_and, Bool.not_true, Bool.or_self, Bool.false_eq_true, if_false]
      exact finish_fine cur f hf l _ fun j => by rw [assign_buffer]; exact g j
    | reader src => exact finish_fine cur f hf l _ fun j => by rw [assign_buffer]; exact g j
    | plain =>
      simp only [Comp.finish, hf i]
      exact finish_fine cur f hf l s g

/-- In a model in which no recorder keeps several timesteps back (`TablesRecorder`, and `TablesRecorder2` of one timestep), whatever has been called and raised before and whatever is raised in the run, the hooks `finish` find
everything they need: they only raise what their tables raise. So every file of a component is closed after a run and after `finish`. -/
theorem C115_unbuffered (cs : List (Nat × Comp)) (hb : ∀ i r, (i, Comp.recorder r) ∈ cs → r.buffered = false) (disk : Path → Option Attrs) (dirs : List Dir) (l : List Call) (x : MSt)
    (hx : x = calls cs (fresh disk dirs) l) (sc : Script) (hs : ∀ i, sc.finish i = true) (c : Call) (hc : (∃ longer, c = .run longer sc) ∨ c = .finish sc) :
    (call cs x c).2 ≠ .unfinished ∧ Closed (call cs x c).1.st := by
  have h1 : (call cs x c).2 ≠ .unfinished := by
    have g : ∀ j, (x.st.slots j).buffer = false := hx ▸ calls_buffer hb l fun _ => rfl
    have fin : ∀ y : MSt, (∀ j, (y.st.slots j).buffer = false) → (modelFinish cs sc y).2 = true := fun y gy => finish_fine y.current sc.finish hs cs y.st gy
    rcases hc with ⟨longer, rfl⟩ | rfl
    · show (modelRun cs longer sc x).2 ≠ _
      unfold modelRun
      have h : Acts cs x.st (if x.dirty || x.timeDirty then modelSetup cs sc x else modelReset cs longer sc x).1.st := by
        split
        · exact modelSetup_acts cs sc x
        · exact modelReset_acts cs longer sc x
      generalize (if x.dirty || x.timeDirty then modelSetup cs sc x else modelReset cs longer sc x) = q at h ⊢
      obtain ⟨x1, ok⟩ := q
      have g1 := acts_buffer hb h g
      dsimp only at g1 ⊢
      have h2 : ∀ j, ((if ok then (({ x1 with current := true } : MSt), sc.steps) else (x1, false)).1.st.slots j).buffer = false := by
        cases ok <;> exact g1
      generalize (if ok then (({ x1 with current := true } : MSt), sc.steps) else (x1, false)) = q at h2 ⊢
      obtain ⟨x2, ok2⟩ := q
      dsimp only at h2 ⊢
      have h3 := fin x2 h2
      split
      · rename_i e; rw [e] at h3; cases h3
      · split <;> simp
    · show (if (modelFinish cs sc x).2 then Out.returned else .unfinished) ≠ _
      rw [fin x g]
      simp
  refine ⟨h1, (C115_released_partial cs disk dirs l x hx c ?_ h1).1⟩
  rcases hc with ⟨longer, h⟩ | h
  · exact .inl ⟨longer, sc, h⟩
  · exact .inr ⟨sc, h⟩

/-! ## Cases -/

/-- A recorder as made by `TablesRecorder(model, "out/result.h5")`, and by `TablesRecorder2` with a buffer, and a parameter reading data. -/
private def out1 : Path := ⟨⟨false, ["out"]⟩, "result.h5"⟩
private def data1 : Path := ⟨⟨true, ["data"]⟩, "flows.h5"⟩
private def rec1 : Recorder := ⟨"1", .path out1, .w, [("author", "A"), ("PYWR_VERSION", "x")], true, false⟩
private def rec2 : Recorder := ⟨"2", .path out1, .w, [], true, true⟩
private def disk1 : Path → Option Attrs := fun p => if p = data1 then some fun _ => none else none
private def fine : Script := ⟨true, fun _ => .ok, fun _ => true, true, fun _ => true⟩
private def model1 : List (Nat × Comp) := [(0, .plain), (1, .reader (.path data1)), (2, .recorder rec1), (3, .plain)]
private def model2 : List (Nat × Comp) := [(0, .recorder rec2), (1, .plain)]

private theorem fine_fine : fine.Fine := ⟨rfl, fun _ => rfl, fun _ => rfl, rfl, fun _ => rfl⟩

private theorem apart1 : Apart model1 where
  numbers := by decide
  named i c src h hs := by
    simp only [model1, List.mem_cons, Prod.mk.injEq, List.not_mem_nil, or_false] at h
    rcases h with ⟨rfl, rfl⟩ | ⟨rfl, rfl⟩ | ⟨rfl, rfl⟩ | ⟨rfl, rfl⟩ <;> cases hs <;> exact ⟨_, rfl⟩
  modes i r h := by
    simp only [model1, List.mem_cons, Prod.mk.injEq, List.not_mem_nil, or_false, reduceCtorEq, and_false, false_or, Comp.recorder.injEq] at h
    obtain ⟨-, rfl⟩ := h
    exact .inl rfl
  own i r j c h h' hs := by
    simp only [model1, List.mem_cons, Prod.mk.injEq, List.not_mem_nil, or_false, reduceCtorEq, and_false, false_or, Comp.recorder.injEq] at h
    obtain ⟨rfl, rfl⟩ := h
    simp only [model1, List.mem_cons, Prod.mk.injEq, List.not_mem_nil, or_false] at h'
    rcases h' with ⟨rfl, rfl⟩ | ⟨rfl, rfl⟩ | ⟨rfl, rfl⟩ | ⟨rfl, rfl⟩
    · cases hs
    · exact absurd hs (by decide)
    · rfl
    · cases hs

/-- A model with a parameter and a recorder is set up, stepped, edited, run with an error, and meets the hypotheses of `C115_run_partial`. -/
example : let x := calls model1 (fresh disk1 [⟨true, ["data"]⟩]) [.setup fine, .step fine, .finish fine, .edit, .run false { fine with steps := false }]
    Closed x.st ∧ Free model1 x.st ∧ x.dirty = false ∧ x.st.next = 6 := by
  intro x
  have hh : x.st.handles = [] := by decide +kernel
  have hc : Closed x.st := by
    have := C115_released_partial model1 disk1 [⟨true, ["data"]⟩] [.setup fine, .step fine, .finish fine, .edit] _ rfl (.run false { fine with steps := false }) (.inl ⟨_, _, rfl⟩) (by decide +kernel)
    exact this.1
  refine ⟨hc, ⟨?_, ?_, ?_⟩, by decide +kernel, by decide +kernel⟩
  · rw [hh]; simp
  · intro i r p hm hs
    simp only [model1, List.mem_cons, Prod.mk.injEq, List.not_mem_nil, or_false, reduceCtorEq, and_false, false_or, Comp.recorder.injEq] at hm
    obtain ⟨-, rfl⟩ := hm
    cases hs
    rw [if_pos (show rec1.create = true from rfl)]
    rintro ⟨-, h⟩
    cases h
  · intro i p hm
    simp only [model1, List.mem_cons, Prod.mk.injEq, List.not_mem_nil, or_false, reduceCtorEq, and_false, false_or, Comp.reader.injEq, Source.path.injEq] at hm
    obtain ⟨-, rfl⟩ := hm
    decide +kernel

/-- It meets the hypothesis of `C115_unbuffered`, also when everything is raised. -/
example : (∀ i r, (i, Comp.recorder r) ∈ model1 → r.buffered = false) ∧ (call model1 (fresh disk1 []) (.run false { fine with setup := fun _ => .late })).2 = .raised := by
  refine ⟨?_, by decide +kernel⟩
  intro i r h
  simp only [model1, List.mem_cons, Prod.mk.injEq, List.not_mem_nil, or_false, reduceCtorEq, and_false, false_or, Comp.recorder.injEq] at h
  obtain ⟨-, rfl⟩ := h
  rfl

/-- In the middle of a run both files are open, each held by its component; the metadata are those of `C115_metadata`. -/
example : let x := calls model1 (fresh disk1 [⟨true, ["data"]⟩]) [.setup fine, .step fine]
    x.st.handles = [⟨0, data1, .r, false⟩, ⟨2, out1, .rPlus, false⟩] ∧ HeldBy model1 x.st 1 ⟨0, data1, .r, false⟩ ∧ HeldBy model1 x.st 2 ⟨2, out1, .rPlus, false⟩ ∧
    (x.st.disk out1).map (fun a => [a "author", a "PYWR_VERSION", a "PYWR_FORMAT"]) = some [some "A", some "x", some "1"] := by
  refine ⟨by decide +kernel, ⟨by decide +kernel, .reader (.path data1), by simp [model1], ⟨rfl, rfl⟩⟩, ⟨by decide +kernel, .recorder rec1, by simp [model1], ⟨rfl, .inr rfl⟩⟩, by decide +kernel⟩

/-- A first run returns. -/
example : (fresh disk1 [⟨true, ["data"]⟩]).dirty = true ∧ (call model1 (fresh disk1 [⟨true, ["data"]⟩]) (.run false fine)).2 = .returned := by decide +kernel

/-- A file opened by the user and given to a recorder stays open. -/
example : let cs := [(0, Comp.recorder { rec1 with source := .file 0 })]
    let x := calls cs (fresh disk1 []) [.openFile ⟨⟨false, []⟩, "mine.h5"⟩ .w, .run false fine, .run false fine]
    x.st.handles = [⟨0, ⟨⟨false, []⟩, "mine.h5"⟩, .w, true⟩] ∧ (x.st.disk ⟨⟨false, []⟩, "mine.h5"⟩).map (fun a => a "author") = some (some "A") := by
  decide +kernel

/-- A recorder given a file that the user has open for reading does not write its metadata. -/
example : let cs := [(0, Comp.recorder { rec1 with source := .file 0 })]
    let x := calls cs (fresh disk1 [⟨true, ["data"]⟩]) [.openFile data1 .r, .run false { fine with setup := fun _ => .early }]
    x.st.handles = [⟨0, data1, .r, true⟩] ∧ (x.st.disk data1).map (fun a => a "author") = some none := by
  decide +kernel

/-- What a component raises in `finish` is not lost: neither `finish` nor a run returns. -/
theorem C115_unfinished (cs : List (Nat × Comp)) (x : MSt) (sc : Script) (i : Nat) (c : Comp) (hm : (i, c) ∈ cs) (hr : ∀ r, c ≠ .reader r) (hf : sc.finish i = false) :
    (call cs x (.finish sc)).2 = .unfinished ∧ ∀ longer, (call cs x (.run longer sc)).2 = .unfinished := by
  have key : ∀ (cs : List (Nat × Comp)) (cur : Bool) (s : St), (i, c) ∈ cs → (each (fun i s c => c.finish i cur (sc.finish i) s) cs s).2 = false := by
    intro cs cur
    induction cs with
    | nil => intro s h; cases h
    | cons d cs ih =>
      intro s h
      obtain ⟨j, d⟩ := d
      unfold each
      rcases List.mem_cons.mp h with h | h
      · cases h
        have : (c.finish i cur (sc.finish i) s).2 = false := by
          cases c with
          | recorder r => simp [Comp.finish, hf]
          | reader r => exact absurd rfl (hr r)
          | plain => simp [Comp.finish, hf]
        cases e : c.finish i cur (sc.finish i) s with
        | mk s' b =>
          rw [e] at this
          cases this
          rfl
      · cases e : d.finish j cur (sc.finish j) s with
        | mk s' b =>
          cases b with
          | false => rfl
          | true => exact ih s' h
  have fin : ∀ y : MSt, (modelFinish cs sc y).2 = false := fun y => key cs y.current y.st hm
  constructor
  · show (if (modelFinish cs sc x).2 then Out.returned else Out.unfinished) = .unfinished
    rw [fin]; rfl
  · intro longer
    show (modelRun cs longer sc x).2 = _
    unfold modelRun
    dsimp only
    generalize (if (if (x.dirty || x.timeDirty) = true then modelSetup cs sc x else modelReset cs longer sc x).2 = true then
      ({ (if (x.dirty || x.timeDirty) = true then modelSetup cs sc x else modelReset cs longer sc x).1 with current := true }, sc.steps) else
      ((if (x.dirty || x.timeDirty) = true then modelSetup cs sc x else modelReset cs longer sc x).1, false)) = y
    have := fin y.1
    cases e : modelFinish cs sc y.1 with
    | mk z b =>
      rw [e] at this
      cases this
      rfl

/-- `model.setup(); model.setup()` raises for a model with a recorder given the name of its file, as does `model.setup()`, a change of the model, `model.run()`; after that (`run` finishes) it works. -/
theorem C115_setup_twice_fails : ∃ (cs : List (Nat × Comp)) (x0 : MSt) (sc : Script), sc.Fine ∧ x0 = fresh (fun _ => none) [] ∧
    (call cs x0 (.setup sc)).2 = .returned ∧ (call cs (calls cs x0 [.setup sc]) (.setup sc)).2 = .raised ∧
    (call cs (calls cs x0 [.setup sc, .edit]) (.run false sc)).2 = .raised ∧ (call cs (calls cs x0 [.setup sc, .edit, .run false sc]) (.run false sc)).2 = .returned :=
  ⟨[(0, .recorder rec1)], _, fine, fine_fine, rfl, by decide +kernel, by decide +kernel, by decide +kernel, by decide +kernel⟩

/-- A flush that fails. -/
example : (call [(0, .recorder rec1)] (fresh (fun _ => none) []) (.run false { fine with finish := fun _ => false })).2 = .unfinished ∧
    (call [(0, .recorder rec1)] (fresh (fun _ => none) []) (.run false fine)).2 = .returned := ⟨(C115_unfinished _ _ _ 0 (.recorder rec1) (by simp) (by simp) rfl).2 false, by decide +kernel⟩

private def failing : Script := { fine with reset := fun i => i == 0 }

/-- `TablesRecorder2` with a buffer: if, in the first run, something raises in `reset` after the recorder (here the solver), `finish` raises too, as there is no current timestep; the file stays open; and every later run, whatever
happens in it, raises because of that, for ever. -/
theorem C115_stuck_fails : ∃ (cs : List (Nat × Comp)) (x0 : MSt) (sc0 : Script), x0 = fresh (fun _ => none) [] ∧ (call cs x0 (.run false sc0)).2 = .unfinished ∧
    ∀ (runs : List (Bool × Script)) (longer : Bool) (sc : Script),
      (call cs (calls cs x0 (.run false sc0 :: runs.map fun r => .run r.1 r.2)) (.run longer sc)).2 = .unfinished := by
  refine ⟨model2, _, failing, rfl, by decide +kernel, ?_⟩
  let P : MSt → Prop := fun x => x.dirty = true ∧ x.current = false ∧ (x.st.slots 0).buffer = true ∧ ∃ h ∈ x.st.handles, h.path = out1
  have step : ∀ x, P x → ∀ longer sc, P (call model2 x (.run longer sc)).1 ∧ (call model2 x (.run longer sc)).2 = .unfinished := by
    rintro x ⟨hd, hcur, hb, h, hh, hp⟩ longer sc
    show P (modelRun model2 longer sc x).1 ∧ (modelRun model2 longer sc x).2 = _
    have hset : ∃ x1, modelSetup model2 sc x = (x1, false) ∧ P x1 := by
      unfold modelSetup
      split
      · have hr := setup_refused (i := 0) (r := rec2) (p := out1) rfl rfl (sc.setup 0) x.st hh hp
        unfold model2 each
        generalize (Comp.recorder rec2).setup 0 (sc.setup 0) x.st = q at hr ⊢
        obtain ⟨s1, ok⟩ := q
        obtain ⟨h1, h2, h3⟩ := hr
        dsimp only at h1 h2 h3
        subst h1
        exact ⟨_, rfl, hd, rfl, by rw [h3]; exact hb, h, h2, hp⟩
      · exact ⟨x, rfl, hd, hcur, hb, h, hh, hp⟩
    obtain ⟨x1, e1, hd1, hcur1, hb1, hP1⟩ := hset
    have hfin : modelFinish model2 sc x1 = (x1, false) := by
      unfold modelFinish model2 each
      obtain ⟨s1, d1, t1, c1⟩ := x1
      simp only at hcur1 hb1
      subst hcur1
      simp [Comp.finish, hb1]
    unfold modelRun
    rw [hd, Bool.true_or, if_pos rfl, e1]
    dsimp only
    simp only [Bool.false_eq_true, if_false]
    rw [hfin]
    exact ⟨⟨hd1, hcur1, hb1, hP1⟩, rfl⟩
  have first : P (call model2 (fresh (fun _ => none) []) (.run false failing)).1 :=
    ⟨by decide +kernel, by decide +kernel, by decide +kernel, ⟨1, out1, .rPlus, false⟩, by decide +kernel, rfl⟩
  intro runs longer sc
  have all : P (calls model2 (fresh (fun _ => none) []) (.run false failing :: runs.map fun r => .run r.1 r.2)) := by
    show P (calls model2 (call model2 (fresh (fun _ => none) []) (.run false failing)).1 (runs.map fun r => .run r.1 r.2))
    generalize (call model2 (fresh (fun _ => none) []) (.run false failing)).1 = x at first
    induction runs generalizing x with
    | nil => exact first
    | cons r runs ih => exact ih _ (step x first r.1 r.2).1
  exact (step _ all longer sc).2

/-- With `create_directories`, the name of a file in the working directory is refused always, though the directory is there: `os.makedirs("")` raises. Without `create_directories` it is accepted. -/
theorem C115_bare_fails : (∀ (x : MSt) (i : Nat) (r : Recorder) (p : Path) (b : Body), r.source = .path p → p.Bare → r.create = true → ((Comp.recorder r).setup i b x.st).2 = false) ∧
    ∃ p : Path, p.Bare ∧ (call [(0, .recorder { rec1 with source := .path p, create := false })] (fresh (fun _ => none) []) (.run false fine)).2 = .returned := by
  refine ⟨?_, ⟨⟨false, []⟩, "result.h5"⟩, ⟨rfl, rfl⟩, by decide +kernel⟩
  intro x i r p b hs hp hc
  have e : acquire x.st i r.source r.mode (some r.attributes) r.create = (x.st, false) := by
    rw [hs, hc]
    unfold acquire makeStore directories makedirs
    dsimp only
    rw [if_pos rfl, if_pos (show p.dir.absolute = false ∧ p.dir.parts = [] from hp)]
  dsimp only [Comp.setup]
  rw [e]

/-- A generator of `generate_dataframes` that was not exhausted and is still referenced keeps later runs from writing the file, and the results of a run that is not finished cannot be read. -/
theorem C115_frames_fails : ∃ (cs : List (Nat × Comp)) (x0 : MSt) (sc : Script), sc.Fine ∧ x0 = fresh (fun _ => none) [] ∧
    (call cs (calls cs x0 [.run false sc, .frames out1]) (.run false sc)).2 = .raised ∧ (call cs (calls cs x0 [.run false sc, .frames out1, .framesEnd 0]) (.run false sc)).2 = .returned ∧
    (call cs (calls cs x0 [.setup sc, .step sc]) (.frames out1)).2 = .raised :=
  ⟨[(0, .recorder rec1)], _, fine, fine_fine, rfl, by decide +kernel, by decide +kernel, by decide +kernel⟩

end Verif.H5Files

import Verif.Spec.H5Files
import Mathlib.Logic.Relation
import Mathlib.Data.List.Nodup
import Mathlib.Tactic.Tauto
/-!
# Who holds which file: lemmas
-/

namespace Verif.H5Files

/-- What a component asks for when it opens a file. -/
def Comp.Asks (m : Mode) (md : Option (List (String × String))) : Comp → Prop
  | .recorder r => (m = r.mode ∧ md = some r.attributes) ∨ (m = .rPlus ∧ md = none)
  | .reader _ => m = .r ∧ md = none
  | .plain => False

/-- What the hooks of components do. -/
inductive Act (cs : List (Nat × Comp)) : St → St → Prop
  | dirs (s d) : Act cs s { s with dirs := s.dirs ++ d }
  | buffer (s i r) : (i, Comp.recorder r) ∈ cs → Act cs s (setBuffer s i r.buffered)
  | release (s i c) : (i, c) ∈ cs → Act cs s (assign s i none)
  | path (s s1 : St) (i h : Nat) (c : Comp) (p m md) : (i, c) ∈ cs → c.source = some (.path p) → c.Asks m md → openFile s p m false = some (s1, h) →
      Act cs s (assign (metadata s1 h md) i (some ⟨h, true⟩))
  | file (s i c h m md) : (i, c) ∈ cs → c.source = some (.file h) → c.Asks m md → (s.handle h).isSome → Act cs s (assign (metadata s h md) i (some ⟨h, false⟩))

abbrev Acts (cs : List (Nat × Comp)) := Relation.ReflTransGen (Act cs)

theorem Act.mono {cs cs' : List (Nat × Comp)} (hs : ∀ x ∈ cs, x ∈ cs') {s s' : St} (h : Act cs s s') : Act cs' s s' := by
  cases h with
  | dirs d => exact .dirs _ d
  | buffer i r hm => exact .buffer _ i r (hs _ hm)
  | release i c hm => exact .release _ i c (hs _ hm)
  | path s1 i h c p m md hm h1 h2 h3 => exact .path _ _ _ _ _ _ _ _ (hs _ hm) h1 h2 h3
  | file i c h m md hm h1 h2 h3 => exact .file _ _ _ _ _ _ (hs _ hm) h1 h2 h3

theorem Acts.mono {cs cs' : List (Nat × Comp)} (hs : ∀ x ∈ cs, x ∈ cs') {s s' : St} (h : Acts cs s s') : Acts cs' s s' := by
  induction h with
  | refl => exact .refl
  | tail _ h ih => exact ih.tail (h.mono hs)

theorem directories_acts {cs : List (Nat × Comp)} {s s1 : St} {b : Bool} {p : Path} (h : directories s b p = some s1) : Acts cs s s1 := by
  unfold directories at h
  split at h
  · split at h
    · rename_i e
      cases h
      unfold makedirs at e
      split at e
      · cases e
      · split at e
        · cases e
        · cases e; exact .single (.dirs _ _)
    · cases h; exact .refl
    · cases h
  · cases h; exact .refl

theorem acquire_acts {cs : List (Nat × Comp)} {i : Nat} {c : Comp} (hm : (i, c) ∈ cs) {src : Source} (hs : c.source = some src) {m : Mode} {md} (ha : c.Asks m md)
    (s : St) (b : Bool) : Acts cs s (acquire s i src m md b).1 := by
  unfold acquire makeStore
  cases src with
  | path p =>
    dsimp only
    cases hd : directories s b p with
    | none => exact .refl
    | some s1 =>
      dsimp only
      refine (directories_acts hd).trans ?_
      cases ho : openFile s1 p m false with
      | none => exact .refl
      | some q => exact .single (.path _ _ _ _ _ _ _ _ hm hs ha ho)
  | file h =>
    dsimp only
    cases hd : s.handle h with
    | none => exact .refl
    | some x => exact .single (.file _ _ _ _ _ _ hm hs ha (by simp [hd]))
  | other => exact .refl

theorem setup_acts {cs : List (Nat × Comp)} {i : Nat} {c : Comp} (hm : (i, c) ∈ cs) (b : Body) (s : St) : Acts cs s (c.setup i b s).1 := by
  cases c with
  | recorder r =>
    have h := acquire_acts hm (src := r.source) rfl (m := r.mode) (md := some r.attributes) (.inl ⟨rfl, rfl⟩) s r.create
    dsimp only [Comp.setup]
    split
    · rename_i s1 e; rw [e] at h; exact h
    · rename_i s1 e; rw [e] at h
      cases b with
      | ok => exact (h.tail (.buffer _ _ _ hm)).tail (.release _ _ _ hm)
      | early => exact h
      | late => exact h.tail (.buffer _ _ _ hm)
  | reader src =>
    have h := acquire_acts hm (src := src) rfl (m := .r) (md := none) ⟨rfl, rfl⟩ s false
    dsimp only [Comp.setup]
    split <;> (rename_i s1 e; rw [e] at h; exact h)
  | plain => exact .refl

theorem reset_acts {cs : List (Nat × Comp)} {i : Nat} {c : Comp} (hm : (i, c) ∈ cs) (b : Bool) (s : St) : Acts cs s (c.reset i b s).1 := by
  cases c with
  | recorder r =>
    have h := acquire_acts hm (src := r.source) rfl (m := .rPlus) (md := none) (.inr ⟨rfl, rfl⟩) s false
    dsimp only [Comp.reset]
    split <;> (rename_i s1 e; rw [e] at h; exact h)
  | reader src => exact .refl
  | plain => exact .refl

theorem finish_acts {cs : List (Nat × Comp)} {i : Nat} {c : Comp} (hm : (i, c) ∈ cs) (cur b : Bool) (s : St) : Acts cs s (c.finish i cur b s).1 := by
  cases c with
  | recorder r =>
    dsimp only [Comp.finish]
    split
    · exact .refl
    · exact .single (.release _ _ _ hm)
  | reader src => exact .single (.release _ _ _ hm)
  | plain => exact .refl

theorem each_acts {f : Nat → St → Comp → St × Bool} {cs : List (Nat × Comp)} (l : List (Nat × Comp)) (hl : ∀ x ∈ l, x ∈ cs) (hf : ∀ i c s, (i, c) ∈ l → Acts cs s (f i s c).1) (s : St) :
    Acts cs s (each f l s).1 := by
  induction l generalizing s with
  | nil => exact .refl
  | cons x l ih =>
    obtain ⟨i, c⟩ := x
    have h := hf i c s (by simp)
    unfold each
    split
    · rename_i s1 e; rw [e] at h
      exact h.trans (ih (fun x hx => hl x (by simp [hx])) (fun i c s hm => hf i c s (by simp [hm])) s1)
    · rename_i s1 e; rw [e] at h; exact h

theorem modelReset_acts (cs : List (Nat × Comp)) (longer : Bool) (sc : Script) (x : MSt) : Acts cs x.st (modelReset cs longer sc x).1.st := by
  unfold modelReset
  split
  · refine each_acts cs (fun _ h => h) (fun i c s hm => ?_) x.st
    split
    · have h := setup_acts hm (sc.setup i) s
      split
      · rename_i s1 e; rw [e] at h; exact h.trans (reset_acts hm _ _)
      · rename_i s1 e; rw [e] at h; exact h
    · exact reset_acts hm _ _
  · exact .refl

theorem modelSetup_acts (cs : List (Nat × Comp)) (sc : Script) (x : MSt) : Acts cs x.st (modelSetup cs sc x).1.st := by
  unfold modelSetup
  split
  · have h : Acts cs x.st (each (fun i s c => c.setup i (sc.setup i) s) cs x.st).1 := each_acts cs (fun _ h => h) (fun i c s hm => setup_acts hm _ s) x.st
    split
    · rename_i s1 e; rw [e] at h; exact h
    · rename_i s1 e; rw [e] at h
      have h2 := modelReset_acts cs false sc { x with st := s1, timeDirty := false }
      split
      · rename_i x1 e1; rw [e1] at h2; exact h.trans h2
      · rename_i x1 e1; rw [e1] at h2; exact h.trans h2
  · exact .refl

theorem modelFinish_acts (cs : List (Nat × Comp)) (sc : Script) (x : MSt) : Acts cs x.st (modelFinish cs sc x).1.st :=
  each_acts (f := fun i s c => c.finish i x.current (sc.finish i) s) cs (fun _ h => h) (fun _ _ s hm => finish_acts hm _ _ s) x.st

theorem modelRun_acts (cs : List (Nat × Comp)) (longer : Bool) (sc : Script) (x : MSt) : Acts cs x.st (modelRun cs longer sc x).1.st := by
  have h1 : Acts cs x.st (if x.dirty || x.timeDirty then modelSetup cs sc x else modelReset cs longer sc x).1.st := by
    split
    · exact modelSetup_acts cs sc x
    · exact modelReset_acts cs longer sc x
  unfold modelRun
  generalize (if x.dirty || x.timeDirty then modelSetup cs sc x else modelReset cs longer sc x) = q at h1 ⊢
  obtain ⟨x1, ok⟩ := q
  dsimp only
  have h2 : Acts cs x.st (if ok then ({ x1 with current := true }, sc.steps) else (x1, false)).1.st := by
    cases ok <;> exact h1
  generalize (if ok then (({ x1 with current := true } : MSt), sc.steps) else (x1, false)) = q at h2 ⊢
  obtain ⟨x2, ok2⟩ := q
  dsimp only
  have h3 := modelFinish_acts cs sc x2
  split
  · rename_i x3 e; rw [e] at h3; exact h2.trans h3
  · rename_i x3 e; rw [e] at h3; exact h2.trans h3

/-- The calls of the model. -/
def Call.OfModel : Call → Prop
  | .openFile _ _ => False
  | .closeFile _ => False
  | .frames _ => False
  | .framesEnd _ => False
  | _ => True

theorem call_acts (cs : List (Nat × Comp)) (x : MSt) (c : Call) (hc : c.OfModel) : Acts cs x.st (call cs x c).1.st := by
  cases c with
  | setup sc => exact modelSetup_acts cs sc x
  | reset longer sc => exact modelReset_acts cs longer sc x
  | step sc =>
    unfold call
    dsimp only
    have h : Acts cs x.st (if x.dirty || x.timeDirty then modelSetup cs sc x else (x, true)).1.st := by
      split
      · exact modelSetup_acts cs sc x
      · exact .refl
    generalize (if x.dirty || x.timeDirty then modelSetup cs sc x else (x, true)) = q at h ⊢
    obtain ⟨x1, ok⟩ := q
    cases ok <;> exact h
  | run longer sc => exact modelRun_acts cs longer sc x
  | finish sc => exact modelFinish_acts cs sc x
  | edit => exact .refl
  | editTime => exact .refl
  | openFile p m => exact hc.elim
  | closeFile h => exact hc.elim
  | frames p => exact hc.elim
  | framesEnd k => exact hc.elim

/-- The invariant: of the open files, their numbers, the stores of components and of generators. -/
structure Good (cs : List (Nat × Comp)) (hs : List Handle) (n : Nat) (sl : Nat → Option Store) (fr : List Store) : Prop where
  ids : ∀ h ∈ hs, h.id < n
  unique : (hs.map Handle.id).Nodup
  slotLt : ∀ i k, sl i = some ⟨k, true⟩ → k < n
  frameLt : ∀ st ∈ fr, st.opened = true ∧ st.handle < n
  slotOwn : ∀ i k, sl i = some ⟨k, true⟩ → ∀ h ∈ hs, h.id = k → h.user = false ∧ ∃ c, (i, c) ∈ cs ∧ c.Mine h
  frameOwn : ∀ st ∈ fr, ∀ h ∈ hs, h.id = st.handle → h.user = false ∧ h.mode = .r
  slotInj : ∀ i j k, sl i = some ⟨k, true⟩ → sl j = some ⟨k, true⟩ → i = j
  slotFrame : ∀ i k, sl i = some ⟨k, true⟩ → (⟨k, true⟩ : Store) ∉ fr
  frameNodup : fr.Nodup
  held : ∀ h ∈ hs, h.user = false → (∃ i, sl i = some ⟨h.id, true⟩) ∨ (⟨h.id, true⟩ : Store) ∈ fr

/-- The stores of the components. -/
def St.stores (s : St) (i : Nat) : Option Store := (s.slots i).store

def St.Good (cs : List (Nat × Comp)) (s : St) : Prop := H5Files.Good cs s.handles s.next s.stores s.frames

/-- Closing any files. -/
theorem Good.filter {cs hs n sl fr} (g : Good cs hs n sl fr) (f : Handle → Bool) : Good cs (hs.filter f) n sl fr where
  ids h hm := g.ids h (List.mem_filter.1 hm).1
  unique := g.unique.sublist (List.filter_sublist.map _)
  slotLt := g.slotLt
  frameLt := g.frameLt
  slotOwn i k hk h hm := g.slotOwn i k hk h (List.mem_filter.1 hm).1
  frameOwn st hst h hm := g.frameOwn st hst h (List.mem_filter.1 hm).1
  slotInj := g.slotInj
  slotFrame := g.slotFrame
  frameNodup := g.frameNodup
  held h hm := g.held h (List.mem_filter.1 hm).1

/-- The handles left when a store goes. -/
def keep (o : Option Store) (hs : List Handle) : List Handle := match o with
  | some ⟨h, true⟩ => hs.filter fun x => x.id != h
  | _ => hs

theorem mem_keep {o : Option Store} {hs : List Handle} {h : Handle} : h ∈ keep o hs ↔ h ∈ hs ∧ o ≠ some ⟨h.id, true⟩ := by
  unfold keep
  split
  · rename_i k
    simp only [List.mem_filter, bne_iff_ne, ne_eq, Option.some.injEq, Store.mk.injEq, and_true]
    constructor
    · rintro ⟨a, b⟩; exact ⟨a, fun e => b e.symm⟩
    · rintro ⟨a, b⟩; exact ⟨a, fun e => b e.symm⟩
  · rename_i hn
    constructor
    · intro a; exact ⟨a, fun e => hn _ e⟩
    · exact fun a => a.1

theorem keep_eq_filter (o : Option Store) (hs : List Handle) : ∃ f, keep o hs = hs.filter f := by
  unfold keep
  split
  · exact ⟨_, rfl⟩
  · exact ⟨fun _ => true, (List.filter_true hs).symm⟩

theorem Good.kept {cs hs n sl fr} (g : Good cs hs n sl fr) (o : Option Store) : Good cs (keep o hs) n sl fr := by
  obtain ⟨f, e⟩ := keep_eq_filter o hs
  rw [e]; exact g.filter f

/-- A component lets go of what it has, and takes nothing or a file it did not open. -/
theorem Good.let {cs hs n sl fr} (g : Good cs hs n sl fr) (i : Nat) {o : Option Store} (ho : ∀ k, o ≠ some ⟨k, true⟩) :
    Good cs (keep (sl i) hs) n (fun j => if j = i then o else sl j) fr := by
  have hne : ∀ j k, (if j = i then o else sl j) = some ⟨k, true⟩ → j ≠ i ∧ sl j = some ⟨k, true⟩ := by
    intro j k h
    split at h
    · exact absurd h (ho k)
    · exact ⟨by assumption, h⟩
  have g' := g.kept (sl i)
  exact {
    ids := g'.ids
    unique := g'.unique
    slotLt := fun j k h => g.slotLt j k (hne j k h).2
    frameLt := g.frameLt
    slotOwn := fun j k h => g'.slotOwn j k (hne j k h).2
    frameOwn := g'.frameOwn
    slotInj := fun a b k h1 h2 => g.slotInj a b k (hne a k h1).2 (hne b k h2).2
    slotFrame := fun j k h => g.slotFrame j k (hne j k h).2
    frameNodup := g.frameNodup
    held := fun h hm hu => by
      obtain ⟨hm, hk⟩ := mem_keep.1 hm
      rcases g.held h hm hu with ⟨j, hj⟩ | hj
      · refine .inl ⟨j, ?_⟩
        show (if j = i then o else sl j) = _
        rw [if_neg ?_]
        · exact hj
        · rintro rfl; exact hk hj
      · exact .inr hj }

/-- A new file for a component, in place of what it has. -/
theorem Good.take {cs hs n sl fr} (g : Good cs hs n sl fr) {i : Nat} {c : Comp} (hm : (i, c) ∈ cs) (p : Path) (m : Mode) (hc : c.Mine ⟨n, p, m, false⟩) :
    Good cs (keep (sl i) (hs ++ [⟨n, p, m, false⟩])) (n + 1) (fun j => if j = i then some ⟨n, true⟩ else sl j) fr := by
  have hne : ∀ j k, (if j = i then some (⟨n, true⟩ : Store) else sl j) = some ⟨k, true⟩ → (j = i ∧ k = n) ∨ (j ≠ i ∧ sl j = some ⟨k, true⟩) := by
    intro j k h
    split at h
    · cases h; exact .inl ⟨by assumption, rfl⟩
    · exact .inr ⟨by assumption, h⟩
  have hin : ∀ h ∈ H5Files.keep (sl i) (hs ++ [⟨n, p, m, false⟩]), h ∈ hs ∨ h = ⟨n, p, m, false⟩ := by
    intro h hh
    have := (mem_keep.1 hh).1
    simpa using this
  exact {
    ids := fun h hh => by
      rcases hin h hh with a | rfl
      · exact Nat.lt_succ_of_lt (g.ids h a)
      · exact Nat.lt_succ_self n
    unique := by
      obtain ⟨f, e⟩ := keep_eq_filter (sl i) (hs ++ [⟨n, p, m, false⟩])
      rw [e]
      refine List.Nodup.sublist (List.filter_sublist.map _) ?_
      rw [List.map_append, List.nodup_append]
      refine ⟨g.unique, by simp, ?_⟩
      intro a ha b hb
      obtain ⟨h, hh, rfl⟩ := List.mem_map.1 ha
      simp only [List.map_cons, List.map_nil, List.mem_singleton] at hb
      subst hb
      exact Nat.ne_of_lt (g.ids h hh)
    slotLt := fun j k h => by
      rcases hne j k h with ⟨_, rfl⟩ | ⟨_, a⟩
      · exact Nat.lt_succ_self _
      · exact Nat.lt_succ_of_lt (g.slotLt j k a)
    frameLt := fun st hst => ⟨(g.frameLt st hst).1, Nat.lt_succ_of_lt (g.frameLt st hst).2⟩
    slotOwn := fun j k h x hx hk => by
      rcases hne j k h with ⟨rfl, rfl⟩ | ⟨hj, a⟩
      · rcases hin x hx with b | rfl
        · exact absurd hk (Nat.ne_of_lt (g.ids x b))
        · exact ⟨rfl, c, hm, hc⟩
      · rcases hin x hx with b | rfl
        · exact g.slotOwn j k a x b hk
        · exact absurd hk (Nat.ne_of_gt (g.slotLt j k a))
    frameOwn := fun st hst x hx hk => by
      rcases hin x hx with b | rfl
      · exact g.frameOwn st hst x b hk
      · exact absurd hk (Nat.ne_of_gt (g.frameLt st hst).2)
    slotInj := fun a b k h1 h2 => by
      rcases hne a k h1 with ⟨ea, e'⟩ | ⟨ha, a1⟩ <;> rcases hne b k h2 with ⟨eb, e⟩ | ⟨hb, a2⟩
      · exact ea.trans eb.symm
      · exact absurd (g.slotLt b _ a2) (by omega)
      · exact absurd (g.slotLt a _ a1) (by omega)
      · exact g.slotInj a b k a1 a2
    slotFrame := fun j k h => by
      rcases hne j k h with ⟨rfl, rfl⟩ | ⟨_, a⟩
      · exact fun hf => absurd (g.frameLt _ hf).2 (Nat.lt_irrefl _)
      · exact g.slotFrame j k a
    frameNodup := g.frameNodup
    held := fun h hh hu => by
      obtain ⟨hh, hk⟩ := mem_keep.1 hh
      rcases (by simpa using hh : h ∈ hs ∨ h = ⟨n, p, m, false⟩) with a | rfl
      · rcases g.held h a hu with ⟨j, hj⟩ | hj
        · refine .inl ⟨j, ?_⟩
          show (if j = i then _ else sl j) = _
          rw [if_neg ?_]
          · exact hj
          · rintro rfl; exact hk hj
        · exact .inr hj
      · exact .inl ⟨i, by simp⟩ }

@[simp] theorem metadata_handles (s h md) : (metadata s h md).handles = s.handles := by
  unfold metadata; split <;> [split <;> rfl; rfl]
@[simp] theorem metadata_next (s h md) : (metadata s h md).next = s.next := by
  unfold metadata; split <;> [split <;> rfl; rfl]
@[simp] theorem metadata_slots (s h md) : (metadata s h md).slots = s.slots := by
  unfold metadata; split <;> [split <;> rfl; rfl]
@[simp] theorem metadata_frames (s h md) : (metadata s h md).frames = s.frames := by
  unfold metadata; split <;> [split <;> rfl; rfl]
@[simp] theorem metadata_dirs (s h md) : (metadata s h md).dirs = s.dirs := by
  unfold metadata; split <;> [split <;> rfl; rfl]

@[simp] theorem drop_handles (s o) : (drop s o).handles = keep o s.handles := by
  unfold drop keep; split <;> simp_all [close]
@[simp] theorem drop_next (s o) : (drop s o).next = s.next := by unfold drop; split <;> rfl
@[simp] theorem drop_slots (s o) : (drop s o).slots = s.slots := by unfold drop; split <;> rfl
@[simp] theorem drop_frames (s o) : (drop s o).frames = s.frames := by unfold drop; split <;> rfl
@[simp] theorem drop_disk (s o) : (drop s o).disk = s.disk := by unfold drop; split <;> rfl
@[simp] theorem drop_dirs (s o) : (drop s o).dirs = s.dirs := by unfold drop; split <;> rfl

theorem assign_stores (s i o) : (assign s i o).stores = fun j => if j = i then o else s.stores j := by
  funext j
  unfold assign St.stores
  rw [drop_slots]
  show (if j = i then _ else _ : Slot).store = _
  split <;> rfl
@[simp] theorem assign_handles (s i o) : (assign s i o).handles = keep (s.stores i) s.handles := by
  unfold assign; rw [drop_handles]; rfl
@[simp] theorem assign_next (s i o) : (assign s i o).next = s.next := by unfold assign; rw [drop_next]
@[simp] theorem assign_frames (s i o) : (assign s i o).frames = s.frames := by unfold assign; rw [drop_frames]
@[simp] theorem assign_disk (s i o) : (assign s i o).disk = s.disk := by unfold assign; rw [drop_disk]
@[simp] theorem assign_dirs (s i o) : (assign s i o).dirs = s.dirs := by unfold assign; rw [drop_dirs]

theorem setBuffer_stores (s i b) : (setBuffer s i b).stores = s.stores := by
  funext j
  unfold setBuffer St.stores
  show (if j = i then _ else _ : Slot).store = _
  split <;> rfl

/-- What opening a file does. -/
theorem openFile_some {s s1 : St} {p : Path} {m : Mode} {u : Bool} {h : Nat} (e : openFile s p m u = some (s1, h)) :
    h = s.next ∧ s1.handles = s.handles ++ [⟨s.next, p, m, u⟩] ∧ s1.next = s.next + 1 ∧ s1.slots = s.slots ∧ s1.frames = s.frames ∧ s1.dirs = s.dirs ∧
    (∀ q, q ≠ p → s1.disk q = s.disk q) ∧ (s1.disk p).isSome ∧ (m ≠ .w → (s.disk p).isSome → s1.disk p = s.disk p) ∧ (m = .w → s1.disk p = some fun _ => none) ∧
    (m = .r ∨ m = .rPlus → (s.disk p).isSome) ∧ ∀ x ∈ s.handles, x.path = p → conflict m x.mode = false := by
  unfold openFile at e
  by_cases hc : (s.handles.any fun h => h.path == p && conflict m h.mode) = true
  · rw [if_pos hc] at e; cases e
  · rw [if_neg hc] at e
    have hc' : ∀ x ∈ s.handles, x.path = p → conflict m x.mode = false := by
      intro x hx hp
      simp only [List.any_eq_true, Bool.and_eq_true, beq_iff_eq, not_exists, not_and, Bool.not_eq_true] at hc
      exact hc x hx hp
    cases m <;> dsimp only at e <;> split at e <;> cases e <;> rename_i ht <;>
      refine ⟨rfl, rfl, rfl, rfl, rfl, rfl, fun q hq => if_neg hq, by simp, fun hw hs => ?_, fun hw => ?_, fun hr => ?_, hc'⟩ <;>
      first
      | (cases hw; done)
      | exact absurd rfl hw
      | exact ht
      | simp; done
      | (simp at hr)
      | (obtain ⟨a, ha⟩ := Option.isSome_iff_exists.1 hs; simp [ha])

theorem Comp.Asks.mine {c : Comp} {m md p n} (ha : c.Asks m md) (hs : c.source = some (.path p)) : c.Mine ⟨n, p, m, false⟩ := by
  cases c with
  | recorder r =>
    have hs : r.source = .path p := by simpa [Comp.source] using hs
    rcases ha with ⟨a, _⟩ | ⟨a, _⟩
    · exact ⟨hs, .inl a⟩
    · exact ⟨hs, .inr a⟩
  | reader src => exact ⟨by simpa [Comp.source] using hs, ha.1⟩
  | plain => exact ha.elim

theorem Act.good {cs : List (Nat × Comp)} {s s' : St} (h : Act cs s s') (g : s.Good cs) : s'.Good cs := by
  cases h with
  | dirs d => exact g
  | buffer i b =>
    unfold St.Good
    rw [setBuffer_stores]
    exact g
  | release i c hm =>
    unfold St.Good
    rw [assign_stores, assign_handles, assign_next, assign_frames]
    exact Good.let g i (by simp)
  | path s1 i h c p m md hm hs ha ho =>
    obtain ⟨rfl, h1, h2, h3, h4, _⟩ := openFile_some ho
    unfold St.Good
    have e : (metadata s1 s.next md).stores = s.stores := by funext j; unfold St.stores; rw [metadata_slots, h3]
    rw [assign_stores, assign_handles, assign_next, assign_frames, metadata_handles, metadata_next, metadata_frames, h1, h2, h4, e]
    exact Good.take g hm p m (ha.mine hs)
  | file i c h m md hm hs ha hh =>
    unfold St.Good
    have e : (metadata s h md).stores = s.stores := by funext j; unfold St.stores; rw [metadata_slots]
    rw [assign_stores, assign_handles, assign_next, assign_frames, metadata_handles, metadata_next, metadata_frames, e]
    exact Good.let g i (by simp)

theorem Acts.good {cs : List (Nat × Comp)} {s s' : St} (h : Acts cs s s') (g : s.Good cs) : s'.Good cs := by
  induction h with
  | refl => exact g
  | tail _ h ih => exact h.good ih

theorem Good.user {cs hs n sl fr} (g : Good cs hs n sl fr) (p : Path) (m : Mode) : Good cs (hs ++ [⟨n, p, m, true⟩]) (n + 1) sl fr := by
  have hin : ∀ h ∈ hs ++ [⟨n, p, m, true⟩], h ∈ hs ∨ h = ⟨n, p, m, true⟩ := fun h hh => by simpa using hh
  exact {
    ids := fun h hh => by
      rcases hin h hh with a | rfl
      · exact Nat.lt_succ_of_lt (g.ids h a)
      · exact Nat.lt_succ_self n
    unique := by
      rw [List.map_append, List.nodup_append]
      refine ⟨g.unique, by simp, ?_⟩
      intro a ha b hb
      obtain ⟨h, hh, rfl⟩ := List.mem_map.1 ha
      simp only [List.map_cons, List.map_nil, List.mem_singleton] at hb
      subst hb
      exact Nat.ne_of_lt (g.ids h hh)
    slotLt := fun j k h => Nat.lt_succ_of_lt (g.slotLt j k h)
    frameLt := fun st hst => ⟨(g.frameLt st hst).1, Nat.lt_succ_of_lt (g.frameLt st hst).2⟩
    slotOwn := fun j k h x hx hk => by
      rcases hin x hx with b | rfl
      · exact g.slotOwn j k h x b hk
      · exact absurd hk (Nat.ne_of_gt (g.slotLt j k h))
    frameOwn := fun st hst x hx hk => by
      rcases hin x hx with b | rfl
      · exact g.frameOwn st hst x b hk
      · exact absurd hk (Nat.ne_of_gt (g.frameLt st hst).2)
    slotInj := g.slotInj
    slotFrame := g.slotFrame
    frameNodup := g.frameNodup
    held := fun h hh hu => by
      rcases hin h hh with a | rfl
      · exact g.held h a hu
      · cases hu }

theorem Good.frame {cs hs n sl fr} (g : Good cs hs n sl fr) (p : Path) : Good cs (hs ++ [⟨n, p, .r, false⟩]) (n + 1) sl (fr ++ [⟨n, true⟩]) := by
  have hin : ∀ h ∈ hs ++ [⟨n, p, .r, false⟩], h ∈ hs ∨ h = ⟨n, p, .r, false⟩ := fun h hh => by simpa using hh
  have hfr : ∀ st ∈ fr ++ [(⟨n, true⟩ : Store)], st ∈ fr ∨ st = ⟨n, true⟩ := fun h hh => by simpa using hh
  have hnew : (⟨n, true⟩ : Store) ∉ fr := fun h => absurd (g.frameLt _ h).2 (Nat.lt_irrefl _)
  exact {
    ids := fun h hh => by
      rcases hin h hh with a | rfl
      · exact Nat.lt_succ_of_lt (g.ids h a)
      · exact Nat.lt_succ_self n
    unique := by
      rw [List.map_append, List.nodup_append]
      refine ⟨g.unique, by simp, ?_⟩
      intro a ha b hb
      obtain ⟨h, hh, rfl⟩ := List.mem_map.1 ha
      simp only [List.map_cons, List.map_nil, List.mem_singleton] at hb
      subst hb
      exact Nat.ne_of_lt (g.ids h hh)
    slotLt := fun j k h => Nat.lt_succ_of_lt (g.slotLt j k h)
    frameLt := fun st hst => by
      rcases hfr st hst with a | rfl
      · exact ⟨(g.frameLt st a).1, Nat.lt_succ_of_lt (g.frameLt st a).2⟩
      · exact ⟨rfl, Nat.lt_succ_self n⟩
    slotOwn := fun j k h x hx hk => by
      rcases hin x hx with b | rfl
      · exact g.slotOwn j k h x b hk
      · exact absurd hk (Nat.ne_of_gt (g.slotLt j k h))
    frameOwn := fun st hst x hx hk => by
      rcases hin x hx with b | rfl
      · rcases hfr st hst with a | rfl
        · exact g.frameOwn st a x b hk
        · exact absurd hk (Nat.ne_of_lt (g.ids x b))
      · exact ⟨rfl, rfl⟩
    slotInj := g.slotInj
    slotFrame := fun j k h hf => by
      rcases hfr _ hf with a | a
      · exact g.slotFrame j k h a
      · cases a; exact absurd (g.slotLt j _ h) (Nat.lt_irrefl _)
    frameNodup := by
      rw [List.nodup_append]
      refine ⟨g.frameNodup, by simp, ?_⟩
      rintro a ha b hb rfl
      simp only [List.mem_singleton] at hb
      subst hb
      exact hnew ha
    held := fun h hh hu => by
      rcases hin h hh with a | rfl
      · rcases g.held h a hu with b | b
        · exact .inl b
        · exact .inr (by simp [b])
      · exact .inr (by simp) }

theorem Good.frameEnd {cs hs n sl fr} (g : Good cs hs n sl fr) (k : Nat) : Good cs (H5Files.keep fr[k]? hs) n sl (fr.eraseIdx k) := by
  have hsub : ∀ st ∈ fr.eraseIdx k, st ∈ fr := fun st h => List.mem_of_mem_eraseIdx h
  have g' := g.kept fr[k]?
  exact {
    ids := g'.ids
    unique := g'.unique
    slotLt := g.slotLt
    frameLt := fun st h => g.frameLt st (hsub st h)
    slotOwn := g'.slotOwn
    frameOwn := fun st h => g'.frameOwn st (hsub st h)
    slotInj := g.slotInj
    slotFrame := fun i j h hf => g.slotFrame i j h (hsub _ hf)
    frameNodup := g.frameNodup.sublist (List.eraseIdx_sublist ..)
    held := fun h hh hu => by
      obtain ⟨hh, hk⟩ := mem_keep.1 hh
      rcases g.held h hh hu with b | b
      · exact .inl b
      · refine .inr ?_
        rw [List.mem_eraseIdx_iff_getElem?]
        obtain ⟨j, hj⟩ := List.mem_iff_getElem?.1 b
        refine ⟨j, ?_, hj⟩
        rintro rfl
        exact hk hj }

theorem call_good {cs : List (Nat × Comp)} {x : MSt} (g : x.st.Good cs) (c : Call) : (call cs x c).1.st.Good cs := by
  cases c with
  | openFile p m =>
    unfold call
    dsimp only
    split
    · rename_i s h e
      obtain ⟨_, h1, h2, h3, h4, _⟩ := openFile_some e
      unfold St.Good
      dsimp only
      have e : s.stores = x.st.stores := by funext j; unfold St.stores; rw [h3]
      rw [h1, h2, h4, e]
      exact Good.user g p m
    · exact g
  | closeFile h => exact Good.filter g _
  | frames p =>
    have e0 : makeStore x.st (.path p) .r none false = match openFile x.st p .r false with
      | none => (x.st, none)
      | some (s, h) => (metadata s h none, some ⟨h, true⟩) := rfl
    unfold call
    dsimp only
    rw [e0]
    cases ho : openFile x.st p .r false with
    | none => exact g
    | some q =>
      obtain ⟨s, h⟩ := q
      obtain ⟨rfl, h1, h2, h3, h4, _⟩ := openFile_some ho
      unfold St.Good
      dsimp only
      have e : ({ metadata s x.st.next none with frames := (metadata s x.st.next none).frames ++ [⟨x.st.next, true⟩] } : St).stores = x.st.stores := by
        funext j; unfold St.stores; dsimp only; rw [metadata_slots, h3]
      rw [e, metadata_handles, metadata_next, metadata_frames, h1, h2, h4]
      exact Good.frame g p
  | framesEnd k =>
    unfold call St.Good
    dsimp only
    have e : (drop { x.st with frames := x.st.frames.eraseIdx k } x.st.frames[k]?).stores = x.st.stores := by
      funext j; unfold St.stores; rw [drop_slots]
    rw [e, drop_handles, drop_next, drop_frames]
    exact Good.frameEnd g k
  | setup sc => exact (call_acts cs x (.setup sc) trivial).good g
  | reset longer sc => exact (call_acts cs x (.reset longer sc) trivial).good g
  | step sc => exact (call_acts cs x (.step sc) trivial).good g
  | run longer sc => exact (call_acts cs x (.run longer sc) trivial).good g
  | finish sc => exact (call_acts cs x (.finish sc) trivial).good g
  | edit => exact g
  | editTime => exact g

theorem fresh_good (cs disk dirs) : (fresh disk dirs).st.Good cs where
  ids := by simp [fresh]
  unique := by simp [fresh]
  slotLt i k h := by simp [fresh, St.stores] at h
  frameLt := by simp [fresh]
  slotOwn i k h := by simp [fresh, St.stores] at h
  frameOwn := by simp [fresh]
  slotInj i j k h := by simp [fresh, St.stores] at h
  slotFrame i k h := by simp [fresh]
  frameNodup := by simp [fresh]
  held := by simp [fresh]

theorem calls_good (cs : List (Nat × Comp)) {x : MSt} (g : x.st.Good cs) (l : List Call) : (calls cs x l).st.Good cs := by
  induction l generalizing x with
  | nil => exact g
  | cons c l ih => exact ih (call_good g c)

/-! ## What stays as it is -/

theorem keep_user {o : Option Store} {hs : List Handle} (h : ∀ x ∈ hs, o = some ⟨x.id, true⟩ → x.user = false) : (keep o hs).filter Handle.user = hs.filter Handle.user := by
  unfold keep
  split
  · rename_i k
    rw [List.filter_filter]
    refine List.filter_congr fun x hx => ?_
    by_cases e : x.id = k
    · have := h x hx (by rw [e])
      simp [this]
    · simp [e]
  · rfl

theorem Good.slotUser {cs hs n sl fr} (g : Good cs hs n sl fr) (i : Nat) : ∀ x ∈ hs, sl i = some ⟨x.id, true⟩ → x.user = false :=
  fun x hx e => (g.slotOwn i x.id e x hx rfl).1

/-- Components neither open nor close files for the user. -/
theorem Act.user {cs : List (Nat × Comp)} {s s' : St} (h : Act cs s s') (g : s.Good cs) : s'.handles.filter Handle.user = s.handles.filter Handle.user := by
  cases h with
  | dirs d => rfl
  | buffer i b => rfl
  | release i c hm =>
    rw [assign_handles]
    exact keep_user (Good.slotUser g i)
  | path s1 i h c p m md hm hs ha ho =>
    obtain ⟨rfl, h1, h2, h3, h4, _⟩ := openFile_some ho
    have e : (metadata s1 s.next md).stores = s.stores := by funext j; unfold St.stores; rw [metadata_slots, h3]
    rw [assign_handles, metadata_handles, h1, e, keep_user, List.filter_append]
    · simp
    · intro x hx hk
      rcases (by simpa using hx : x ∈ s.handles ∨ x = ⟨s.next, p, m, false⟩) with a | rfl
      · exact Good.slotUser g i x a hk
      · rfl
  | file i c h m md hm hs ha hh =>
    have e : (metadata s h md).stores = s.stores := by funext j; unfold St.stores; rw [metadata_slots]
    rw [assign_handles, metadata_handles, e]
    exact keep_user (Good.slotUser g i)

theorem Acts.user {cs : List (Nat × Comp)} {s s' : St} (h : Acts cs s s') (g : s.Good cs) : s'.handles.filter Handle.user = s.handles.filter Handle.user := by
  induction h with
  | refl => rfl
  | tail h1 h ih => exact (h.user (Acts.good h1 g)).trans ih

theorem Act.frames {cs : List (Nat × Comp)} {s s' : St} (h : Act cs s s') : s'.frames = s.frames := by
  cases h with
  | dirs d => rfl
  | buffer i b => rfl
  | release i c hm => simp
  | path s1 i h c p m md hm hs ha ho =>
    obtain ⟨rfl, h1, h2, h3, h4, _⟩ := openFile_some ho
    simp [h4]
  | file i c h m md hm hs ha hh => simp

theorem Acts.frames {cs : List (Nat × Comp)} {s s' : St} (h : Acts cs s s') : s'.frames = s.frames := by
  induction h with
  | refl => rfl
  | tail h1 h ih => exact h.frames.trans ih

theorem Act.next {cs : List (Nat × Comp)} {s s' : St} (h : Act cs s s') : s.next ≤ s'.next := by
  cases h with
  | dirs d => exact Nat.le_refl _
  | buffer i b => exact Nat.le_refl _
  | release i c hm => simp
  | path s1 i h c p m md hm hs ha ho =>
    obtain ⟨rfl, h1, h2, h3, h4, _⟩ := openFile_some ho
    simp [h2]
  | file i c h m md hm hs ha hh => simp

/-- Directories stay. -/
theorem Act.hasDir {cs : List (Nat × Comp)} {s s' : St} (h : Act cs s s') (d : Dir) (hd : s.hasDir d = true) : s'.hasDir d = true := by
  cases h with
  | dirs d' =>
    unfold St.hasDir at *
    simp only [Bool.or_eq_true, List.contains_iff_mem, List.mem_append] at *
    tauto
  | buffer i b => exact hd
  | release i c hm => simpa [St.hasDir] using hd
  | path s1 i h c p m md hm hs ha ho =>
    obtain ⟨rfl, h1, h2, h3, h4, h5, _⟩ := openFile_some ho
    simpa [St.hasDir, h5] using hd
  | file i c h m md hm hs ha hh => simpa [St.hasDir] using hd

theorem metadata_isSome (s h md q) : ((metadata s h md).disk q).isSome = (s.disk q).isSome := by
  unfold metadata
  split
  · split
    · rfl
    · dsimp only
      split <;> simp
  · rfl

/-- Files stay. -/
theorem Act.exists {cs : List (Nat × Comp)} {s s' : St} (h : Act cs s s') (q : Path) (hd : (s.disk q).isSome) : (s'.disk q).isSome := by
  cases h with
  | dirs d' => exact hd
  | buffer i b => exact hd
  | release i c hm => simpa using hd
  | path s1 i h c p m md hm hs ha ho =>
    obtain ⟨rfl, h1, h2, h3, h4, h5, h6, h7, _⟩ := openFile_some ho
    rw [assign_disk, metadata_isSome]
    by_cases e : q = p
    · rw [e]; exact h7
    · rw [h6 q e]; exact hd
  | file i c h m md hm hs ha hh =>
    rw [assign_disk, metadata_isSome]; exact hd

theorem Acts.exists {cs : List (Nat × Comp)} {s s' : St} (h : Acts cs s s') (q : Path) (hd : (s.disk q).isSome) : (s'.disk q).isSome := by
  induction h with
  | refl => exact hd
  | tail h1 h ih => exact h.exists q ih

theorem handle_mem {s : St} {h : Nat} {x : Handle} (e : s.handle h = some x) : x ∈ s.handles ∧ x.id = h := by
  unfold St.handle at e
  exact ⟨List.mem_of_find?_eq_some e, by simpa using List.find?_some e⟩

theorem metadata_disk {s : St} {h : Nat} {md} {q : Path} (hq : ∀ x ∈ s.handles, x.id = h → x.path ≠ q) : (metadata s h md).disk q = s.disk q := by
  unfold metadata
  split
  · rename_i x l e
    obtain ⟨a, b⟩ := handle_mem e
    split
    · rfl
    · exact if_neg fun e => hq x a b e.symm
  · rfl

theorem metadata_none (s h) : metadata s h none = s := by
  unfold metadata
  split
  · rename_i e; cases e
  · rfl

theorem Act.handles {cs : List (Nat × Comp)} {s s' : St} (h : Act cs s s') (x : Handle) (hx : x ∈ s'.handles) : x ∈ s.handles ∨ x.id = s.next := by
  cases h with
  | dirs d' => exact .inl hx
  | buffer i b => exact .inl hx
  | release i c hm => rw [assign_handles] at hx; exact .inl (mem_keep.1 hx).1
  | path s1 i h c p m md hm hs ha ho =>
    obtain ⟨rfl, h1, h2, h3, h4, h5, h6, h7, _⟩ := openFile_some ho
    rw [assign_handles, metadata_handles, h1] at hx
    rcases (by simpa using (mem_keep.1 hx).1 : x ∈ s.handles ∨ x = ⟨s.next, p, m, false⟩) with a | rfl
    · exact .inl a
    · exact .inr rfl
  | file i c h m md hm hs ha hh =>
    rw [assign_handles, metadata_handles] at hx; exact .inl (mem_keep.1 hx).1

/-- Numbers of open files have been given out. -/
def IdsLt (s : St) : Prop := ∀ x ∈ s.handles, x.id < s.next

theorem Act.idsLt {cs : List (Nat × Comp)} {s s' : St} (h : Act cs s s') (g : IdsLt s) : IdsLt s' := by
  intro x hx
  cases h with
  | dirs d' => exact g x hx
  | buffer i b => exact g x hx
  | release i c hm => rw [assign_handles] at hx; rw [assign_next]; exact g x (mem_keep.1 hx).1
  | path s1 i h c p m md hm hs ha ho =>
    obtain ⟨rfl, h1, h2, h3, h4, h5, h6, h7, _⟩ := openFile_some ho
    rw [assign_handles, metadata_handles, h1] at hx
    rw [assign_next, metadata_next, h2]
    rcases (by simpa using (mem_keep.1 hx).1 : x ∈ s.handles ∨ x = ⟨s.next, p, m, false⟩) with a | rfl
    · exact Nat.lt_succ_of_lt (g x a)
    · exact Nat.lt_succ_self _
  | file i c h m md hm hs ha hh =>
    rw [assign_handles, metadata_handles] at hx; rw [assign_next, metadata_next]; exact g x (mem_keep.1 hx).1

theorem Acts.idsLt {cs : List (Nat × Comp)} {s s' : St} (h : Acts cs s s') (g : IdsLt s) : IdsLt s' := by
  induction h with
  | refl => exact g
  | tail _ h ih => exact h.idsLt ih

theorem Act.untouched {cs : List (Nat × Comp)} {s s' : St} (h : Act cs s s') (g : IdsLt s) (q : Path) (hq : ¬ Writes cs s q) : s'.disk q = s.disk q ∧ ¬ Writes cs s' q := by
  refine ⟨?_, ?_⟩
  · cases h with
    | dirs d' => rfl
    | buffer i b => rfl
    | release i c hm => simp
    | path s1 i h c p m md hm hs ha ho =>
      obtain ⟨rfl, h1, h2, h3, h4, h5, h6, h7, h8, h9, h10, _⟩ := openFile_some ho
      rw [assign_disk]
      have hm' : (metadata s1 s.next md).disk q = s1.disk q := by
        cases c with
        | recorder r =>
          refine metadata_disk fun x hx hid hp => ?_
          rw [h1] at hx
          rcases (by simpa using hx : x ∈ s.handles ∨ x = ⟨s.next, p, m, false⟩) with a | rfl
          · exact absurd hid (Nat.ne_of_lt (g x a))
          · exact hq ⟨i, r, hm, .inl (by rw [← hp]; simpa [Comp.source] using hs)⟩
        | reader src => rw [ha.2, metadata_none]
        | plain => exact ha.elim
      rw [hm']
      by_cases e : q = p
      · subst e
        cases c with
        | recorder r => exact absurd ⟨i, r, hm, .inl (by simpa [Comp.source] using hs)⟩ hq
        | reader src => exact h8 (by rw [ha.1]; decide) (h10 (.inl ha.1))
        | plain => exact ha.elim
      · exact h6 q e
    | file i c h m md hm hs ha hh =>
      rw [assign_disk]
      cases c with
      | recorder r =>
        refine metadata_disk fun x hx hid hp => hq ⟨i, r, hm, .inr ⟨h, by simpa [Comp.source] using hs, .inr ⟨x, hx, hid, hp⟩⟩⟩
      | reader src => rw [ha.2, metadata_none]
      | plain => exact ha.elim
  · rintro ⟨i, r, hm, hr⟩
    refine hq ⟨i, r, hm, ?_⟩
    rcases hr with hr | ⟨k, hr, hk⟩
    · exact .inl hr
    · refine .inr ⟨k, hr, ?_⟩
      rcases hk with hk | ⟨x, hx, hid, hp⟩
      · exact .inl (Nat.le_trans h.next hk)
      · rcases h.handles x hx with a | a
        · exact .inr ⟨x, a, hid, hp⟩
        · exact .inl (by omega)

theorem Acts.untouched {cs : List (Nat × Comp)} {s s' : St} (h : Acts cs s s') (g : IdsLt s) (q : Path) (hq : ¬ Writes cs s q) : s'.disk q = s.disk q ∧ ¬ Writes cs s' q := by
  induction h with
  | refl => exact ⟨rfl, hq⟩
  | tail h1 h ih =>
    have := h.untouched (Acts.idsLt h1 g) q ih.2
    exact ⟨this.1.trans ih.1, this.2⟩

/-! ## Stores only in slots of components with files -/

def Only (cs : List (Nat × Comp)) (s : St) : Prop := ∀ i, s.stores i ≠ none → ∃ c, (i, c) ∈ cs ∧ c.source.isSome

theorem Act.only {cs : List (Nat × Comp)} {s s' : St} (h : Act cs s s') (g : Only cs s) : Only cs s' := by
  cases h with
  | dirs d' => exact g
  | buffer i b =>
    unfold Only
    rw [setBuffer_stores]; exact g
  | release i c hm =>
    intro j hj
    rw [assign_stores] at hj
    dsimp only at hj
    split at hj
    · exact absurd rfl hj
    · exact g j hj
  | path s1 i h c p m md hm hs ha ho =>
    obtain ⟨rfl, h1, h2, h3, h4, h5, h6, h7, _⟩ := openFile_some ho
    intro j hj
    have e : (metadata s1 s.next md).stores = s.stores := by funext j; unfold St.stores; rw [metadata_slots, h3]
    rw [assign_stores, e] at hj
    dsimp only at hj
    split at hj
    · rename_i ej; subst ej; exact ⟨c, hm, by simp [hs]⟩
    · exact g j hj
  | file i c h m md hm hs ha hh =>
    intro j hj
    have e : (metadata s h md).stores = s.stores := by funext j; unfold St.stores; rw [metadata_slots]
    rw [assign_stores, e] at hj
    dsimp only at hj
    split at hj
    · rename_i ej; subst ej; exact ⟨c, hm, by simp [hs]⟩
    · exact g j hj

theorem Acts.only {cs : List (Nat × Comp)} {s s' : St} (h : Acts cs s s') (g : Only cs s) : Only cs s' := by
  induction h with
  | refl => exact g
  | tail h1 h ih => exact h.only ih

theorem call_only {cs : List (Nat × Comp)} {x : MSt} (g : Only cs x.st) (c : Call) : Only cs (call cs x c).1.st := by
  cases c with
  | openFile p m =>
    unfold call
    dsimp only
    split
    · rename_i s h e
      obtain ⟨_, h1, h2, h3, h4, _⟩ := openFile_some e
      have e : s.stores = x.st.stores := by funext j; unfold St.stores; rw [h3]
      unfold Only
      dsimp only
      rw [e]; exact g
    · exact g
  | closeFile h => exact g
  | frames p =>
    have e0 : makeStore x.st (.path p) .r none false = match openFile x.st p .r false with
      | none => (x.st, none)
      | some (s, h) => (metadata s h none, some ⟨h, true⟩) := rfl
    unfold call
    dsimp only
    rw [e0]
    cases ho : openFile x.st p .r false with
    | none => exact g
    | some q =>
      obtain ⟨s, h⟩ := q
      obtain ⟨rfl, h1, h2, h3, h4, _⟩ := openFile_some ho
      have e : ({ metadata s x.st.next none with frames := (metadata s x.st.next none).frames ++ [⟨x.st.next, true⟩] } : St).stores = x.st.stores := by
        funext j; unfold St.stores; dsimp only; rw [metadata_slots, h3]
      unfold Only
      rw [e]; exact g
  | framesEnd k =>
    have e : (drop { x.st with frames := x.st.frames.eraseIdx k } x.st.frames[k]?).stores = x.st.stores := by
      funext j; unfold St.stores; rw [drop_slots]
    unfold Only call
    dsimp only
    rw [e]; exact g
  | setup sc => exact (call_acts cs x (.setup sc) trivial).only g
  | reset longer sc => exact (call_acts cs x (.reset longer sc) trivial).only g
  | step sc => exact (call_acts cs x (.step sc) trivial).only g
  | run longer sc => exact (call_acts cs x (.run longer sc) trivial).only g
  | finish sc => exact (call_acts cs x (.finish sc) trivial).only g
  | edit => exact g
  | editTime => exact g

theorem calls_only (cs : List (Nat × Comp)) {x : MSt} (g : Only cs x.st) (l : List Call) : Only cs (calls cs x l).st := by
  induction l generalizing x with
  | nil => exact g
  | cons c l ih => exact ih (call_only g c)

theorem fresh_only (cs disk dirs) : Only cs (fresh disk dirs).st := fun _ h => absurd rfl h

/-! ## Finishing -/

theorem finish_stores (c : Comp) (i : Nat) (cur ok : Bool) (s : St) (h : (c.finish i cur ok s).2 = true) :
    (∀ j, s.stores j = none → (c.finish i cur ok s).1.stores j = none) ∧ (c.source.isSome → (c.finish i cur ok s).1.stores i = none) := by
  have ha : (∀ j, s.stores j = none → (assign s i none).stores j = none) ∧ ((assign s i none).stores i = none) := by
    rw [assign_stores]
    refine ⟨fun j hj => ?_, if_pos rfl⟩
    dsimp only
    split
    · rfl
    · exact hj
  cases c with
  | recorder r =>
    dsimp only [Comp.finish] at h ⊢
    split at h
    · cases h
    · rename_i hc
      rw [if_neg hc]
      exact ⟨ha.1, fun _ => ha.2⟩
  | reader src => exact ⟨ha.1, fun _ => ha.2⟩
  | plain => exact ⟨fun _ h => h, fun h => by cases h⟩

theorem each_finish (cur : Bool) (sc : Script) (l : List (Nat × Comp)) (s : St) (h : (each (fun i s c => c.finish i cur (sc.finish i) s) l s).2 = true) :
    (∀ j, s.stores j = none → (each (fun i s c => c.finish i cur (sc.finish i) s) l s).1.stores j = none) ∧
    ∀ i c, (i, c) ∈ l → c.source.isSome → (each (fun i s c => c.finish i cur (sc.finish i) s) l s).1.stores i = none := by
  induction l generalizing s with
  | nil => exact ⟨fun _ h => h, by simp⟩
  | cons x l ih =>
    obtain ⟨i, c⟩ := x
    have hf := finish_stores c i cur (sc.finish i) s
    unfold each at h ⊢
    generalize c.finish i cur (sc.finish i) s = q at hf h ⊢
    obtain ⟨s1, ok⟩ := q
    cases ok with
    | false => cases h
    | true =>
      dsimp only at h ⊢
      have := ih s1 h
      have hf := hf rfl
      refine ⟨fun j hj => this.1 j (hf.1 j hj), ?_⟩
      intro k c' hm hs
      rcases List.mem_cons.1 hm with e | hm
      · cases e; exact this.1 i (hf.2 hs)
      · exact this.2 k c' hm hs

theorem modelFinish_closed {cs : List (Nat × Comp)} {x : MSt} (g : Only cs x.st) (sc : Script) (h : (modelFinish cs sc x).2 = true) : Closed (modelFinish cs sc x).1.st := by
  intro i
  have hf := each_finish x.current sc cs x.st h
  show (each (fun i s c => c.finish i x.current (sc.finish i) s) cs x.st).1.stores i = none
  by_cases e : x.st.stores i = none
  · exact hf.1 i e
  · obtain ⟨c, hm, hs⟩ := g i e
    exact hf.2 i c hm hs

/-! ## Nothing is refused -/

theorem Act.free {cs : List (Nat × Comp)} {s s' : St} (h : Act cs s s') (g : s.Good cs) (f : Free cs s) : Free cs s' where
  others x hx hu := by
    have hfr := h.frames
    rcases h.handles x hx with a | a
    · refine f.others x a ?_
      rcases hu with hu | hu
      · exact .inl hu
      · exact .inr ⟨by rw [← hfr]; exact hu.1, hu.2⟩
    · exfalso
      have g' := h.good g
      rcases hu with hu | hu
      · have : x ∈ s'.handles.filter Handle.user := List.mem_filter.2 ⟨hx, hu⟩
        rw [h.user g] at this
        exact absurd (g.ids x (List.mem_filter.1 this).1) (by omega)
      · have := (g.frameLt _ (by rw [← hfr]; exact hu.1)).2
        exact absurd this (by simp only; omega)
  dirs i r p hm hs := by
    have := f.dirs i r p hm hs
    split
    · rename_i hc; rw [if_pos hc] at this; exact this
    · rename_i hc; rw [if_neg hc] at this; exact h.hasDir _ this
  data i p hm := h.exists p (f.data i p hm)

theorem Acts.free {cs : List (Nat × Comp)} {s s' : St} (h : Acts cs s s') (g : s.Good cs) (f : Free cs s) : Free cs s' := by
  induction h with
  | refl => exact f
  | tail h1 h ih => exact h.free (Acts.good h1 g) ih

theorem above_self (d : Dir) : d ∈ d.above := by
  unfold Dir.above
  exact List.mem_map.2 ⟨d.parts.length, by simp, by simp⟩

theorem directories_ok (s : St) (b : Bool) (p : Path) (h : if b then ¬ p.Bare else s.hasDir p.dir = true) :
    ∃ s1, directories s b p = some s1 ∧ s1.hasDir p.dir = true ∧ s1.handles = s.handles ∧ s1.disk = s.disk ∧ s1.next = s.next ∧ s1.slots = s.slots := by
  unfold directories
  cases b with
  | false => exact ⟨s, rfl, by simpa using h, rfl, rfl, rfl, rfl⟩
  | true =>
    rw [if_pos rfl]
    rw [if_pos rfl] at h
    unfold makedirs
    rw [if_neg (show ¬ (p.dir.absolute = false ∧ p.dir.parts = []) from h)]
    by_cases hd : s.hasDir p.dir = true
    · rw [if_pos hd]; exact ⟨s, rfl, hd, rfl, rfl, rfl, rfl⟩
    · rw [if_neg hd]
      refine ⟨_, rfl, ?_, rfl, rfl, rfl, rfl⟩
      unfold St.hasDir
      simp [above_self]

/-- What a mode needs to be there. -/
def There (s : St) (p : Path) : Mode → Prop
  | .r | .rPlus => (s.disk p).isSome = true
  | .a | .w => s.hasDir p.dir = true

theorem openFile_ok (s : St) (p : Path) (m : Mode) (u : Bool) (hc : ∀ x ∈ s.handles, x.path = p → conflict m x.mode = false)
    (ht : There s p m) : ∃ s1, openFile s p m u = some (s1, s.next) := by
  unfold openFile
  rw [if_neg ?_]
  · cases m <;> dsimp only [There] at ht ⊢ <;> rw [if_pos ht] <;> exact ⟨_, rfl⟩
  · simp only [List.any_eq_true, Bool.and_eq_true, beq_iff_eq, not_exists, not_and, Bool.not_eq_true]
    exact hc

/-- What a component's opening of its file comes to, if nothing is in the way. -/
theorem acquire_ok (s : St) (i : Nat) (p : Path) (m : Mode) (md) (b : Bool) (hc : ∀ x ∈ s.handles, x.path = p → conflict m x.mode = false)
    (hw : m = .w ∨ m = .a → if b then ¬ p.Bare else s.hasDir p.dir = true) (hr : m = .r ∨ m = .rPlus → (s.disk p).isSome ∧ b = false) :
    ∃ s', acquire s i (.path p) m md b = (s', true) ∧ s'.stores = (fun j => if j = i then some ⟨s.next, true⟩ else s.stores j) ∧ (s'.disk p).isSome := by
  have key : ∃ s1, directories s b p = some s1 ∧ s1.handles = s.handles ∧ s1.next = s.next ∧ s1.slots = s.slots ∧ There s1 p m := by
    by_cases h : m = .w ∨ m = .a
    · obtain ⟨s1, h1, h2, h3, h4, h5, h6⟩ := directories_ok s b p (hw h)
      refine ⟨s1, h1, h3, h5, h6, ?_⟩
      rcases h with rfl | rfl <;> exact h2
    · have h' : m = .r ∨ m = .rPlus := by cases m <;> simp_all
      obtain ⟨a, rfl⟩ := hr h'
      refine ⟨s, rfl, rfl, rfl, rfl, ?_⟩
      rcases h' with rfl | rfl <;> exact a
  obtain ⟨s1, h1, h3, h4, h5, h6⟩ := key
  obtain ⟨s2, h7⟩ := openFile_ok s1 p m false (by rw [h3]; exact hc) h6
  unfold acquire makeStore
  dsimp only
  rw [h1]
  dsimp only
  rw [h7]
  obtain ⟨-, -, -, a3, -, -, -, a7, _⟩ := openFile_some h7
  refine ⟨_, rfl, ?_, ?_⟩
  · rw [assign_stores]
    funext j
    unfold St.stores
    rw [metadata_slots, a3, h5, h4]
  · rw [assign_disk, metadata_isSome]; exact a7

theorem Apart.same {cs : List (Nat × Comp)} (a : Apart cs) {i : Nat} {c c' : Comp} (h : (i, c) ∈ cs) (h' : (i, c') ∈ cs) : c = c' := by
  have := a.numbers
  revert h h'
  clear a
  induction cs with
  | nil => simp
  | cons x l ih =>
    rw [List.map_cons, List.nodup_cons] at this
    intro h h'
    rcases List.mem_cons.1 h with e | h <;> rcases List.mem_cons.1 h' with e' | h'
    · rw [← e] at e'; cases e'; rfl
    · exact absurd (List.mem_map.2 ⟨_, h', by rw [← e]⟩) this.1
    · exact absurd (List.mem_map.2 ⟨_, h, by rw [← e']⟩) this.1
    · exact ih this.2 h h'

theorem Comp.Mine.source {c : Comp} {x : Handle} (h : c.Mine x) : c.source = some (.path x.path) := by
  cases c with
  | recorder r => exact congrArg some h.1
  | reader src => exact congrArg some h.1
  | plain => exact h.elim

/-- The open files of the name of a recorder are its own. -/
theorem recorder_own {cs : List (Nat × Comp)} {s : St} (a : Apart cs) (g : s.Good cs) (f : Free cs s) {i : Nat} {r : Recorder} {p : Path} (hm : (i, Comp.recorder r) ∈ cs) (hs : r.source = .path p)
    {x : Handle} (hx : x ∈ s.handles) (hp : x.path = p) : s.stores i = some ⟨x.id, true⟩ ∧ x.mode ≠ .r := by
  by_cases hu : x.user = true
  · obtain ⟨⟨src, e⟩, _⟩ := f.others x hx (.inl hu) i _ hm (by rw [hp, ← hs]; rfl)
    cases e
  · have hu : x.user = false := by simpa using hu
    rcases g.held x hx hu with ⟨j, hj⟩ | hf
    · obtain ⟨_, c, hc, hmine⟩ := g.slotOwn j x.id hj x hx rfl
      have e := a.own i r j c hm hc (by rw [hmine.source, hp, hs])
      subst e
      have := a.same hm hc
      subst this
      refine ⟨hj, ?_⟩
      rcases hmine.2 with e | e
      · rcases a.modes i r hm with e' | e' <;> rw [e, e'] <;> decide
      · rw [e]; decide
    · obtain ⟨_, hmode⟩ := g.frameOwn _ hf x hx rfl
      obtain ⟨⟨src, e⟩, _⟩ := f.others x hx (.inr ⟨hf, hmode⟩) i _ hm (by rw [hp, ← hs]; rfl)
      cases e

/-- The open files of the name of a parameter's data are open for reading. -/
theorem reader_own {cs : List (Nat × Comp)} {s : St} (a : Apart cs) (g : s.Good cs) (f : Free cs s) {i : Nat} {p : Path} (hm : (i, Comp.reader (.path p)) ∈ cs)
    {x : Handle} (hx : x ∈ s.handles) (hp : x.path = p) : x.mode = .r := by
  by_cases hu : x.user = true
  · exact (f.others x hx (.inl hu) i _ hm (by rw [hp]; rfl)).2
  · have hu : x.user = false := by simpa using hu
    rcases g.held x hx hu with ⟨j, hj⟩ | hf
    · obtain ⟨_, c, hc, hmine⟩ := g.slotOwn j x.id hj x hx rfl
      cases c with
      | recorder r =>
        have e := a.own j r i _ hc hm (by rw [hmine.1, hp]; rfl)
        subst e
        cases a.same hm hc
      | reader src => exact hmine.2
      | plain => exact hmine.elim
    · exact (g.frameOwn _ hf x hx rfl).2

theorem setup_ok {cs : List (Nat × Comp)} {s : St} (a : Apart cs) (g : s.Good cs) (f : Free cs s) {i : Nat} {c : Comp} (hm : (i, c) ∈ cs) (hn : ∀ r, c = .recorder r → s.stores i = none) :
    (c.setup i .ok s).2 = true ∧ (∀ j, (j ≠ i ∨ ∃ r, c = .recorder r) → s.stores j = none → (c.setup i .ok s).1.stores j = none) ∧
    ∀ r p, c = .recorder r → r.source = .path p → ((c.setup i .ok s).1.disk p).isSome := by
  cases c with
  | recorder r =>
    obtain ⟨p, hp⟩ := a.named i _ r.source hm rfl
    obtain ⟨s', e1, e2, e3⟩ := acquire_ok s i p r.mode (some r.attributes) r.create
      (fun x hx hxp => by have := (recorder_own a g f hm hp hx hxp).1; rw [hn r rfl] at this; cases this)
      (fun _ => f.dirs i r p hm hp)
      (fun h => by rcases h with h | h <;> rcases a.modes i r hm with h' | h' <;> rw [h] at h' <;> cases h')
    dsimp only [Comp.setup]
    rw [hp, e1]
    dsimp only
    refine ⟨rfl, ?_, ?_⟩
    · intro j _ hj
      rw [assign_stores]
      dsimp only
      split
      · rfl
      · rename_i hji
        rw [setBuffer_stores, e2]
        dsimp only
        rw [if_neg hji]; exact hj
    · intro r' p' er hs
      cases er
      rw [hp] at hs
      cases hs
      rw [assign_disk]
      exact e3
  | reader src =>
    obtain ⟨p, rfl⟩ := a.named i _ src hm rfl
    obtain ⟨s', e1, e2, e3⟩ := acquire_ok s i p .r none false
      (fun x hx hxp => by rw [reader_own a g f hm hx hxp]; rfl)
      (fun h => by rcases h with h | h <;> cases h)
      (fun _ => ⟨f.data i p hm, rfl⟩)
    dsimp only [Comp.setup]
    rw [e1]
    dsimp only
    refine ⟨by simp, ?_, ?_⟩
    · intro j hj hjn
      rcases hj with hj | ⟨r, hj⟩
      · rw [e2]; dsimp only; rw [if_neg hj]; exact hjn
      · cases hj
    · intro r p hr; cases hr
  | plain => exact ⟨by simp [Comp.setup], fun j _ h => h, fun r p hr => by cases hr⟩

theorem reset_ok {cs : List (Nat × Comp)} {s : St} (a : Apart cs) (g : s.Good cs) (f : Free cs s) {i : Nat} {c : Comp} (hm : (i, c) ∈ cs)
    (he : ∀ r p, c = .recorder r → r.source = .path p → (s.disk p).isSome) :
    (c.reset i true s).2 = true ∧ ∀ j, j ≠ i → (c.reset i true s).1.stores j = s.stores j := by
  cases c with
  | recorder r =>
    obtain ⟨p, hp⟩ := a.named i _ r.source hm rfl
    obtain ⟨s', e1, e2, e3⟩ := acquire_ok s i p .rPlus none false
      (fun x hx hxp => by have := (recorder_own a g f hm hp hx hxp).2; revert this; cases x.mode <;> simp [conflict])
      (fun h => by rcases h with h | h <;> cases h)
      (fun _ => ⟨he r p rfl hp, rfl⟩)
    dsimp only [Comp.reset]
    rw [hp, e1]
    dsimp only
    refine ⟨rfl, ?_⟩
    intro j hj
    rw [e2]; exact if_neg hj
  | reader src => exact ⟨rfl, fun _ _ => rfl⟩
  | plain => exact ⟨rfl, fun _ _ => rfl⟩

theorem finish_ok (i : Nat) (c : Comp) (s : St) : (c.finish i true true s).2 = true := by
  cases c with
  | recorder r => simp [Comp.finish]
  | reader src => rfl
  | plain => rfl

theorem each_setup_ok {cs : List (Nat × Comp)} (a : Apart cs) {sc : Script} (hsc : sc.Fine) (l : List (Nat × Comp)) (hl : ∀ x ∈ l, x ∈ cs) (hd : (l.map Prod.fst).Nodup) (s : St) (g : s.Good cs) (f : Free cs s)
    (hn : ∀ i r, (i, Comp.recorder r) ∈ l → s.stores i = none) :
    (each (fun i s c => c.setup i (sc.setup i) s) l s).2 = true := by
  induction l generalizing s with
  | nil => rfl
  | cons x l ih =>
    obtain ⟨i, c⟩ := x
    have hm : (i, c) ∈ cs := hl _ (by simp)
    have h := setup_ok a g f hm (fun r e => hn i r (by simp [e]))
    have ha := setup_acts hm .ok s
    unfold each
    rw [hsc.setup i]
    generalize c.setup i .ok s = q at h ha ⊢
    obtain ⟨s1, ok⟩ := q
    obtain ⟨rfl, h2, h3⟩ := h
    dsimp only at ha h2 ⊢
    rw [List.map_cons, List.nodup_cons] at hd
    refine ih (fun x hx => hl x (by simp [hx])) hd.2 s1 (ha.good g) (ha.free g f) ?_
    intro j r hj
    refine h2 j (.inl ?_) (hn j r (by simp [hj]))
    rintro rfl
    exact hd.1 (List.mem_map.2 ⟨_, hj, rfl⟩)

theorem each_reset_ok {cs : List (Nat × Comp)} (a : Apart cs) {sc : Script} (hsc : sc.Fine) (longer : Bool) (l : List (Nat × Comp)) (hl : ∀ x ∈ l, x ∈ cs) (hd : (l.map Prod.fst).Nodup)
    (s : St) (g : s.Good cs) (f : Free cs s)
    (he : longer = false → ∀ i r p, (i, Comp.recorder r) ∈ l → r.source = .path p → (s.disk p).isSome) (hn : longer = true → ∀ i r, (i, Comp.recorder r) ∈ l → s.stores i = none) :
    (each (fun i s c => if longer then (match c.setup i (sc.setup i) s with
        | (s, true) => c.reset i (sc.reset i) s
        | (s, false) => (s, false)) else c.reset i (sc.reset i) s) l s).2 = true := by
  induction l generalizing s with
  | nil => rfl
  | cons x l ih =>
    obtain ⟨i, c⟩ := x
    have hm : (i, c) ∈ cs := hl _ (by simp)
    have hd' := hd
    rw [List.map_cons, List.nodup_cons] at hd'
    unfold each
    rw [hsc.setup i, hsc.reset i]
    cases longer with
    | false =>
      have h := reset_ok a g f hm (fun r p e hs => he rfl i r p (by simp [e]) hs)
      have ha := reset_acts hm true s
      simp only [Bool.false_eq_true, if_false] at ih ⊢
      generalize c.reset i true s = q at h ha ⊢
      obtain ⟨s1, ok⟩ := q
      obtain ⟨rfl, h2⟩ := h
      dsimp only at ha h2 ⊢
      exact ih (fun x hx => hl x (by simp [hx])) hd'.2 s1 (ha.good g) (ha.free g f) (fun _ j r p hj hs => ha.exists p (he rfl j r p (by simp [hj]) hs)) (fun e => by cases e)
    | true =>
      have h := setup_ok a g f hm (fun r e => hn rfl i r (by simp [e]))
      have ha := setup_acts hm .ok s
      simp only [if_true] at ih ⊢
      generalize c.setup i .ok s = q at h ha ⊢
      obtain ⟨s1, ok⟩ := q
      obtain ⟨rfl, h2, h3⟩ := h
      dsimp only at ha h2 h3 ⊢
      have h' := reset_ok a (ha.good g) (ha.free g f) hm h3
      have ha' := reset_acts hm true s1
      generalize c.reset i true s1 = q at h' ha' ⊢
      obtain ⟨s2, ok⟩ := q
      obtain ⟨rfl, h2'⟩ := h'
      dsimp only at ha' h2' ⊢
      refine ih (fun x hx => hl x (by simp [hx])) hd'.2 s2 (ha'.good (ha.good g)) (ha'.free (ha.good g) (ha.free g f)) (fun e => by cases e) ?_
      intro _ j r hj
      have hji : j ≠ i := by
        rintro rfl
        exact hd'.1 (List.mem_map.2 ⟨_, hj, rfl⟩)
      rw [h2' j hji]
      exact h2 j (.inl hji) (hn rfl j r (by simp [hj]))

theorem each_finish_ok {sc : Script} (hsc : sc.Fine) (l : List (Nat × Comp)) (s : St) : (each (fun i s c => c.finish i true (sc.finish i) s) l s).2 = true := by
  induction l generalizing s with
  | nil => rfl
  | cons x l ih =>
    obtain ⟨i, c⟩ := x
    have h := finish_ok i c s
    unfold each
    rw [hsc.finish i]
    generalize c.finish i true true s = q at h ⊢
    obtain ⟨s1, ok⟩ := q
    dsimp only at h
    subst h
    exact ih s1

/-- After a loop of `setup` the files of the recorders exist. -/
theorem setup_exists {i : Nat} {r : Recorder} {p : Path} (hs : r.source = .path p) (b : Body) (s : St) (h : ((Comp.recorder r).setup i b s).2 = true) :
    (((Comp.recorder r).setup i b s).1.disk p).isSome := by
  dsimp only [Comp.setup] at h ⊢
  rw [hs] at h ⊢
  have key : ∀ s1, acquire s i (.path p) r.mode (some r.attributes) r.create = (s1, true) → (s1.disk p).isSome := by
    intro s1 e
    unfold acquire makeStore at e
    dsimp only at e
    cases hd : directories s r.create p with
    | none => rw [hd] at e; cases e
    | some s0 =>
      rw [hd] at e
      dsimp only at e
      cases ho : openFile s0 p r.mode false with
      | none => rw [ho] at e; cases e
      | some q =>
        obtain ⟨s2, k⟩ := q
        rw [ho] at e
        cases e
        obtain ⟨-, -, -, -, -, -, -, a7, _⟩ := openFile_some ho
        rw [assign_disk, metadata_isSome]; exact a7
  generalize acquire s i (.path p) r.mode (some r.attributes) r.create = q at h key ⊢
  obtain ⟨s1, ok⟩ := q
  cases ok with
  | false => cases h
  | true =>
    have := key s1 rfl
    cases b with
    | ok => rw [assign_disk]; exact this
    | early => cases h
    | late => cases h

theorem each_setup_exists {cs : List (Nat × Comp)} (sc : Script) (l : List (Nat × Comp)) (hl : ∀ x ∈ l, x ∈ cs) (s : St) (h : (each (fun i s c => c.setup i (sc.setup i) s) l s).2 = true) :
    ∀ i r p, (i, Comp.recorder r) ∈ l → r.source = .path p → ((each (fun i s c => c.setup i (sc.setup i) s) l s).1.disk p).isSome := by
  induction l generalizing s with
  | nil => simp
  | cons x l ih =>
    obtain ⟨i, c⟩ := x
    have ha := fun s1 => each_acts (cs := cs) (f := fun i s c => c.setup i (sc.setup i) s) l (fun x hx => hl x (by simp [hx])) (fun i c s hm => setup_acts (hl _ (by simp [hm])) _ s) s1
    have he : ∀ r p, c = .recorder r → r.source = .path p → (c.setup i (sc.setup i) s).2 = true → ((c.setup i (sc.setup i) s).1.disk p).isSome := by
      rintro r p rfl hs hr
      exact setup_exists hs _ s hr
    unfold each at h ⊢
    generalize c.setup i (sc.setup i) s = q at h he ⊢
    obtain ⟨s1, ok⟩ := q
    cases ok with
    | false => cases h
    | true =>
      dsimp only at h he ⊢
      intro j r p hj hs
      rcases List.mem_cons.1 hj with e | hj
      · cases e
        exact (ha s1).exists p (he r p rfl hs rfl)
      · exact ih (fun x hx => hl x (by simp [hx])) s1 h j r p hj hs

/-- A model that is not dirty has made the files of its recorders. -/
def Made (cs : List (Nat × Comp)) (x : MSt) : Prop := x.dirty = false → ∀ i r p, (i, Comp.recorder r) ∈ cs → r.source = .path p → (x.st.disk p).isSome

theorem modelReset_dirty (cs longer sc x) : (modelReset cs longer sc x).1.dirty = x.dirty := by
  unfold modelReset; split <;> rfl

theorem modelFinish_dirty (cs sc x) : (modelFinish cs sc x).1.dirty = x.dirty := rfl

theorem Made.acts {cs : List (Nat × Comp)} {x y : MSt} (m : Made cs x) (h : Acts cs x.st y.st) (e : y.dirty = x.dirty) : Made cs y :=
  fun hd i r p hm hs => h.exists p (m (by rw [← e]; exact hd) i r p hm hs)

theorem modelSetup_made {cs : List (Nat × Comp)} {x : MSt} (m : Made cs x) (sc : Script) : Made cs (modelSetup cs sc x).1 := by
  have h0 := modelSetup_acts cs sc x
  unfold modelSetup at h0 ⊢
  split
  · rename_i hst
    rw [if_pos hst] at h0
    have he := each_setup_exists (cs := cs) sc cs (fun _ h => h) x.st
    generalize each (fun i s c => c.setup i (sc.setup i) s) cs x.st = q at h0 he ⊢
    obtain ⟨s1, ok⟩ := q
    cases ok with
    | false => exact m.acts h0 rfl
    | true =>
      dsimp only at h0 he ⊢
      have hr := modelReset_acts cs false sc { x with st := s1, timeDirty := false }
      have hd := modelReset_dirty cs false sc { x with st := s1, timeDirty := false }
      generalize modelReset cs false sc { x with st := s1, timeDirty := false } = q at h0 hr hd ⊢
      obtain ⟨x1, ok⟩ := q
      cases ok with
      | false => exact m.acts h0 hd
      | true => exact fun _ i r p hm hs => hr.exists p (he rfl i r p hm hs)
  · exact m

theorem call_made {cs : List (Nat × Comp)} {x : MSt} (m : Made cs x) (c : Call) : Made cs (call cs x c).1 := by
  cases c with
  | openFile p k =>
    unfold call
    dsimp only
    split
    · rename_i s h e
      obtain ⟨_, _, _, _, _, _, h6, h7, _⟩ := openFile_some e
      intro hd i r q hm hs
      have := m hd i r q hm hs
      dsimp only
      by_cases hq : q = p
      · rw [hq]; exact h7
      · rw [h6 q hq]; exact this
    · exact m
  | closeFile h => exact m
  | frames p =>
    have e0 : makeStore x.st (.path p) .r none false = match openFile x.st p .r false with
      | none => (x.st, none)
      | some (s, h) => (metadata s h none, some ⟨h, true⟩) := rfl
    unfold call
    dsimp only
    rw [e0]
    cases ho : openFile x.st p .r false with
    | none => exact m
    | some q =>
      obtain ⟨s, h⟩ := q
      obtain ⟨_, _, _, _, _, _, h6, h7, _⟩ := openFile_some ho
      intro hd i r q hm hs
      have := m hd i r q hm hs
      dsimp only
      rw [metadata_none]
      by_cases hq : q = p
      · rw [hq]; exact h7
      · rw [h6 q hq]; exact this
  | framesEnd k =>
    intro hd i r q hm hs
    unfold call
    dsimp only
    rw [drop_disk]
    exact m hd i r q hm hs
  | setup sc => exact modelSetup_made m sc
  | reset longer sc => exact m.acts (call_acts cs x (.reset longer sc) trivial) (modelReset_dirty cs longer sc x)
  | step sc =>
    have h : Made cs (if x.dirty || x.timeDirty then modelSetup cs sc x else (x, true)).1 := by
      split
      · exact modelSetup_made m sc
      · exact m
    unfold call
    dsimp only
    generalize (if x.dirty || x.timeDirty then modelSetup cs sc x else (x, true)) = q at h ⊢
    obtain ⟨x1, ok⟩ := q
    cases ok <;> exact h
  | run longer sc =>
    have h : Made cs (if x.dirty || x.timeDirty then modelSetup cs sc x else modelReset cs longer sc x).1 := by
      split
      · exact modelSetup_made m sc
      · exact m.acts (modelReset_acts cs longer sc x) (modelReset_dirty cs longer sc x)
    show Made cs (modelRun cs longer sc x).1
    unfold modelRun
    generalize (if x.dirty || x.timeDirty then modelSetup cs sc x else modelReset cs longer sc x) = q at h ⊢
    obtain ⟨x1, ok⟩ := q
    dsimp only
    have h2 : Made cs (if ok then ({ x1 with current := true }, sc.steps) else (x1, false)).1 := by cases ok <;> exact h
    generalize (if ok then (({ x1 with current := true } : MSt), sc.steps) else (x1, false)) = q at h2 ⊢
    obtain ⟨x2, ok2⟩ := q
    dsimp only at h2 ⊢
    have h3 := h2.acts (modelFinish_acts cs sc x2) (modelFinish_dirty cs sc x2)
    split
    · rename_i x3 e; rw [e] at h3; exact h3
    · rename_i x3 e; rw [e] at h3; exact h3
  | finish sc => exact m.acts (modelFinish_acts cs sc x) (modelFinish_dirty cs sc x)
  | edit => exact fun hd => by cases hd
  | editTime => exact m

theorem calls_made (cs : List (Nat × Comp)) {x : MSt} (g : Made cs x) (l : List Call) : Made cs (calls cs x l) := by
  induction l generalizing x with
  | nil => exact g
  | cons c l ih => exact ih (call_made g c)

theorem modelReset_ok {cs : List (Nat × Comp)} (a : Apart cs) {sc : Script} (hsc : sc.Fine) (longer : Bool) {x : MSt} (g : x.st.Good cs) (f : Free cs x.st)
    (he : longer = false → ∀ i r p, (i, Comp.recorder r) ∈ cs → r.source = .path p → (x.st.disk p).isSome) (hn : longer = true → ∀ i r, (i, Comp.recorder r) ∈ cs → x.st.stores i = none) :
    (modelReset cs longer sc x).2 = true := by
  unfold modelReset
  rw [if_pos hsc.start]
  exact each_reset_ok a hsc longer cs (fun _ h => h) a.numbers x.st g f he hn

theorem modelSetup_ok {cs : List (Nat × Comp)} (a : Apart cs) {sc : Script} (hsc : sc.Fine) {x : MSt} (g : x.st.Good cs) (f : Free cs x.st)
    (hn : ∀ i r, (i, Comp.recorder r) ∈ cs → x.st.stores i = none) : (modelSetup cs sc x).2 = true := by
  unfold modelSetup
  rw [if_pos hsc.start]
  have h1 := each_setup_ok a hsc cs (fun _ h => h) a.numbers x.st g f hn
  have h2 := each_acts (cs := cs) (f := fun i s c => c.setup i (sc.setup i) s) cs (fun _ h => h) (fun _ _ s hm => setup_acts hm _ s) x.st
  have h3 := each_setup_exists (cs := cs) sc cs (fun _ h => h) x.st h1
  generalize each (fun i s c => c.setup i (sc.setup i) s) cs x.st = q at h1 h2 h3 ⊢
  obtain ⟨s1, ok⟩ := q
  dsimp only at h1 h2 h3
  subst h1
  dsimp only
  have h4 := modelReset_ok a hsc false (x := { x with st := s1, timeDirty := false }) (h2.good g) (h2.free g f) (fun _ => h3) (fun e => by cases e)
  generalize modelReset cs false sc { x with st := s1, timeDirty := false } = q at h4 ⊢
  obtain ⟨x1, ok⟩ := q
  dsimp only at h4
  subst h4
  rfl

theorem modelRun_ok {cs : List (Nat × Comp)} (a : Apart cs) {sc : Script} (hsc : sc.Fine) (longer : Bool) {x : MSt} (g : x.st.Good cs) (f : Free cs x.st) (m : Made cs x) (hc : Closed x.st) :
    (modelRun cs longer sc x).2 = .returned := by
  have h1 : (if x.dirty || x.timeDirty then modelSetup cs sc x else modelReset cs longer sc x).2 = true := by
    split
    · exact modelSetup_ok a hsc g f (fun i _ _ => hc i)
    · rename_i hd
      exact modelReset_ok a hsc longer g f (fun _ => m (by revert hd; cases x.dirty <;> simp)) (fun _ i _ _ => hc i)
  unfold modelRun
  generalize (if x.dirty || x.timeDirty then modelSetup cs sc x else modelReset cs longer sc x) = q at h1 ⊢
  obtain ⟨x1, ok⟩ := q
  dsimp only at h1
  subst h1
  simp only [if_true]
  have h2 : (modelFinish cs sc { x1 with current := true }).2 = true := each_finish_ok hsc cs x1.st
  generalize modelFinish cs sc { x1 with current := true } = q at h2 ⊢
  obtain ⟨x2, ok⟩ := q
  dsimp only at h2
  subst h2
  simp [hsc.steps]

/-! ## Metadata -/

theorem foldl_set (l : List (String × String)) (hl : (l.map Prod.fst).Nodup) (a : Attrs) (k : String) :
    l.foldl (fun a e => fun k => if k = e.1 then some e.2 else a k) a k = (l.lookup k).or (a k) := by
  induction l generalizing a with
  | nil => rfl
  | cons e l ih =>
    rw [List.map_cons, List.nodup_cons] at hl
    rw [List.foldl_cons, ih hl.2, List.lookup_cons]
    by_cases h : k = e.1
    · subst h
      have : l.lookup e.1 = none := by
        rw [List.lookup_eq_none_iff]
        intro p hp
        rw [bne_iff_ne]
        exact fun hb => hl.1 (List.mem_map.2 ⟨p, hp, hb.symm⟩)
      simp [this]
    · simp [h, beq_false_of_ne h]

/-- What a recorder's `setup` leaves in the attributes. -/
theorem setup_metadata {i : Nat} {r : Recorder} {p : Path} (hs : r.source = .path p) (hr : r.mode ≠ .r) (hl : (r.metadata.map Prod.fst).Nodup) (b : Body) (s : St) (g : IdsLt s)
    (h : ((Comp.recorder r).setup i b s).2 = true) :
    ∃ a, ((Comp.recorder r).setup i b s).1.disk p = some a ∧ ∀ k, a k = (r.expected k).or (if r.mode = .w then none else (s.disk p).bind (· k)) := by
  dsimp only [Comp.setup] at h ⊢
  rw [hs] at h ⊢
  have key : ∀ s1, acquire s i (.path p) r.mode (some r.attributes) r.create = (s1, true) →
      ∃ a, s1.disk p = some a ∧ ∀ k, a k = (r.expected k).or (if r.mode = .w then none else (s.disk p).bind (· k)) := by
    intro s1 e
    unfold acquire makeStore at e
    dsimp only at e
    cases hd : directories s r.create p with
    | none => rw [hd] at e; cases e
    | some s0 =>
      have e0 : s0.disk = s.disk ∧ IdsLt s0 := by
        have ha : Acts [] s s0 := directories_acts hd
        refine ⟨?_, ha.idsLt g⟩
        clear e
        unfold directories at hd
        split at hd
        · split at hd
          · rename_i e
            cases hd
            unfold makedirs at e
            split at e
            · cases e
            · split at e
              · cases e
              · cases e; rfl
          · cases hd; rfl
          · cases hd
        · cases hd; rfl
      rw [hd] at e
      dsimp only at e
      cases ho : openFile s0 p r.mode false with
      | none => rw [ho] at e; cases e
      | some q =>
        obtain ⟨s2, k⟩ := q
        rw [ho] at e
        cases e
        obtain ⟨rfl, h1, -, -, -, -, -, a7, a8, a9, _⟩ := openFile_some ho
        rw [assign_disk]
        have hh : s2.handle s0.next = some ⟨s0.next, p, r.mode, false⟩ := by
          unfold St.handle
          rw [h1, List.find?_append]
          have : s0.handles.find? (fun x => x.id == s0.next) = none := by
            rw [List.find?_eq_none]
            intro x hx
            have := e0.2 x hx
            simp only [beq_iff_eq]
            omega
          simp [this]
        unfold metadata
        rw [hh]
        dsimp only
        rw [if_neg hr]
        dsimp only
        rw [if_pos rfl]
        obtain ⟨a, ha⟩ := Option.isSome_iff_exists.1 a7
        refine ⟨_, by rw [ha]; rfl, ?_⟩
        intro k
        have hold : a k = if r.mode = .w then none else (s.disk p).bind (· k) := by
          by_cases hw : r.mode = .w
          · rw [if_pos hw]
            rw [a9 hw] at ha
            cases ha; rfl
          · rw [if_neg hw, ← e0.1]
            cases hso : s0.disk p with
            | some a' =>
              rw [a8 hw (by simp [hso]), hso] at ha
              cases ha; rfl
            | none =>
              have hm : r.mode = .a := by
                have h10 := (openFile_some ho).2.2.2.2.2.2.2.2.2.2.1
                rw [hso] at h10
                revert h10 hr hw
                cases r.mode <;> simp
              unfold openFile at ho
              split at ho
              · cases ho
              · rw [hm, hso] at ho
                dsimp only at ho
                split at ho
                · cases ho
                  simp only [if_pos] at ha
                  cases ha
                  rfl
                · cases ho
        unfold Recorder.attributes
        dsimp only
        rw [List.foldl_append, foldl_set _ hl]
        unfold Recorder.expected
        rw [Option.or_assoc]
        congr 1
        simp only [List.foldl_cons, List.foldl_nil]
        rw [hold]
        by_cases hv : k = "PYWR_VERSION"
        · simp [hv]
        · by_cases hf : k = "PYWR_FORMAT"
          · simp [hf]
          · simp [hv, hf]
  generalize acquire s i (.path p) r.mode (some r.attributes) r.create = q at h key ⊢
  obtain ⟨s1, ok⟩ := q
  cases ok with
  | false => cases h
  | true =>
    have := key s1 rfl
    cases b with
    | ok => rw [assign_disk]; exact this
    | early => cases h
    | late => cases h

theorem reset_disk (c : Comp) (i : Nat) (ok : Bool) (hn : ∀ src, c.source = some src → ∃ p, src = .path p) (s : St) (q : Path) : (c.reset i ok s).1.disk q = s.disk q := by
  cases c with
  | recorder r =>
    obtain ⟨p, hp⟩ := hn r.source rfl
    have key : (acquire s i (.path p) .rPlus none false).1.disk q = s.disk q := by
      have e0 : acquire s i (.path p) .rPlus none false = match openFile s p .rPlus false with
        | none => (s, false)
        | some (s, h) => (assign (metadata s h none) i (some ⟨h, true⟩), true) := by
        unfold acquire makeStore directories
        dsimp only
        simp only [Bool.false_eq_true, if_false]
        cases openFile s p .rPlus false <;> rfl
      rw [e0]
      cases ho : openFile s p .rPlus false with
      | none => rfl
      | some x =>
        obtain ⟨s1, h⟩ := x
        obtain ⟨-, -, -, -, -, -, a6, a7, a8, -, a10, _⟩ := openFile_some ho
        dsimp only
        rw [assign_disk, metadata_none]
        by_cases e : q = p
        · rw [e]; exact a8 (by decide) (a10 (.inr rfl))
        · exact a6 q e
    dsimp only [Comp.reset]
    rw [hp]
    split
    · rename_i s1 e; rw [e] at key; exact key
    · rename_i s1 e; rw [e] at key; exact key
  | reader src => rfl
  | plain => rfl

theorem each_reset_disk (sc : Script) (l : List (Nat × Comp)) (hn : ∀ i c src, (i, c) ∈ l → c.source = some src → ∃ p, src = .path p) (s : St) (q : Path) :
    (each (fun i s c => if false then (match c.setup i (sc.setup i) s with
        | (s, true) => c.reset i (sc.reset i) s
        | (s, false) => (s, false)) else c.reset i (sc.reset i) s) l s).1.disk q = s.disk q := by
  induction l generalizing s with
  | nil => rfl
  | cons x l ih =>
    obtain ⟨i, c⟩ := x
    have h := reset_disk c i (sc.reset i) (fun src hs => hn i c src (by simp) hs) s q
    unfold each
    rw [if_neg (by decide)]
    split
    · rename_i s1 e
      rw [e] at h
      exact (ih (fun i c src hm => hn i c src (by simp [hm])) s1).trans h
    · rename_i s1 e
      rw [e] at h
      exact h

theorem each_setup_metadata {cs : List (Nat × Comp)} (a : Apart cs) (sc : Script) (l : List (Nat × Comp)) (hl : ∀ x ∈ l, x ∈ cs) (hd : (l.map Prod.fst).Nodup) (s : St) (g : IdsLt s)
    (h : (each (fun i s c => c.setup i (sc.setup i) s) l s).2 = true) (i : Nat) (r : Recorder) (p : Path) (hm : (i, Comp.recorder r) ∈ l) (hs : r.source = .path p) (hk : (r.metadata.map Prod.fst).Nodup) :
    ∃ at', (each (fun i s c => c.setup i (sc.setup i) s) l s).1.disk p = some at' ∧ ∀ k, at' k = (r.expected k).or (if r.mode = .w then none else (s.disk p).bind (· k)) := by
  have hr : r.mode ≠ .r := by rcases a.modes i r (hl _ hm) with e | e <;> rw [e] <;> decide
  -- other components leave the file alone
  have other : ∀ l' : List (Nat × Comp), (∀ x ∈ l', x ∈ cs) → i ∉ l'.map Prod.fst → ∀ s, ¬ Writes l' s p := by
    rintro l' hl' hi s ⟨j, r', hj, hw⟩
    have hji : j ≠ i := by rintro rfl; exact hi (List.mem_map.2 ⟨_, hj, rfl⟩)
    rcases hw with hw | ⟨k, hw, _⟩
    · exact hji (a.own j r' i _ (hl' _ hj) (hl _ hm) (by rw [hw, ← hs]; rfl))
    · obtain ⟨q, hq⟩ := a.named j _ r'.source (hl' _ hj) rfl
      rw [hw] at hq; cases hq
  induction l generalizing s with
  | nil => cases hm
  | cons x l ih =>
    obtain ⟨j, c⟩ := x
    rw [List.map_cons, List.nodup_cons] at hd
    have ha := setup_acts (cs := [(j, c)]) (i := j) (c := c) (by simp) (sc.setup j) s
    have hset : c = .recorder r → (c.setup j (sc.setup j) s).2 = true → ∃ at', (c.setup j (sc.setup j) s).1.disk p = some at' ∧
        ∀ k, at' k = (r.expected k).or (if r.mode = .w then none else (s.disk p).bind (· k)) := by
      rintro rfl h; exact setup_metadata hs hr hk _ s g h
    have hrest := fun s1 => each_acts (cs := l) (f := fun i s c => c.setup i (sc.setup i) s) l (fun x hx => hx) (fun i c s hm => setup_acts hm _ s) s1
    unfold each at h ⊢
    generalize c.setup j (sc.setup j) s = q at ha hset h ⊢
    obtain ⟨s1, ok⟩ := q
    cases ok with
    | false => cases h
    | true =>
      dsimp only at ha hset h ⊢
      by_cases hji : j = i
      · subst hji
        have hc : c = .recorder r := a.same (hl _ (by simp)) (hl _ hm)
        obtain ⟨at', h1, h2⟩ := hset hc rfl
        refine ⟨at', ?_, h2⟩
        rw [((hrest s1).untouched (ha.idsLt g) p (other l (fun x hx => hl x (by simp [hx])) hd.1 s1)).1]
        exact h1
      · have hml : (i, Comp.recorder r) ∈ l := by
          rcases List.mem_cons.1 hm with e | e
          · cases e; exact absurd rfl hji
          · exact e
        have hu := (ha.untouched g p (other [(j, c)] (fun x hx => hl x (by rw [List.mem_singleton] at hx; rw [hx]; simp)) (by simpa using fun e => hji e.symm) s)).1
        obtain ⟨at', h1, h2⟩ := ih (fun x hx => hl x (by simp [hx])) hd.2 s1 (ha.idsLt g) h hml
        refine ⟨at', h1, ?_⟩
        rw [← hu]; exact h2

/-! ## A file that is open already -/

/-- An open file stays open while components run that do not have it. -/
theorem Act.keeps {cs : List (Nat × Comp)} {s s' : St} (h : Act cs s s') {x : Handle} (hx : x ∈ s.handles) (hn : ∀ j c, (j, c) ∈ cs → s.stores j ≠ some ⟨x.id, true⟩) (hlt : x.id < s.next) :
    x ∈ s'.handles ∧ (∀ j c, (j, c) ∈ cs → s'.stores j ≠ some ⟨x.id, true⟩) ∧ x.id < s'.next := by
  refine ⟨?_, ?_, Nat.lt_of_lt_of_le hlt h.next⟩
  · cases h with
    | dirs d' => exact hx
    | buffer i b => exact hx
    | release i c hm => rw [assign_handles]; exact mem_keep.2 ⟨hx, hn i c hm⟩
    | path s1 i h c p m md hm hs ha ho =>
      obtain ⟨rfl, h1, h2, h3, h4, h5, h6, h7, _⟩ := openFile_some ho
      have e : (metadata s1 s.next md).stores = s.stores := by funext j; unfold St.stores; rw [metadata_slots, h3]
      rw [assign_handles, metadata_handles, h1, e]
      exact mem_keep.2 ⟨by simp [hx], hn i c hm⟩
    | file i c h m md hm hs ha hh =>
      have e : (metadata s h md).stores = s.stores := by funext j; unfold St.stores; rw [metadata_slots]
      rw [assign_handles, metadata_handles, e]
      exact mem_keep.2 ⟨hx, hn i c hm⟩
  · intro j c hj
    cases h with
    | dirs d' => exact hn j c hj
    | buffer i b => rw [setBuffer_stores]; exact hn j c hj
    | release i c' hm =>
      rw [assign_stores]; dsimp only
      split
      · simp
      · exact hn j c hj
    | path s1 i h c' p m md hm hs ha ho =>
      obtain ⟨rfl, h1, h2, h3, h4, h5, h6, h7, _⟩ := openFile_some ho
      have e : (metadata s1 s.next md).stores = s.stores := by funext j; unfold St.stores; rw [metadata_slots, h3]
      rw [assign_stores, e]; dsimp only
      split
      · intro e
        have : s.next = x.id := by simpa using e
        omega
      · exact hn j c hj
    | file i c' h m md hm hs ha hh =>
      have e : (metadata s h md).stores = s.stores := by funext j; unfold St.stores; rw [metadata_slots]
      rw [assign_stores, e]; dsimp only
      split
      · simp
      · exact hn j c hj

theorem Acts.keeps {cs : List (Nat × Comp)} {s s' : St} (h : Acts cs s s') {x : Handle} (hx : x ∈ s.handles) (hn : ∀ j c, (j, c) ∈ cs → s.stores j ≠ some ⟨x.id, true⟩) (hlt : x.id < s.next) :
    x ∈ s'.handles ∧ (∀ j c, (j, c) ∈ cs → s'.stores j ≠ some ⟨x.id, true⟩) ∧ x.id < s'.next := by
  induction h with
  | refl => exact ⟨hx, hn, hlt⟩
  | tail _ h ih => exact h.keeps ih.1 ih.2.1 ih.2.2

theorem directories_handles {s s1 : St} {b : Bool} {p : Path} (h : directories s b p = some s1) : s1.handles = s.handles := by
  unfold directories at h
  split at h
  · split at h
    · rename_i e
      cases h
      unfold makedirs at e
      split at e
      · cases e
      · split at e
        · cases e
        · cases e; rfl
    · cases h; rfl
    · cases h
  · cases h; rfl

/-- Opening for writing a file that is open is refused. -/
theorem setup_refused {i : Nat} {r : Recorder} {p : Path} (hs : r.source = .path p) (hw : r.mode = .w) (b : Body) (s : St) {x : Handle} (hx : x ∈ s.handles) (hp : x.path = p) :
    ((Comp.recorder r).setup i b s).2 = false ∧ x ∈ ((Comp.recorder r).setup i b s).1.handles ∧ ((Comp.recorder r).setup i b s).1.slots = s.slots := by
  have key : ∃ s1, acquire s i r.source r.mode (some r.attributes) r.create = (s1, false) ∧ s1.handles = s.handles ∧ s1.slots = s.slots := by
    rw [hs, hw]
    unfold acquire makeStore
    dsimp only
    cases hd : directories s r.create p with
    | none => exact ⟨s, rfl, rfl, rfl⟩
    | some s0 =>
      dsimp only
      have hh := directories_handles hd
      have ho : openFile s0 p .w false = none := by
        unfold openFile
        rw [if_pos]
        rw [List.any_eq_true]
        exact ⟨x, by rw [hh]; exact hx, by simp [hp, conflict]⟩
      rw [ho]
      refine ⟨s0, rfl, hh, ?_⟩
      unfold directories at hd
      split at hd
      · split at hd
        · rename_i e
          cases hd
          unfold makedirs at e
          split at e
          · cases e
          · split at e
            · cases e
            · cases e; rfl
        · cases hd; rfl
        · cases hd
      · cases hd; rfl
  obtain ⟨s1, e, h1, h2⟩ := key
  dsimp only [Comp.setup]
  rw [e]
  exact ⟨rfl, by rw [h1]; exact hx, h2⟩

theorem each_setup_refused (sc : Script) (l : List (Nat × Comp)) (hd : (l.map Prod.fst).Nodup) (s : St) {x : Handle} (hx : x ∈ s.handles) (hlt : x.id < s.next) {i : Nat} {r : Recorder} {p : Path}
    (hm : (i, Comp.recorder r) ∈ l) (hs : r.source = .path p) (hw : r.mode = .w) (hp : x.path = p) (hn : ∀ j, j ≠ i → s.stores j ≠ some ⟨x.id, true⟩) :
    (each (fun i s c => c.setup i (sc.setup i) s) l s).2 = false := by
  induction l generalizing s with
  | nil => cases hm
  | cons y l ih =>
    obtain ⟨j, c⟩ := y
    rw [List.map_cons, List.nodup_cons] at hd
    by_cases hji : j = i
    · subst hji
      have hc : c = .recorder r := by
        rcases List.mem_cons.1 hm with e | e
        · cases e; rfl
        · exact absurd (List.mem_map.2 ⟨_, e, rfl⟩) hd.1
      subst hc
      have h := (setup_refused (i := j) hs hw (sc.setup j) s hx hp).1
      unfold each
      generalize (Comp.recorder r).setup j (sc.setup j) s = q at h ⊢
      obtain ⟨s1, ok⟩ := q
      dsimp only at h
      subst h
      rfl
    · have hml : (i, Comp.recorder r) ∈ l := by
        rcases List.mem_cons.1 hm with e | e
        · cases e; exact absurd rfl hji
        · exact e
      have ha := setup_acts (cs := [(j, c)]) (i := j) (c := c) (by simp) (sc.setup j) s
      have hst : ∀ k, k ≠ j → (c.setup j (sc.setup j) s).1.stores k = s.stores k := by
        intro k hk
        have : ∀ s', Acts [(j, c)] s s' → s'.stores k = s.stores k := by
          intro s' h
          induction h with
          | refl => rfl
          | tail _ h ih =>
            rw [← ih]
            cases h with
            | dirs d' => rfl
            | buffer i b => rw [setBuffer_stores]
            | release i c' hm =>
              simp only [List.mem_singleton, Prod.mk.injEq] at hm
              rw [assign_stores]; exact if_neg (by rw [hm.1]; exact hk)
            | path s1 i h c' p m md hm hs ha ho =>
              simp only [List.mem_singleton, Prod.mk.injEq] at hm
              obtain ⟨rfl, h1, h2, h3, h4, h5, h6, h7, _⟩ := openFile_some ho
              rw [assign_stores]; dsimp only
              rw [if_neg (by rw [hm.1]; exact hk)]
              unfold St.stores; rw [metadata_slots, h3]
            | file i c' h m md hm hs ha hh =>
              simp only [List.mem_singleton, Prod.mk.injEq] at hm
              rw [assign_stores]; dsimp only
              rw [if_neg (by rw [hm.1]; exact hk)]
              unfold St.stores; rw [metadata_slots]
        exact this _ ha
      have hk := ha.keeps hx (by simpa using hn j hji) hlt
      unfold each
      generalize c.setup j (sc.setup j) s = q at ha hst hk ⊢
      obtain ⟨s1, ok⟩ := q
      cases ok with
      | false => rfl
      | true =>
        dsimp only at ha hst hk ⊢
        refine ih hd.2 s1 hk.1 hk.2.2 hml ?_
        intro k hki
        by_cases hkj : k = j
        · subst hkj; exact hk.2.1 k c (by simp)
        · rw [hst k hkj]; exact hn k hki

/-! ## Files open for reading -/

/-- A file is open for reading only, or never for reading only. -/
def Compat (hs : List Handle) : Prop := ∀ x ∈ hs, ∀ y ∈ hs, x.path = y.path → (x.mode = .r ↔ y.mode = .r)

theorem Compat.sub {hs hs' : List Handle} (h : Compat hs) (hsub : ∀ x ∈ hs', x ∈ hs) : Compat hs' := fun x hx y hy => h x (hsub x hx) y (hsub y hy)

theorem conflict_mode {m o : Mode} (h : conflict m o = false) : m = .r ↔ o = .r := by
  revert h; cases m <;> cases o <;> simp [conflict]

theorem Compat.openFile {s s1 : St} {p m u h} (c : Compat s.handles) (e : openFile s p m u = some (s1, h)) : Compat s1.handles := by
  obtain ⟨-, h1, -, -, -, -, -, -, -, -, -, h11⟩ := openFile_some e
  rw [h1]
  intro x hx y hy hp
  rcases (by simpa using hx : x ∈ s.handles ∨ x = ⟨s.next, p, m, u⟩) with a | rfl <;> rcases (by simpa using hy : y ∈ s.handles ∨ y = ⟨s.next, p, m, u⟩) with b | rfl
  · exact c x a y b hp
  · exact (conflict_mode (h11 x a hp)).symm
  · exact conflict_mode (h11 y b hp.symm)
  · rfl

theorem Act.compat {cs : List (Nat × Comp)} {s s' : St} (h : Act cs s s') (c : Compat s.handles) : Compat s'.handles := by
  cases h with
  | dirs d' => exact c
  | buffer i b => exact c
  | release i c' hm => rw [assign_handles]; exact c.sub fun x hx => (mem_keep.1 hx).1
  | path s1 i h c' p m md hm hs ha ho =>
    rw [assign_handles, metadata_handles]
    exact (c.openFile ho).sub fun x hx => (mem_keep.1 hx).1
  | file i c' h m md hm hs ha hh =>
    rw [assign_handles, metadata_handles]; exact c.sub fun x hx => (mem_keep.1 hx).1

theorem Acts.compat {cs : List (Nat × Comp)} {s s' : St} (h : Acts cs s s') (c : Compat s.handles) : Compat s'.handles := by
  induction h with
  | refl => exact c
  | tail _ h ih => exact h.compat ih

theorem call_compat {cs : List (Nat × Comp)} {x : MSt} (g : Compat x.st.handles) (c : Call) : Compat (call cs x c).1.st.handles := by
  cases c with
  | openFile p m =>
    unfold call
    dsimp only
    split
    · rename_i s h e; exact g.openFile e
    · exact g
  | closeFile h => exact g.sub fun x hx => (List.mem_filter.1 hx).1
  | frames p =>
    have e0 : makeStore x.st (.path p) .r none false = match H5Files.openFile x.st p .r false with
      | none => (x.st, none)
      | some (s, h) => (metadata s h none, some ⟨h, true⟩) := rfl
    unfold call
    dsimp only
    rw [e0]
    cases ho : H5Files.openFile x.st p .r false with
    | none => exact g
    | some q =>
      dsimp only
      rw [metadata_handles]
      exact g.openFile ho
  | framesEnd k =>
    unfold call
    dsimp only
    rw [drop_handles]
    exact g.sub fun x hx => (mem_keep.1 hx).1
  | setup sc => exact (call_acts cs x (.setup sc) trivial).compat g
  | reset longer sc => exact (call_acts cs x (.reset longer sc) trivial).compat g
  | step sc => exact (call_acts cs x (.step sc) trivial).compat g
  | run longer sc => exact (call_acts cs x (.run longer sc) trivial).compat g
  | finish sc => exact (call_acts cs x (.finish sc) trivial).compat g
  | edit => exact g
  | editTime => exact g

theorem calls_compat (cs : List (Nat × Comp)) {x : MSt} (g : Compat x.st.handles) (l : List Call) : Compat (calls cs x l).st.handles := by
  induction l generalizing x with
  | nil => exact g
  | cons c l ih => exact ih (call_compat g c)

theorem metadata_reads {s : St} {h : Nat} {md} {q : Path} (hq : ∀ x ∈ s.handles, x.id = h → x.path = q → x.mode = .r) : (metadata s h md).disk q = s.disk q := by
  unfold metadata
  split
  · rename_i x l e
    obtain ⟨a, b⟩ := handle_mem e
    split
    · rfl
    · rename_i hm
      exact if_neg fun e => hm (hq x a b e.symm)
  · rfl

/-- What is open for reading is not changed. -/
theorem Act.reads {cs : List (Nat × Comp)} {s s' : St} (h : Act cs s s') (c : Compat s.handles) {x : Handle} (hx : x ∈ s.handles) (hr : x.mode = .r) : s'.disk x.path = s.disk x.path := by
  cases h with
  | dirs d' => rfl
  | buffer i b => rfl
  | release i c' hm => simp
  | path s1 i h c' p m md hm hs ha ho =>
    have hc := c.openFile ho
    obtain ⟨rfl, h1, h2, h3, h4, h5, h6, h7, h8, h9, h10, h11⟩ := openFile_some ho
    rw [assign_disk, metadata_reads]
    · by_cases e : x.path = p
      · have hm : m = .r := (conflict_mode (h11 x hx e)).2 hr
        rw [e]
        exact h8 (by rw [hm]; decide) (h10 (.inl hm))
      · exact h6 _ e
    · intro y hy _ hp
      exact (hc x (by rw [h1]; simp [hx]) y hy hp.symm).1 hr
  | file i c' h m md hm hs ha hh =>
    rw [assign_disk, metadata_reads]
    intro y hy _ hp
    exact (c x hx y hy hp.symm).1 hr

theorem Acts.reads {cs : List (Nat × Comp)} {s s' : St} (h : Acts cs s s') (c : Compat s.handles) (hi : IdsLt s) {x : Handle} (hx : x ∈ s.handles) (hn : ∀ j c, (j, c) ∈ cs → s.stores j ≠ some ⟨x.id, true⟩)
    (hr : x.mode = .r) : s'.disk x.path = s.disk x.path := by
  induction h with
  | refl => rfl
  | tail h1 h ih =>
    have hk := Acts.keeps h1 hx hn (hi x hx)
    exact (h.reads (Acts.compat h1 c) hk.1 hr).trans ih

end Verif.H5Files

import Verif.Model.H5Files
/-!
# Who holds which file: what to expect

A file opened for a component is that component's, in one of its modes; models whose files are kept apart; the circumstances under which nothing should be refused.
-/

namespace Verif.H5Files

/-- The file a component was given. -/
def Comp.source : Comp → Option Source
  | .recorder r => some r.source
  | .reader src => some src
  | .plain => none

/-- An open file that may be this component's: of the name it was given, in the mode in which it writes or reads. -/
def Comp.Mine (h : Handle) : Comp → Prop
  | .recorder r => r.source = .path h.path ∧ (h.mode = r.mode ∨ h.mode = .rPlus)
  | .reader src => src = .path h.path ∧ h.mode = .r
  | .plain => False

/-- A component has this file open. -/
def HeldBy (cs : List (Nat × Comp)) (s : St) (i : Nat) (h : Handle) : Prop :=
  (s.slots i).store = some ⟨h.id, true⟩ ∧ ∃ c, (i, c) ∈ cs ∧ c.Mine h

/-- A generator has this file open. -/
def InFrames (s : St) (h : Handle) : Prop := (⟨h.id, true⟩ : Store) ∈ s.frames ∧ h.mode = .r

/-- No component has a file. -/
def Closed (s : St) : Prop := ∀ i, (s.slots i).store = none

/-- The name of a file in the working directory. -/
def Path.Bare (p : Path) : Prop := p.dir.absolute = false ∧ p.dir.parts = []

/-- A recorder writes to this file, given by its name or as an open file (or as one that is opened later). -/
def Writes (cs : List (Nat × Comp)) (s : St) (q : Path) : Prop :=
  ∃ i r, (i, Comp.recorder r) ∈ cs ∧ (r.source = .path q ∨ ∃ h, r.source = .file h ∧ (s.next ≤ h ∨ ∃ x ∈ s.handles, x.id = h ∧ x.path = q))

/-- A model whose recorders each write a file of their own, given by name, which no parameter reads. -/
structure Apart (cs : List (Nat × Comp)) : Prop where
  numbers : (cs.map Prod.fst).Nodup
  named : ∀ i c src, (i, c) ∈ cs → c.source = some src → ∃ p, src = .path p
  modes : ∀ i r, (i, Comp.recorder r) ∈ cs → r.mode = .w ∨ r.mode = .a
  own : ∀ i r j c, (i, Comp.recorder r) ∈ cs → (j, c) ∈ cs → c.source = some r.source → i = j

/-- Nothing stands in the way: the files which the user or a generator has open are not the recorders' and, if they are parameters' data, only read; data exist; the directories of the recorders exist or are
to be created (and the name is not bare, see `C115_bare_fails`). -/
structure Free (cs : List (Nat × Comp)) (s : St) : Prop where
  others : ∀ h ∈ s.handles, h.user = true ∨ InFrames s h → ∀ i c, (i, c) ∈ cs → c.source = some (.path h.path) → (∃ src, c = .reader src) ∧ h.mode = .r
  dirs : ∀ i r p, (i, Comp.recorder r) ∈ cs → r.source = .path p → if r.create then ¬ p.Bare else s.hasDir p.dir = true
  data : ∀ i p, (i, Comp.reader (.path p)) ∈ cs → (s.disk p).isSome

/-- Nothing is raised besides. -/
structure Script.Fine (sc : Script) : Prop where
  start : sc.start = true
  setup : ∀ i, sc.setup i = .ok
  reset : ∀ i, sc.reset i = true
  steps : sc.steps = true
  finish : ∀ i, sc.finish i = true

/-- The metadata of a recorder: the user's first, then those of the format. -/
def Recorder.expected (r : Recorder) (k : String) : Option String :=
  (r.metadata.lookup k).or (if k = "PYWR_VERSION" then some "1" else if k = "PYWR_FORMAT" then some r.format else none)

end Verif.H5Files

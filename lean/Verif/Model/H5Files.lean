/-!
# Files of results and of data: who opens them, who closes them

Models `H5Store` (`/repo/pywr/h5tools.py:5-63`) and what uses it: `TablesRecorder` (`/repo/pywr/recorders/recorders.py:410-429, 545-555, 680-685, 687-699`), `TablesRecorder2`
(`/repo/pywr/recorders/_tables_recorders.pyx:206-226, 379-385, 616-637, 639-651`), `TablesArrayParameter` (`/repo/pywr/parameters/_parameters.pyx:365-391, 491-492`), and the order in which `Model.setup`, `reset`, `step`, `run`
and `finish` call them (`/repo/pywr/_model.pyx:621-627, 641-657, 688-737, 749-815, 862-872`).

What is written to the arrays and tables of a file is in `Model/Tables.lean` and `Model/OutputFile.lean`; here a hook is what it does with open files, and whether it raises afterwards is arbitrary.

PyTables (not part of the repository) is modelled by what it documents: a name that is open already is refused in mode "w", in mode "r" if it is open for writing, and in modes "a" and "r+" if it is open for
reading only; modes "r" and "r+" need the file to exist, "w" and "a" its directory; "w" empties the file. Names that differ are taken to be different files. CPython calls `__del__` when the last
reference goes, at once. Permissions, full disks and filters are left out, as are the attributes which PyTables itself writes; a file and a directory do not have the same name.
-/

namespace Verif.H5Files

/-- The mode of a file. -/
inductive Mode
  | r
  | rPlus
  | a
  | w
deriving DecidableEq, Repr

/-- A directory: absolute or relative to the working directory, and the names on the way. -/
structure Dir where
  absolute : Bool
  parts : List String
deriving DecidableEq, Repr

/-- The name of a file; `dir` is `os.path.dirname` of it. -/
structure Path where
  dir : Dir
  name : String
deriving DecidableEq, Repr

/-- Attributes of the root of a file. -/
abbrev Attrs := String → Option String

/-- An open `tables.File`. `user`: opened by the user (not part of the state of the program). -/
structure Handle where
  id : Nat
  path : Path
  mode : Mode
  user : Bool
deriving DecidableEq, Repr

/-- An `H5Store`: its `file` and `_opened`. -/
structure Store where
  handle : Nat
  opened : Bool
deriving DecidableEq, Repr

/-- What a recorder or parameter was given as its file: a name, a `tables.File`, something else. -/
inductive Source
  | path (p : Path)
  | file (handle : Nat)
  | other
deriving DecidableEq, Repr

/-- What a component has: its `h5store`, and whether `_buffer_num_timesteps > 1` (`_tables_recorders.pyx:101`: 1 until `setup`). -/
structure Slot where
  store : Option Store
  buffer : Bool

/-- The files on disk, the directories, the open files, the number of the next file to be opened, the slots of the components and the stores of the generators made by `generate_dataframes`. -/
structure St where
  disk : Path → Option Attrs
  dirs : List Dir
  handles : List Handle
  next : Nat
  slots : Nat → Slot
  frames : List Store

/-- Is a file that is open in the second mode refused in the first? (PyTables, see above.) -/
def conflict : Mode → Mode → Bool
  | .r, o => o != .r
  | .w, _ => true
  | _, o => o == .r

/-- The working directory and the root of the file system. -/
def Dir.given (d : Dir) : Bool := d.parts.isEmpty

/-- The directory exists. -/
def St.hasDir (s : St) (d : Dir) : Bool := d.given || s.dirs.contains d

/-- `tables.open_file`; `none` is an exception. -/
def openFile (s : St) (p : Path) (m : Mode) (user : Bool) : Option (St × Nat) :=
  if s.handles.any (fun h => h.path == p && conflict m h.mode) then none
  else
    let there := match m with
      | .r | .rPlus => (s.disk p).isSome
      | .a | .w => s.hasDir p.dir
    if there then
      let a : Attrs := match m with
        | .w => fun _ => none
        | _ => (s.disk p).getD fun _ => none
      some ({ s with
        disk := fun q => if q = p then some a else s.disk q
        handles := s.handles ++ [⟨s.next, p, m, user⟩]
        next := s.next + 1 }, s.next)
    else none

/-- `file.close()`. -/
def close (s : St) (h : Nat) : St := { s with handles := s.handles.filter fun x => x.id != h }

/-- `H5Store.__del__` (`h5tools.py:61-63`). -/
def drop (s : St) : Option Store → St
  | some ⟨h, true⟩ => close s h
  | _ => s

/-- The directories above a directory, itself included. -/
def Dir.above (d : Dir) : List Dir := (List.range (d.parts.length + 1)).map fun n => ⟨d.absolute, d.parts.take n⟩

/-- The errors of `os.makedirs` met here. -/
inductive Errno
  | eexist
  | enoent
deriving DecidableEq

/-- `os.makedirs`: makes the directory and those above it; `FileExistsError` if it exists; `FileNotFoundError` for the empty name, which is what `os.path.dirname` gives for a file in the working directory. -/
def makedirs (s : St) (d : Dir) : Except Errno St :=
  if d.absolute = false ∧ d.parts = [] then .error .enoent
  else if s.hasDir d then .error .eexist
  else .ok { s with dirs := s.dirs ++ d.above }

/-- `h5tools.py:30-38`; `none` is an exception. -/
def directories (s : St) (create : Bool) (p : Path) : Option St :=
  if create then
    match makedirs s p.dir with
    | .ok s => some s
    | .error .eexist => some s
    | .error .enoent => none
  else some s

/-- The open file of a number. -/
def St.handle (s : St) (h : Nat) : Option Handle := s.handles.find? fun x => x.id == h

/-- `h5tools.py:56-59`: attributes are set one after the other, unless the file is open for reading. -/
def metadata (s : St) (h : Nat) (md : Option (List (String × String))) : St :=
  match s.handle h, md with
  | some x, some l =>
    if x.mode = .r then s
    else { s with
      disk := fun q => if q = x.path then (s.disk q).map (fun a => l.foldl (fun a e => fun k => if k = e.1 then some e.2 else a k) a)
        else s.disk q }
  | _, _ => s

/-- `H5Store.__init__` (`h5tools.py:6-59`): the state and the store, `none` for an exception (directories that were made stay). -/
def makeStore (s : St) (src : Source) (m : Mode) (md : Option (List (String × String))) (create : Bool) : St × Option Store :=
  match src with
  | .path p =>
    match directories s create p with
    | none => (s, none)
    | some s =>
      match openFile s p m false with
      | none => (s, none)
      | some (s, h) => (metadata s h md, some ⟨h, true⟩)
  | .file h =>
    match s.handle h with
    | none => (s, none)
    | some _ => (metadata s h md, some ⟨h, false⟩)
  | .other => (s, none)

/-- `self.h5store = ...`: the store that was there before loses its last reference. -/
def assign (s : St) (i : Nat) (st : Option Store) : St :=
  drop { s with slots := fun j => if j = i then { s.slots j with store := st } else s.slots j } (s.slots i).store

/-- `self.h5store = H5Store(...)`: the new store is made before the old one goes. The Boolean says that nothing was raised. -/
def acquire (s : St) (i : Nat) (src : Source) (m : Mode) (md : Option (List (String × String))) (create : Bool) : St × Bool :=
  match makeStore s src m md create with
  | (s, none) => (s, false)
  | (s, some st) => (assign s i (some st), true)

/-- A recorder: version 1 or 2, its file, mode (default "w"), metadata, `create_directories`, and whether the number of buffered timesteps comes out as more than one (version 2 only). -/
structure Recorder where
  format : String
  source : Source
  mode : Mode
  metadata : List (String × String)
  create : Bool
  buffered : Bool

/-- The metadata written: `{"PYWR_FORMAT": ..., "PYWR_VERSION": 1, **self.metadata}` (`recorders.py:426`, `_tables_recorders.pyx:222`), as what is set in turn. -/
def Recorder.attributes (r : Recorder) : List (String × String) := [("PYWR_FORMAT", r.format), ("PYWR_VERSION", "1")] ++ r.metadata

/-- Components: recorders, `TablesArrayParameter`s, and everything else. -/
inductive Comp
  | recorder (r : Recorder)
  | reader (src : Source)
  | plain

/-- What happens in the rest of `setup`: nothing is raised, or something is, before or after the number of buffered timesteps is set (`_tables_recorders.pyx:259-269`). -/
inductive Body
  | ok
  | early
  | late
deriving DecidableEq

/-- The number of buffered timesteps is set. -/
def setBuffer (s : St) (i : Nat) (b : Bool) : St := { s with slots := fun j => if j = i then { s.slots j with buffer := b } else s.slots j }

/-- `setup` (`recorders.py:410-545`, `_tables_recorders.pyx:206-379`, `_parameters.pyx:378-440`). -/
def Comp.setup (i : Nat) (b : Body) (s : St) : Comp → St × Bool
  | .recorder r =>
    match acquire s i r.source r.mode (some r.attributes) r.create with
    | (s, false) => (s, false)
    | (s, true) => match b with
      | .ok => (assign (setBuffer s i r.buffered) i none, true)
      | .early => (s, false)
      | .late => (setBuffer s i r.buffered, false)
  | .reader src =>
    match acquire s i src .r none false with
    | (s, false) => (s, false)
    | (s, true) => (s, b = .ok)
  | .plain => (s, b = .ok)

/-- `reset` (`recorders.py:547-631`, `_tables_recorders.pyx:381-507`). -/
def Comp.reset (i : Nat) (ok : Bool) (s : St) : Comp → St × Bool
  | .recorder r =>
    match acquire s i r.source .rPlus none false with
    | (s, false) => (s, false)
    | (s, true) => (s, ok)
  | _ => (s, ok)

/-- `finish` (`recorders.py:680-685`, `_tables_recorders.pyx:616-637`, `_parameters.pyx:491-492`). With a buffer, `timestepper.current.index` is read, which raises if `current` is `None`; the table of
times may fail to be flushed. -/
def Comp.finish (i : Nat) (current ok : Bool) (s : St) : Comp → St × Bool
  | .recorder _ => if ((s.slots i).buffer && !current) || !ok then (s, false) else (assign s i none, true)
  | .reader _ => (assign s i none, true)
  | .plain => (s, ok)

/-- A loop over the components; the first exception ends it. -/
def each (f : Nat → St → Comp → St × Bool) : List (Nat × Comp) → St → St × Bool
  | [], s => (s, true)
  | (i, c) :: l, s => match f i s c with
    | (s, true) => each f l s
    | (s, false) => (s, false)

/-- What the hooks do besides opening and closing files: does the timestepper (and the scenarios) start, what is raised in `setup`, `reset`, `finish`, and in the timesteps. -/
structure Script where
  start : Bool
  setup : Nat → Body
  reset : Nat → Bool
  steps : Bool
  finish : Nat → Bool

/-- A model with its components, and whether it and its timestepper are dirty and `timestepper.current` is not `None`. Nodes come before all components and the solver after them, so that they are plain components at the
beginning and the end of the list. -/
structure MSt where
  st : St
  dirty : Bool
  timeDirty : Bool
  current : Bool

/-- `Model.reset` (`_model.pyx:749-815`); `longer`: the number of timesteps has changed. -/
def modelReset (cs : List (Nat × Comp)) (longer : Bool) (sc : Script) (x : MSt) : MSt × Bool :=
  if sc.start then
    let (s, ok) := each (fun i s c => if longer then (match c.setup i (sc.setup i) s with
        | (s, true) => c.reset i (sc.reset i) s
        | (s, false) => (s, false)) else c.reset i (sc.reset i) s) cs x.st
    ({ x with st := s, current := false }, ok)
  else ({ x with current := false }, false)

/-- `Model.setup` (`_model.pyx:688-737`). If `timestepper.setup`, `scenarios.setup` or `timestepper.reset` raises, `current` is what it was, or `None`; here what it was. `timestepper.setup` clears the flag of the timestepper. -/
def modelSetup (cs : List (Nat × Comp)) (sc : Script) (x : MSt) : MSt × Bool :=
  if sc.start then
    match each (fun i s c => c.setup i (sc.setup i) s) cs x.st with
    | (s, false) => ({ x with st := s, current := false, timeDirty := false }, false)
    | (s, true) => match modelReset cs false sc { x with st := s, timeDirty := false } with
      | (x, true) => ({ x with dirty := false }, true)
      | (x, false) => (x, false)
  else (x, false)

/-- `Model.finish` (`_model.pyx:862-872`). -/
def modelFinish (cs : List (Nat × Comp)) (sc : Script) (x : MSt) : MSt × Bool :=
  let (s, ok) := each (fun i s c => c.finish i x.current (sc.finish i) s) cs x.st
  ({ x with st := s }, ok)

/-- How a call ended. -/
inductive Out
  | returned
  | raised
  /-- `finish` raised. -/
  | unfinished
deriving DecidableEq

/-- `Model.run` (`_model.pyx:641-657`): the first timestep sets `current`. -/
def modelRun (cs : List (Nat × Comp)) (longer : Bool) (sc : Script) (x : MSt) : MSt × Out :=
  let (x, ok) := if x.dirty || x.timeDirty then modelSetup cs sc x else modelReset cs longer sc x
  let (x, ok) := if ok then ({ x with current := true }, sc.steps) else (x, false)
  match modelFinish cs sc x with
  | (x, false) => (x, .unfinished)
  | (x, true) => (x, if ok then .returned else .raised)

/-- What a user does: calls of the model, changes that make it or its timestepper dirty, files opened and closed by the user themselves, generators from `generate_dataframes` made, and exhausted or let go. -/
inductive Call
  | setup (sc : Script)
  | reset (longer : Bool) (sc : Script)
  | step (sc : Script)
  | run (longer : Bool) (sc : Script)
  | finish (sc : Script)
  | edit
  | editTime
  | openFile (p : Path) (m : Mode)
  | closeFile (h : Nat)
  | frames (p : Path)
  | framesEnd (k : Nat)

/-- Raised or not. -/
def out (ok : Bool) : Out := if ok then .returned else .raised

/-- One call. -/
def call (cs : List (Nat × Comp)) (x : MSt) : Call → MSt × Out
  | .setup sc => let (x, ok) := modelSetup cs sc x; (x, out ok)
  | .reset longer sc => let (x, ok) := modelReset cs longer sc x; (x, out ok)
  | .step sc => -- `_model.pyx:621-627`
    let (x, ok) := if x.dirty || x.timeDirty then modelSetup cs sc x else (x, true)
    if ok then ({ x with current := true }, out sc.steps) else (x, .raised)
  | .run longer sc => modelRun cs longer sc x
  | .finish sc => let (x, ok) := modelFinish cs sc x; (x, if ok then .returned else .unfinished)
  | .edit => ({ x with dirty := true }, .returned)
  | .editTime => ({ x with timeDirty := true }, .returned)
  | .openFile p m => match openFile x.st p m true with
    | some (s, _) => ({ x with st := s }, .returned)
    | none => (x, .raised)
  | .closeFile h => ({ x with st := close x.st h }, .returned)
  | .frames p => match makeStore x.st (.path p) .r none false with -- `recorders.py:699`, `_tables_recorders.pyx:651`
    | (s, some st) => ({ x with st := { s with frames := s.frames ++ [st] } }, .returned)
    | (s, none) => ({ x with st := s }, .raised)
  | .framesEnd k => ({ x with st := drop { x.st with frames := x.st.frames.eraseIdx k } x.st.frames[k]? }, .returned)

/-- Several calls. -/
def calls (cs : List (Nat × Comp)) (x : MSt) (l : List Call) : MSt := l.foldl (fun x c => (call cs x c).1) x

/-- A new model: dirty, no file open. -/
def fresh (disk : Path → Option Attrs) (dirs : List Dir) : MSt :=
  ⟨⟨disk, dirs, [], 0, fun _ => ⟨none, false⟩, []⟩, true, true, false⟩

end Verif.H5Files

import Mathlib.Data.Rat.Defs
/-!
# The CSV recorder and its file

Models `CSVRecorder` (`/repo/pywr/recorders/recorders.py:113-228`) down to the bytes of the file, for uncompressed files.  The text file object of Python
collects what is written in a buffer and passes it on at times that are not specified (here: whenever `flush` events occur, any number of
characters); it passes on the rest when it is closed or when the last reference to it goes.  `csv.writer.writerow` is any function from fields to text.
The conversion of a number to text is any function.
-/

namespace Verif.Csv

/-- A node as the recorder sees it: the volumes of a storage or the flows of a node by scenario (`:212-215`). -/
inductive Node
  | storage (volume : List Rat)
  | node (flow : List Rat)

/-- Indexing of an array by a Python integer: negative indices count from the end; `none` is the IndexError. -/
def pyIndex (l : List Rat) (i : Int) : Option Rat :=
  if 0 ≤ i then l[i.toNat]? else if 0 ≤ (l.length : Int) + i then l[((l.length : Int) + i).toNat]? else none

/-- The value of a node (`:211-215`). -/
def Node.value (n : Node) (scenario : Int) : Option Rat := match n with
  | .storage v => pyIndex v scenario
  | .node f => pyIndex f scenario

/-- The keyword arguments `Recorder.__init__` and `Component.__init__` know (`/repo/pywr/recorders/_recorders.pyx:218-226`, `/repo/pywr/_component.pyx:84`). -/
def recorderKeywords : List String :=
  ["agg_func", "ignore_nan", "is_objective", "epsilon", "name", "constraint_lower_bounds", "constraint_upper_bounds", "comment", "tags"]

/-- `__init__` (`:134-153`): the keyword arguments not named in the signature are passed to `Recorder.__init__` before `csv_kwargs` is taken out of them;
`false` is the TypeError. -/
def init (kwargs : List String) : Bool := kwargs.all fun k => recorderKeywords.contains k

/-- The names in the order of the columns (`:164-180`): given, or all names sorted. -/
def setupNames (given : Option (List String)) (model : List String) : List String := match given with
  | none => model.mergeSort fun a b => decide (a ≤ b)
  | some l => l

/-- The text file object: where in the file the next characters go, and the characters it has not passed on. -/
structure Handle where
  pos : Nat
  buf : List Char

/-- The file and the recorder's `_fh`, `_writer` (`none`: not opened, or closed) and `_node_names`. -/
structure St where
  file : List Char
  handle : Option Handle
  names : List String

/-- Write characters at a position; what lies between the end of the file and the position becomes NUL. Writing nothing does nothing. -/
def writeAt (file : List Char) (pos : Nat) (data : List Char) : List Char :=
  if data = [] then file else file.take pos ++ List.replicate (pos - file.length) '\x00' ++ data ++ file.drop (pos + data.length)

/-- Pass on the first `k` characters of the buffer. -/
def flush (k : Nat) (st : St) : St := match st.handle with
  | none => st
  | some h => { st with file := writeAt st.file h.pos (h.buf.take k), handle := some ⟨h.pos + (h.buf.take k).length, h.buf.drop k⟩ }

/-- `finish` (`:223-225`), the `close` of the file object: pass on all. -/
def close (st : St) : St := match st.handle with
  | none => st
  | some h => { st with file := writeAt st.file h.pos h.buf, handle := none }

/-- `writerow`: into the buffer; `none`: the file is closed (ValueError) or was never opened. -/
def writerow (csv : List String → List Char) (fields : List String) (st : St) : Option St := st.handle.map fun h =>
  { st with handle := some { h with buf := h.buf ++ csv fields } }

/-- `reset` (`:182-203`): opening truncates the file; then the old writer, and with it the old file object, is dropped and passes on what it still has. -/
def reset (csv : List String → List Char) (st : St) : Option St :=
  let st := { st with file := [] }
  let st := close st
  writerow csv ("Datetime" :: st.names) { st with handle := some ⟨0, []⟩ }

/-- The fields of a row (`:205-221`); `none`: KeyError or IndexError. -/
def fields (fmt : Rat → String) (scenario : Int) (names : List String) (date : String) (nodes : String → Option Node) : Option (List String) :=
  (names.mapM fun n => ((nodes n).bind fun x => x.value scenario).map fmt).map fun vs => date :: vs

/-- What happens to a recorder. `setup` is given the names. -/
inductive Ev
  | setup (given : Option (List String)) (model : List String)
  | reset
  | after (date : String) (nodes : String → Option Node)
  | flush (k : Nat)
  | finish

/-- One event; `none` is an exception. -/
def step (csv : List String → List Char) (fmt : Rat → String) (scenario : Int) (st : St) : Ev → Option St
  | .setup g m => some { st with names := setupNames g m }
  | .reset => reset csv st
  | .after d ns => (fields fmt scenario st.names d ns).bind fun f => writerow csv f st
  | .flush k => some (flush k st)
  | .finish => some (close st)

/-- A history; the model may be used on after an exception, so a failing event leaves the state as it is. -/
def run (csv : List String → List Char) (fmt : Rat → String) (scenario : Int) : List Ev → St → St
  | [], st => st
  | e :: es, st => run csv fmt scenario es ((step csv fmt scenario st e).getD st)

end Verif.Csv

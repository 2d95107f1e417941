import Mathlib.Data.List.Nodup
/-!
# Data from tables and files; names of types

Models `load_dataframe` (`/repo/pywr/dataframe_tools.py:159-223`) after the data are there: choosing columns and rows; `read_dataframe` (`:226-314`) up to the call of the
reading function: path, checksums, type of file; and the lookup of parameter and recorder types (`/repo/pywr/parameters/_parameters.pyx:48-56, 2276-2289`,
`/repo/pywr/recorders/_recorders.pyx:348-356, 2236-2250`).

pandas is modelled by what the selections used here return: a table is its row and column labels with a value for every pair of positions. Labels are strings (`Label`), tuples for
multi-level labels being labels as well. The reading functions of pandas, and the frequency of dates (`:208-221`), are not modelled. Texts are lists of characters.
-/

namespace Verif.Datasets

abbrev Label := List Char

variable {α : Type}

/-- A `DataFrame`. -/
structure Frame (α : Type) where
  index : List Label
  columns : List Label
  cell : Nat → Nat → α

/-- A `DataFrame`, a `Series` or a single value. -/
inductive Data (α : Type)
  | frame (f : Frame α)
  | series (labels : List Label) (value : Nat → α)
  | scalar (x : α)

inductive Err
  /-- `KeyError`: what was not found (column, columns, index or indexes), and the labels named in the message. -/
  | key (what : String) (named : List Label)
  /-- pandas' `IndexingError` ("Too many indexers"), not caught. -/
  | indexing
  /-- `AttributeError` or `TypeError`: selecting from a single value. -/
  | notAFrame
deriving DecidableEq

/-- The positions of a label. -/
def positions (l : List Label) (c : Label) : List Nat := (List.range l.length).filter fun i => l[i]? == some c

/-- The positions of several labels, `none` if one is missing. -/
def allPositions (l : List Label) : List Label → Option (List Nat)
  | [] => some []
  | c :: cs =>
    if positions l c = [] then none
    else match allPositions l cs with
      | none => none
      | some r => some (positions l c ++ r)

/-- The labels at the positions. -/
def pick (l : List Label) (is : List Nat) : List Label := is.filterMap fun i => l[i]?

/-- The position `k` of a selection. -/
def at' (is : List Nat) (k : Nat) : Nat := is.getD k 0

/-- `df[column]` (`:182-186`); with a label that occurs several times a frame. -/
def selectColumn (c : Label) : Data α → Except Err (Data α)
  | .frame f => match positions f.columns c with
    | [] => .error (.key "column" [c])
    | [j] => .ok (.series f.index fun i => f.cell i j)
    | js => .ok (.frame ⟨f.index, pick f.columns js, fun i k => f.cell i (at' js k)⟩)
  | .series labels v => match positions labels c with
    | [] => .error (.key "column" [c])
    | [i] => .ok (.scalar (v i))
    | is => .ok (.series (pick labels is) fun k => v (at' is k))
  | .scalar _ => .error .notAFrame

/-- `df[columns]` (`:188-194`); of a `Series` this selects by its labels. -/
def selectColumns (cs : List Label) : Data α → Except Err (Data α)
  | .frame f => match allPositions f.columns cs with
    | none => .error (.key "columns" cs)
    | some js => .ok (.frame ⟨f.index, pick f.columns js, fun i k => f.cell i (at' js k)⟩)
  | .series labels v => match allPositions labels cs with
    | none => .error (.key "columns" cs)
    | some is => .ok (.series (pick labels is) fun k => v (at' is k))
  | .scalar _ => .error .notAFrame

/-- `df.loc[index]` (`:196-200`). -/
def selectIndex (r : Label) : Data α → Except Err (Data α)
  | .frame f => match positions f.index r with
    | [] => .error (.key "index" [r])
    | [i] => .ok (.series f.columns fun j => f.cell i j)
    | is => .ok (.frame ⟨pick f.index is, f.columns, fun k j => f.cell (at' is k) j⟩)
  | .series labels v => match positions labels r with
    | [] => .error (.key "index" [r])
    | [i] => .ok (.scalar (v i))
    | is => .ok (.series (pick labels is) fun k => v (at' is k))
  | .scalar _ => .error .notAFrame

/-- `df.loc[indexes, :]` (`:202-206`). The message of the error names `index`. -/
def selectIndexes (index : Option Label) (rs : List Label) : Data α → Except Err (Data α)
  | .frame f => match allPositions f.index rs with
    | none => .error (.key "indexes" index.toList)
    | some is => .ok (.frame ⟨pick f.index is, f.columns, fun k j => f.cell (at' is k) j⟩)
  | .series _ _ => .error .indexing
  | .scalar _ => .error .notAFrame

/-- The keys of the entry (`:160-171`). -/
structure Choice where
  column : Option Label
  columns : Option (List Label)
  index : Option Label
  indexes : Option (List Label)

/-- One selection if its key is given. -/
def given {β : Type} (o : Option β) (f : β → Data α → Except Err (Data α)) (d : Data α) : Except Err (Data α) :=
  match o with
  | none => .ok d
  | some b => f b d

/-- `load_dataframe` once the table is there (`:181-206`). -/
def select (c : Choice) (f : Frame α) : Except Err (Data α) :=
  match given c.column selectColumn (.frame f) with
  | .error e => .error e
  | .ok d => match given c.columns selectColumns d with
    | .error e => .error e
    | .ok d => match given c.index selectIndex d with
      | .error e => .error e
      | .ok d => given c.indexes (selectIndexes c.index) d

/-! ## Reading files -/

/-- The entry, as far as `read_dataframe` looks at it itself. -/
structure Request where
  url : Option (List Char)
  /-- Whether there is `data`. -/
  data : Bool
  checksums : Option (List (List Char × List Char))
  filetype : Option (List Char)

inductive ReadErr
  /-- `ValueError`. -/
  | value
  /-- `HashMismatchError`. -/
  | hash
  /-- `NotImplementedError`. -/
  | unknown
deriving DecidableEq

/-- What happens outside: a file's checksum is compared, a file is handed to the reading function of its type, the embedded data are used. -/
inductive Effect
  | check (path algorithm hash : List Char)
  | read (path filetype : List Char)
  | embedded
deriving DecidableEq

/-- `os.path.isabs` and `os.path.join` (POSIX) with `model.path` (`:229-231`). -/
def resolve (modelPath : Option (List Char)) (url : List Char) : List Char :=
  match modelPath with
  | none => url
  | some p =>
    if url.head? = some '/' then url
    else if p = [] ∨ p.getLast? = some '/' then p ++ url else p ++ '/' :: url

/-- `url.endswith(...)`. -/
def endsWith (url e : List Char) : Bool := e.isSuffixOf url

/-- The type guessed from the extension (`:249-257`). -/
def guess (url : List Char) : Option (List Char) :=
  if endsWith url ".xls".toList || endsWith url ".xlsx".toList then some "excel".toList
  else if endsWith url ".csv".toList || endsWith url ".gz".toList then some "csv".toList
  else if endsWith url ".hdf".toList || endsWith url ".hdf5".toList || endsWith url ".h5".toList then some "hdf".toList
  else if endsWith url ".rds".toList || endsWith url ".Rds".toList || endsWith url ".rdata".toList || endsWith url ".RData".toList then some "rds".toList
  else none

/-- The supported types (`:269-303`). -/
def supported : List (List Char) := ["csv".toList, "excel".toList, "hdf".toList, "dict".toList, "rds".toList]

/-- The loop over the checksums (`:240-242`); `ok path algorithm hash` is whether the file has this checksum. -/
def checkAll (ok : List Char → List Char → List Char → Bool) (path : List Char) : List (List Char × List Char) → Bool × List Effect
  | [] => (true, [])
  | (a, h) :: rest =>
    if ok path a h then
      let r := checkAll ok path rest
      (r.1, .check path a h :: r.2)
    else (false, [.check path a h])

/-- `read_dataframe` (`:226-303`). The type `dict` for a file fails on the missing data (`UnboundLocalError`; given as `value` here). -/
def readDataframe (modelPath : Option (List Char)) (ok : List Char → List Char → List Char → Bool) (r : Request) : Except ReadErr Unit × List Effect :=
  match r.url with
  | none =>
    if r.data = false then (.error .value, [])
    else if r.filetype.isSome then (.error .value, [])
    else if r.checksums.isSome then (.error .value, [])
    else (.ok (), [.embedded])
  | some u =>
    let path := resolve modelPath u
    let c := checkAll ok path (r.checksums.getD [])
    if c.1 = false then (.error .hash, c.2)
    else
      let t := match r.filetype with
        | some t => some t
        | none => guess path
      match t with
      | none => (.error .unknown, c.2)
      | some t =>
        if t = "dict".toList then (.error .value, c.2)
        else if t ∈ supported then (.ok (), c.2 ++ [.read path t])
        else (.error .unknown, c.2)

/-! ## Types -/

/-- `str.lower` (ASCII). -/
def lower (s : List Char) : List Char := s.map Char.toLower

/-- The registry: a `dict` with the names of the classes in lower case as keys; a later class of the same name takes the place. -/
def lookup (classes : List (List Char)) (key : List Char) : Option Nat :=
  ((List.range classes.length).reverse).find? fun i => (classes[i]?).map lower == some key

def parameterSuffix : List Char := "parameter".toList
def recorderSuffix : List Char := "recorder".toList

/-- `get_parameter_from_registry` (`_parameters.pyx:2276-2289`): the class, by its position. The result of `key.replace(...)` is thrown away. -/
def parameterClass (classes : List (List Char)) (type : List Char) : Option Nat :=
  let key := lower type
  match lookup classes key with
  | some c => some c
  | none =>
    if endsWith key parameterSuffix then lookup classes key
    else lookup classes (key ++ parameterSuffix)

/-- `s.replace(w, "")` for a nonempty `w`; the number bounds the length. -/
def removeUpTo (w : List Char) : Nat → List Char → List Char
  | 0, s => s
  | _ + 1, [] => []
  | n + 1, c :: cs => if w.isPrefixOf (c :: cs) then removeUpTo w n ((c :: cs).drop w.length) else c :: removeUpTo w n cs

def remove (w s : List Char) : List Char := removeUpTo w s.length s

/-- The lookup in `load_recorder` (`_recorders.pyx:2239-2250`). -/
def recorderClass (classes : List (List Char)) (type : List Char) : Option Nat :=
  let key := lower type
  match lookup classes key with
  | some c => some c
  | none =>
    if endsWith key recorderSuffix then lookup classes (remove recorderSuffix key)
    else lookup classes (key ++ recorderSuffix)

end Verif.Datasets

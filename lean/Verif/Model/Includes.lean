/-!
# Included documents

Models `Model._load_includes` and `_load_json_include` (`/repo/pywr/_model.pyx:221-241`, `:248-270`).
-/

namespace Verif.Includes

/-- A section of a document: a list, a mapping (given by its look-up), or anything else (text, number, null, …). `X` and `Y` are the types
of the entries. -/
inductive Section (X Y : Type)
  | list (l : List X)
  | dict (d : String → Option Y)
  | other

/-- A document: its sections in order, with distinct keys (a Python dictionary). -/
abbrev Doc (X Y : Type) := List (String × Section X Y)

/-- `data[key] = value`: replaces the entry in place or appends it. -/
def put {X Y : Type} (doc : Doc X Y) (key : String) (s : Section X Y) : Doc X Y :=
  match doc with
  | [] => [(key, s)]
  | e :: rest => if e.1 = key then (key, s) :: rest else e :: put rest key s

/-- Why loading stops. -/
inductive Error
  /-- `TypeError`: the included document has a section that is neither a list nor a mapping, `:269`. -/
  | invalidType
  /-- `AttributeError`: the section is a list in one document and not in the other (`extend`/`update` missing), `:259`, `:264`. -/
  | wrongKind
  /-- The file cannot be read or is not a JSON object, `:250-256`. -/
  | unreadable
  /-- `NotImplementedError`: unknown extension, `:241`. -/
  | extension
  /-- An entry of `includes` is not text. -/
  | notText
  /-- `includes` is not a list (a text or a mapping would be iterated by character or key; not modelled). -/
  | notList
deriving DecidableEq

/-- The body of the loop `:257-269` for one section. `old` is `data[key]`. -/
def mergeSection {X Y : Type} (old : Option (Section X Y)) (value : Section X Y) : Except Error (Section X Y) :=
  match value, old with
  | .list v, none => .ok (.list v)
  | .list v, some (.list l) => .ok (.list (l ++ v))
  | .list _, some _ => .error .wrongKind
  | .dict v, none => .ok (.dict v)
  | .dict v, some (.dict d) => .ok (.dict fun k => (v k).or (d k))
  | .dict _, some _ => .error .wrongKind
  | .other, _ => .error .invalidType

/-- `_load_json_include`, `:257-269`. -/
def mergeDoc {X Y : Type} : Doc X Y → Doc X Y → Except Error (Doc X Y)
  | data, [] => .ok data
  | data, (key, value) :: rest =>
    match mergeSection (data.lookup key) value with
    | .error e => .error e
    | .ok s => mergeDoc (put data key s) rest

/-- What an entry of `includes` refers to. -/
inductive File (X Y : Type)
  | json (doc : Doc X Y)
  /-- A Python file. Running it (`:244-246`) is not modelled. -/
  | py
  | unreadable
  | extension
  | notText

/-- State of the loading. -/
inductive Result (X Y : Type)
  | done (doc : Doc X Y)
  | error (e : Error)
  | running

/-- `_load_includes`, `:228-241`, from the `i`-th entry of the list. The list is extended in place while it is iterated when an included
document has includes itself, so the loop reads it again in every turn. `read` resolves an entry (extension, path and content);
`fuel` bounds the number of files, `running`: not finished. -/
def loop {X Y : Type} (read : X → File X Y) : Nat → Nat → Doc X Y → Result X Y
  | 0, _, _ => .running
  | fuel + 1, i, data =>
    match data.lookup "includes" with
    | none => .done data
    | some (.list names) =>
      match names[i]? with
      | none => .done data
      | some name =>
        match read name with
        | .json doc =>
          match mergeDoc data doc with
          | .error e => .error e
          | .ok data' => loop read fuel (i + 1) data'
        | .py => loop read fuel (i + 1) data
        | .unreadable => .error .unreadable
        | .extension => .error .extension
        | .notText => .error .notText
    | some _ => .error .notList

/-- Loading a document from a dictionary (`load_from_dict`, `:341`): once. -/
def loadDict {X Y : Type} (read : X → File X Y) (fuel : Nat) (data : Doc X Y) : Result X Y := loop read fuel 0 data

/-- Loading a document from a file or text: `loads` loads the includes (`:212`), and `load_from_dict`, called through `load` (`:213`), loads them again
(`:341`). -/
def loadFile {X Y : Type} (read : X → File X Y) (fuel : Nat) (data : Doc X Y) : Result X Y :=
  match loop read fuel 0 data with
  | .done d => loadDict read fuel d
  | r => r

end Verif.Includes

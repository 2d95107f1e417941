/-!
# File hashes

Models `/repo/pywr/hashes.py` (`compute_hash` `:7-15`, `check_hash` `:18-48`), called through `Model.check_hash`
(`/repo/pywr/_model.pyx:927-928`) with the model's dictionary `_file_hashes` as cache.
-/

namespace Verif.Hashes

/-- A hash algorithm of `hashlib`: start state, `update`, `hexdigest`. -/
structure Hasher where
  State : Type
  start : State
  update : State → List UInt8 → State
  digest : State → String

/-- `iter(lambda: fh.read(chunk_size), b"")` on a file with the given remaining content: the chunks up to the first empty one.
`fuel` bounds the number of chunks (one per byte suffices for `chunk_size > 0`). A negative chunk size, which reads everything, is not
modelled. -/
def chunks (size : Nat) : Nat → List UInt8 → List (List UInt8)
  | 0, _ => []
  | fuel + 1, content =>
    let chunk := content.take size
    if chunk = [] then [] else chunk :: chunks size fuel (content.drop size)

/-- `compute_hash`, `:7-15`, of a file with the given content. -/
def computeHash (h : Hasher) (size : Nat) (content : List UInt8) : String :=
  h.digest ((chunks size content.length content).foldl h.update h.start)

/-- A call of `check_hash` and what `compute_hash` would do at that time (`none`: it raises, e.g. because there is no such file). -/
structure Check where
  filename : String
  algorithm : String
  hash : String
  actual : Option String

/-- Outcome of a call. -/
inductive Outcome
  | passed
  | mismatch
  | failed
deriving DecidableEq

/-- The cache: `(filename, algorithm)` to digest. -/
abbrev Cache := String × String → Option String

/-- `check_hash`, `:18-48`, with a cache. -/
def check (lower : String → String) (cache : Cache) (c : Check) : Outcome × Cache :=
  match cache (c.filename, c.algorithm) with
  | some cached => if lower cached = lower c.hash then (.passed, cache) else (.mismatch, cache)
  | none =>
    match c.actual with
    | none => (.failed, cache)
    | some actual =>
      if lower c.hash ≠ lower actual then (.mismatch, cache)
      else (.passed, fun k => if k = (c.filename, c.algorithm) then some actual else cache k)

/-- `check_hash` without a cache. -/
def checkUncached (lower : String → String) (c : Check) : Outcome :=
  match c.actual with
  | none => .failed
  | some actual => if lower c.hash ≠ lower actual then .mismatch else .passed

/-- A sequence of calls with the same cache, and their outcomes. -/
def checks (lower : String → String) : Cache → List Check → List Outcome
  | _, [] => []
  | cache, c :: cs =>
    let r := check lower cache c
    r.1 :: checks lower r.2 cs

end Verif.Hashes

import Verif.Model.Recorders
import Verif.Model.Scenarios
import Mathlib.Data.Rat.Floor
/-!
# Output files

Models `TablesRecorder2` of `/repo/pywr/recorders/_tables_recorders.pyx` (and, with a buffer of one timestep, the rows of
`TablesRecorder` of `/repo/pywr/recorders/recorders.py:640-678`): the number of buffered timesteps, the after- and
finish-hooks, the items recorded and the columns of `generate_dataframes`.

A file array is a list with one entry per timestep; the entry (a "row", the values of all combinations) is abstract. One
array and its buffer are modelled: the three arrays of a node (and the arrays of the other items) are written by the same
statements with the same indices. Not modelled: PyTables, the array of route flows, attributes and metadata.
-/

namespace Verif.Tables

open Verif.Run

/-- `self._buffer_num_timesteps` as left by `setup` (`_tables_recorders.pyx:259-269`). `timesteps` is `buffer_timesteps`,
`size` is `buffer_size` (in exact arithmetic), `items` the number of items, `columns` the product of the scenario shape,
`n` the number of timesteps. `none`: the division by the number of items raises (`columns` is numpy's product, dividing
by zero gives a warning; it is never zero here, see C03). -/
def bufferTimesteps (timesteps : Option Int) (size : Option Rat) (items columns n : Nat) : Option Int :=
  match timesteps with
  | some b => some (min b n)
  | none => match size with
    | some sz =>
      if items = 0 then none
      else some (min (max 1 ⌊((⌊sz * 1024 * 1024 / 8 / 3 / items⌋ : Int) : Rat) / columns⌋) n)
    | none => some 1

/-- An array of the file, its buffer, and the `index` column of the time table. -/
structure St (R : Type) where
  file : List R
  buffer : List R
  time : List Nat
deriving DecidableEq

variable {R : Type}

/-- One array of `flush_buffer(idx, num)` (`:593-614`): `array[idx + 1 - num : idx + 1, ...] = buffer[:num, ...]`, with
`start = idx + 1 - num`. A negative start (only if nothing was run with a buffer for the whole run) would select no rows
in place of `num`, which is taken to raise (PyTables). -/
def flush (start : Int) (num : Nat) (s : St R) : Option (St R) :=
  if start < 0 then none
  else if start.toNat + num ≤ s.file.length ∧ num ≤ s.buffer.length then
    some { s with file := s.file.take start.toNat ++ s.buffer.take num ++ s.file.drop (start.toNat + num) }
  else none

/-- The hooks of `TablesRecorder2` for one array: `reset` (`:381-446`) leaves the array in the file as it was (`file`), a
new uninitialised buffer (`junk`) and an empty time table; `after` (`:509-583`); `finish` (`:616-637`). `n` is
`len(self.model.timestepper)`, `b` the number of buffered timesteps. Without buffer (`b ≤ 1`) the row is written directly,
still `idx % b` is evaluated (`:533`), which raises for `b = 0`. With `current = None` finishing a buffer raises
(`ts.index`). -/
def tables (n : Nat) (b : Int) (file junk : List R) : Rec (St R) R where
  init := ⟨file, junk, []⟩
  after k o s :=
    if b = 0 then none
    else if b ≤ 1 then
      if k < s.file.length then some ⟨s.file.set k o, s.buffer, s.time ++ [k]⟩ else none
    else
      let s1 : St R := ⟨s.file, s.buffer.set (k % b.toNat) o, s.time ++ [k]⟩
      if (k + 1) % b.toNat = 0 then flush ((k : Int) + 1 - b) b.toNat s1 else some s1
  finish current s :=
    if b ≤ 1 then some s
    else match current with
      | none => none
      | some idx =>
        let residual := idx % b.toNat
        if residual > 0 then flush ((idx : Int) - residual) residual s
        else if b = n then flush ((idx : Int) - b) b.toNat s
        else some s

/-- The columns made by `generate_dataframes` (`:663-671`): `MultiIndex.from_product([range(size) for every scenario])`. -/
def labels (sizes : List Nat) : List (List Int) :=
  Scenarios.product (sizes.map fun m => (List.range m).map Int.ofNat)

/-- `pandas.DataFrame(data.reshape((data.shape[0], -1)), columns=columns)` (`:678-680`) for data with `columns` values per
timestep: the label of every column, or `none` if the numbers of columns and labels differ (pandas raises). -/
def dataframeColumns (sizes : List Nat) (columns : Nat) : Option (List (List Int)) :=
  if (labels sizes).length = columns then some (labels sizes) else none

/-- An entry of the argument `nodes` (names are lists of characters): a name, a node object (given by its name), or a pair
of a path and a name or node object. -/
inductive Item
  | name (s : List Char)
  | object (s : List Char)
  | pair (path : List Char) (node : List Char)
deriving DecidableEq

/-- Errors when collecting the items. -/
inductive Err
  | keyError
  | typeError
deriving DecidableEq

/-- The items of `setup` (`:239-254`): the path and the node recorded there. `where, node = n` also unpacks a string of two
characters; for a node object the unpacking raises `TypeError` and `self.where + "/" + node` raises another one. The
replacement of `//` by `/` is left out (paths without empty parts). -/
def resolve (root : List Char) (nodes : List (List Char)) : Item → Except Err (List Char × List Char)
  | .name [c, d] => if [d] ∈ nodes then .ok ([c], [d]) else .error .keyError
  | .name s => if s ∈ nodes then .ok (root ++ '/' :: s, s) else .error .keyError
  | .object _ => .error .typeError
  | .pair p s => if s ∈ nodes then .ok (p, s) else .error .keyError

end Verif.Tables

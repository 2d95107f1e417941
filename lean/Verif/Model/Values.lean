import Verif.Model.Datasets
import Mathlib.Data.List.GetD
/-!
# Values of parameters in documents

Models where the numbers of a parameter come from: `load_parameter_values` (`/repo/pywr/parameters/_parameters.pyx:2349-2385`) with `load_dataframe` (`/repo/pywr/dataframe_tools.py:159-206`,
the selections are those of `Verif.Datasets`), `Parameter.load` (`_parameters.pyx:125-142`), the constructors of the parameters with an array of values (`:287-289`, `:307-320`, `:520-531`,
`:627-634`, `:648-659`, `:697-704`, `:810-821`, `:849-860`, `:887-898`) and their `value` methods, and the entry without `type` (`:2319-2323`).

Arrays are a shape and the numbers in row-major order. Numbers are of an abstract type. In a document the numbers are given as one number, a list or a list of lists (deeper lists are not
modelled). A table is read by pandas, which is a parameter of the model, as is the treatment of dates (`dataframe_tools.py:208-221`). Options are texts.
-/

namespace Verif.Values

open Verif.Datasets

variable {α : Type}

/-- `numpy.ndarray`. -/
structure Arr (α : Type) where
  shape : List Nat
  data : List α
deriving DecidableEq

/-- What a document has under `values`; `other`: anything of which numpy cannot make an array of numbers. -/
inductive Inline (α : Type)
  | number (x : α)
  | list (l : List α)
  | rows (l : List (List α))
  | other

inductive Err
  /-- `ValueError`. -/
  | value
  /-- `TypeError`. -/
  | type
  /-- `KeyError`. -/
  | key
  /-- What is raised by the selection in a table. -/
  | selection (e : Datasets.Err)
  /-- What is raised by pandas. -/
  | reading
  /-- `IndexError`. -/
  | index
deriving DecidableEq

/-- `np.array(values, np.float64)` (`:2367-2369`). -/
def ofInline : Inline α → Except Err (Arr α)
  | .number x => .ok ⟨[], [x]⟩
  | .list l => .ok ⟨[l.length], l⟩
  | .rows [] => .ok ⟨[0], []⟩
  | .rows (r :: rs) => if rs.all fun s => s.length == r.length then .ok ⟨[rs.length + 1, r.length], (r :: rs).flatten⟩ else .error .value
  | .other => .error .value

/-- `df.values`, or the single value (`:2372-2376`). -/
def ofData : Data α → Arr α
  | .frame f => ⟨[f.index.length, f.columns.length], (List.range f.index.length).flatMap fun i => (List.range f.columns.length).map (f.cell i)⟩
  | .series labels v => ⟨[labels.length], (List.range labels.length).map v⟩
  | .scalar x => ⟨[], [x]⟩

/-- `np.squeeze`. -/
def squeeze (a : Arr α) : Arr α := ⟨a.shape.filter (· ≠ 1), a.data⟩

/-- The entries of a parameter. `options`: all but those named here (`type`, `name`, `tags` and `comment` are taken out and do not reach the constructor, `:133-134`, `:2316-2331`). -/
structure Doc (α : Type) where
  values : Option (Inline α) := none
  url : Option String := none
  table : Option Label := none
  choice : Choice := ⟨none, none, none, none⟩
  scenario : Option String := none
  options : List (String × String) := []

/-- What lies outside: the tables of the model, what pandas makes of a file with the remaining entries as arguments (`dataframe_tools.py:226-312`), and the sizes of the scenarios. -/
structure World (α : Type) where
  tables : Label → Option (Frame α)
  read : String → List (String × String) → Option (Frame α)
  scenarios : String → Option Nat

/-- The keys `column`, `columns`, `index` and `indexes` that are there. -/
def choiceKeys (c : Choice) : List String :=
  (if c.column.isSome then ["column"] else []) ++ (if c.columns.isSome then ["columns"] else []) ++
    (if c.index.isSome then ["index"] else []) ++ (if c.indexes.isSome then ["indexes"] else [])

/-- `load_parameter_values(model, data)`: the array, and the entries then left in `data` with which the constructor is called (as `Parameter.load` takes out `values` and `url`, these
are left out). `load_dataframe` takes out `column`, `columns`, `index`, `indexes` and `table`; reading a file empties `data` (`dataframe_tools.py:310-312`). -/
def loadValues (w : World α) (d : Doc α) : Except Err (Arr α × List (String × String)) :=
  match d.values with
  | some v => match ofInline v with
    | .error e => .error e
    | .ok a => .ok (a, (if d.table.isSome then [("table", "")] else []) ++ (choiceKeys d.choice).map (fun k => (k, "")) ++ d.options)
  | none => match d.table with
    | some t => match w.tables t with
      | none => .error .key
      | some f => match select d.choice f with
        | .error e => .error (.selection e)
        | .ok x => .ok (squeeze (ofData x), d.options)
    | none => match d.url with
      | some u => match w.read u d.options with
        | none => .error .reading
        | some f => match select d.choice f with
          | .error e => .error (.selection e)
          | .ok x => .ok (squeeze (ofData x), [])
      | none => .error .value

/-- The classes. -/
inductive Kind
  | daily
  | weekly
  | monthly
  | arrayIndexed
  | constantScenario
  | scenarioDaily
  | scenarioWeekly
  | scenarioMonthly
  | arrayIndexedScenario
deriving DecidableEq

/-- The classes whose constructor has an argument `scenario`. -/
def Kind.needsScenario : Kind → Bool
  | .daily | .weekly | .monthly | .arrayIndexed => false
  | _ => true

/-- The keyword arguments of the constructors (with those of `Parameter`, `:43-45`; `name`, `comment` and `tags` are taken). -/
def Kind.keywords : Kind → List String
  | .monthly => ["lower_bounds", "upper_bounds", "interp_day", "is_variable"]
  | _ => ["is_variable"]

/-- `len(values)`: raises `TypeError` for a single number. -/
def len (a : Arr α) : Except Err Nat :=
  match a.shape with
  | [] => .error .type
  | n :: _ => .ok n

/-- The assignment to an attribute of type `double[:]`: the array must have one dimension. -/
def oneDimensional (a : Arr α) : Except Err (Arr α) :=
  match a.shape with
  | [_] => .ok a
  | _ => .error .value

/-- The checks of the classes with one row for every member of the scenario. -/
def memberRows (columns : Nat) (size : Nat) (a : Arr α) : Except Err (Arr α) :=
  match a.shape with
  | [m, n] => if size = m then if n = columns then .ok a else .error .value else .error .value
  | _ => .error .value

/-- What the constructor keeps as its values; `size` is the size of the scenario (0 for the classes without). -/
def construct (k : Kind) (size : Nat) (a : Arr α) : Except Err (Arr α) :=
  match k with
  -- `:627-634`
  | .daily =>
    if (squeeze a).shape.length ≠ 1 then .error .value
    else match len a with
      | .error e => .error e
      | .ok n => if n ≠ 366 then .error .value else .ok (squeeze a)
  -- `:648-659`: the truncated array is only counted
  | .weekly =>
    if (squeeze a).shape.length ≠ 1 then .error .value
    else match len a with
      | .error e => .error e
      | .ok n => if (if n = 53 then 52 else n) ≠ 52 then .error .value else .ok (squeeze a)
  -- `:697-704`
  | .monthly => match len a with
    | .error e => .error e
    | .ok n => if n ≠ 12 then .error .value else oneDimensional a
  -- `:287-289`
  | .arrayIndexed => oneDimensional a
  -- `:520-531`: one number of every `values[i]`
  | .constantScenario => match len a with
    | .error e => .error e
    | .ok n => if size ≠ n then .error .value else if a.shape.tail.all (· == 1) then .ok ⟨[n], a.data⟩ else .error .type
  -- `:887-898`
  | .scenarioDaily => memberRows 366 size a
  -- `:849-860`
  | .scenarioWeekly => memberRows 52 size a
  -- `:810-821`
  | .scenarioMonthly => memberRows 12 size a
  -- `:307-320`
  | .arrayIndexedScenario => match a.shape with
    | [_, n] => if size ≠ n then .error .value else .ok a
    | _ => .error .value

/-- A parameter: its class, its numbers and the options its constructor was given. -/
structure Param (α : Type) where
  kind : Kind
  values : Arr α
  options : List (String × String)
deriving DecidableEq

/-- `model.scenarios[scenario]` (`:128`, `:136-137`): its size. -/
def sizeOf (w : World α) : Option String → Except Err (Option Nat)
  | none => .ok none
  | some s => match w.scenarios s with
    | none => .error .key
    | some n => .ok (some n)

/-- `cls.load` (`Parameter.load`, `:125-142`). `scenario=` is only passed if it was given; an argument that the constructor does not have, or is without, is a `TypeError`. -/
def load (w : World α) (k : Kind) (d : Doc α) : Except Err (Param α) :=
  match loadValues w d with
  | .error e => .error e
  | .ok (a, rest) =>
    match sizeOf w d.scenario with
    | .error e => .error e
    | .ok sc =>
      if sc.isSome ≠ k.needsScenario then .error .type
      else if rest.all fun o => o.1 ∈ k.keywords then match construct k (sc.getD 0) a with
        | .error e => .error e
        | .ok a => .ok ⟨k, a, rest⟩
      else .error .type

/-- The parts of a timestep that are used: its number, its month (1 to 12), the index of its week, the index of its day in a leap year. -/
structure Day where
  index : Nat
  month : Nat
  week : Nat
  day : Nat

/-- `a[i]`, `a[i, j]`. -/
def Arr.at1 (a : Arr α) (i : Nat) : Option α :=
  match a.shape with
  | [n] => if i < n then a.data[i]? else none
  | _ => none

def Arr.at2 (a : Arr α) (i j : Nat) : Option α :=
  match a.shape with
  | [m, n] => if i < m ∧ j < n then a.data[i * n + j]? else none
  | _ => none

/-- `value(ts, scenario_index)` with the member `i` of the scenario (`:298`, `:333`, `:545`, `:637`, `:661`, `:767-769` without `interp_day`, `:830`, `:868`, `:906-907`); `none`:
`IndexError`. -/
def Param.value (p : Param α) (t : Day) (i : Nat) : Option α :=
  match p.kind with
  | .daily => p.values.at1 t.day
  | .weekly => p.values.at1 t.week
  | .monthly => p.values.at1 (t.month - 1)
  | .arrayIndexed => p.values.at1 t.index
  | .constantScenario => p.values.at1 i
  | .scenarioDaily => p.values.at2 i t.day
  | .scenarioWeekly => p.values.at2 i t.week
  | .scenarioMonthly => p.values.at2 i (t.month - 1)
  | .arrayIndexedScenario => p.values.at2 t.index i

/-- `float(values)`, and the conversion to `double`: arrays of one number. -/
def toNumber (a : Arr α) : Except Err α :=
  if a.shape.all (· == 1) then match a.data with
    | [x] => .ok x
    | _ => .error .type
  else .error .type

/-- An entry without `type` (`:2319-2323`), such as the `max_flow` of a node: the number. What is left in `data` does not matter. -/
def loadNumber (w : World α) (d : Doc α) : Except Err α :=
  match loadValues w d with
  | .error e => .error e
  | .ok (a, _) => toNumber a

/-- `ConstantParameter.load` (`:180-187`): `value` or the number loaded; `value` with the other entries left out. -/
def loadConstant (w : World α) (value : Option α) (d : Doc α) : Except Err α :=
  match value with
  | some x => .ok x
  | none => loadNumber w d

end Verif.Values

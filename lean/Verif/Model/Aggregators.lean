import Verif.Model.Constraints
import Verif.Model.DurationCurves
/-!
# Aggregation functions: how they are given, percentiles and scores

Models `/repo/pywr/recorders/_recorders.pyx:10-33` (the table of names), `:84-107` (`Aggregator.func`), and the percentile branches of `aggregate_1d` and `aggregate_2d` (`:133-136, 167-181`) with `np.percentile` (linear
interpolation, `Model/DurationCurves.lean`) and scipy's `percentileofscore` (the four kinds). Arguments of these two functions other than the percentile, the score and the kind are not modelled.
-/

namespace Verif.Aggregators

open Verif.Constraints

/-- `AggFuncs` (`:10-20`). -/
inductive Code
  | simple (f : Func)
  | custom
  | percentile
  | percentileofscore
deriving DecidableEq

/-- A name; letters are compared one by one. -/
abbrev Name := List Char

/-- `_agg_func_lookup` (`:21-32`). -/
def table : List (Name × Code) :=
  [("sum".toList, .simple .sum), ("min".toList, .simple .min), ("max".toList, .simple .max), ("mean".toList, .simple .mean), ("median".toList, .simple .median), ("product".toList, .simple .product),
    ("custom".toList, .custom), ("percentile".toList, .percentile), ("percentileofscore".toList, .percentileofscore), ("count_nonzero".toList, .simple .countNonzero)]

/-- `_agg_func_lookup[name]`; `none`: a `KeyError`. -/
def lookup (n : Name) : Option Code := table.lookup n

/-- `_agg_func_lookup_reverse[code]` (`:33`). -/
def nameOf (c : Code) : Option Name := (table.find? fun e => decide (e.2 = c)).map (·.1)

/-- A value in `args` or `kwargs`. -/
inductive Arg
  | number (x : Rat)
  | text (s : Name)
deriving DecidableEq

/-- What is assigned to `func`: a string, a dictionary, a callable (a number stands for the function), or anything else. -/
inductive Given
  | name (n : Name)
  | dict (func : Name) (args : List Arg) (kwargs : List (Name × Arg))
  | callable (f : Nat)
  | other
deriving DecidableEq

/-- `_func`, `_user_func`, `func_args`, `func_kwargs`. -/
structure Aggregator where
  code : Code
  user : Option Nat
  args : List Arg
  kwargs : List (Name × Arg)
deriving DecidableEq

/-- Setter of `func` (`:89-107`): whether it went through, and the aggregator afterwards. `_user_func` is cleared before anything can go wrong. -/
def Aggregator.set (a : Aggregator) : Given → Bool × Aggregator
  | .name n =>
    match lookup (n.map Char.toLower) with
    | some c => (true, ⟨c, none, [], []⟩)
    | none => (false, { a with user := none })
  | .dict n args kwargs =>
    match lookup n with
    | some c => (true, ⟨c, none, args, kwargs⟩)
    | none => (false, { a with user := none })
  | .callable f => (true, ⟨.custom, some f, [], []⟩)
  | .other => (false, { a with user := none })

/-- Getter of `func` (`:85-88`): the user function (perhaps `None`) or the name. -/
def Aggregator.get (a : Aggregator) : Option Given := if a.code = .custom then a.user.map .callable else (nameOf a.code).map .name

/-- An argument given by position or by name; `none`: missing, or given twice (`TypeError`). -/
def argument (args : List Arg) (kwargs : List (Name × Arg)) (i : Nat) (name : Name) : Option Arg :=
  match args[i]?, kwargs.lookup name with
  | some x, none => some x
  | none, some x => some x
  | _, _ => none

/-- The kinds of `scipy.stats.percentileofscore`. -/
inductive Kind
  | rank | strict | weak | mean
deriving DecidableEq

def kindOf : Arg → Option Kind
  | .text s => [("rank".toList, Kind.rank), ("strict".toList, .strict), ("weak".toList, .weak), ("mean".toList, .mean)].lookup s
  | .number _ => none

/-- `scipy.stats.percentileofscore(l, score, kind)` for values that are numbers; there must be one. -/
def scoreOf (l : List Rat) (score : Rat) : Kind → Rat
  | .strict => (l.countP fun x => decide (x < score) : Nat) * (100 / (l.length : Rat))
  | .weak => (l.countP fun x => decide (x ≤ score) : Nat) * (100 / (l.length : Rat))
  | .mean => ((l.countP fun x => decide (x < score) : Nat) + (l.countP fun x => decide (x ≤ score) : Nat)) * (50 / (l.length : Rat))
  | .rank =>
    let left := l.countP fun x => decide (x < score)
    let right := l.countP fun x => decide (x ≤ score)
    ((left : Rat) + (right : Rat) + (if left < right then 1 else 0)) * (50 / (l.length : Rat))

/-- The call `np.percentile(values, *args, **kwargs)` or `percentileofscore(values, *args, **kwargs)`; a NaN among the values gives NaN. -/
def call (c : Code) (args : List Arg) (kwargs : List (Name × Arg)) (l : List (Option Rat)) : Res :=
  match c with
  | .percentile =>
    match argument args kwargs 0 "q".toList with
    | some (.number q) =>
      if q < 0 ∨ 100 < q then .err
      else if none ∈ l then .nan
      else
        match DurationCurves.percentile l.reduceOption q with
        | some x => .num x
        | none => .err
    | _ => .err
  | .percentileofscore =>
    let kind := match args[1]?, kwargs.lookup "kind".toList with
      | none, none => some .rank
      | some k, none => kindOf k
      | none, some k => kindOf k
      | some _, some _ => none
    match argument args kwargs 0 "score".toList, kind with
    | some (.number s), some k => if none ∈ l then .nan else if l = [] then .err else .num (scoreOf l.reduceOption s k)
    | _, _ => .err
  | .simple f => numpyNan f l
  | .custom => .err

/-- `aggregate_1d` (`:109-140`) of an aggregator without user function. -/
def Aggregator.one (a : Aggregator) (l : List (Option Rat)) (ignoreNan : Bool) : Res :=
  if ignoreNan then
    let values := l.filter (·.isSome)
    if values.length = 0 then .nan else call a.code a.args a.kwargs values
  else call a.code a.args a.kwargs l

/-- `aggregate_2d` with `axis=0` (`:142-184`) for `n` columns. -/
def Aggregator.two (a : Aggregator) (rows : List (List (Option Rat))) (n : Nat) : List Res :=
  (List.range n).map fun i => call a.code a.args a.kwargs (rows.map fun r => r.getD i none)

end Verif.Aggregators

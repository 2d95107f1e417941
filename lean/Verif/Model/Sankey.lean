import Mathlib.Algebra.Order.Field.Rat
/-!
# Diagrams of the routes

Models the routes table and the array of route flows of the tables recorders (`/repo/pywr/recorders/_tables_recorders.pyx:450-507, 586-591`, `/repo/pywr/recorders/recorders.py:587-635, 672-678`) and
`routes_to_sankey_links` (`/repo/pywr/notebook/sankey.py:6-74`).  Arrays are functions with their sizes; there is one axis of scenarios.  Flows are rationals.  Not modelled: `rename_func` and `callback_func` that
have a memory, aggregation functions for the time axis that depend on more than the values of one column, NaN (from averaging nothing).
-/

namespace Verif.Sankey

/-- A node on a route: its name and that of its parent, if it has one. -/
structure Node where
  name : String
  parent : Option String
deriving DecidableEq

/-- The name that is shown (`_tables_recorders.pyx:498-504`): the parent's, if there is one. -/
def Node.shown (n : Node) : String :=
  match n.parent with
  | some p => p
  | none => n.name

/-- A row of the routes table (`:493-506`): first and last node of a route (a route has at least two nodes). -/
def row (first last : Node) : String × String := (first.shown, last.shown)

/-- The array in the file: `array[t, r, s]` (`:584-591`).  `flows t s r` is what the solver leaves in `routes_flows_array[s, r]` in timestep `t`, which is transposed. -/
def stored (flows : Nat → Nat → Nat → Rat) (t r s : Nat) : Rat := flows t s r

/-- `np.mean` of a column of values. -/
def mean (xs : List Rat) : Rat := xs.sum / xs.length

/-- `time_slice`: not given, one timestep, or several. -/
inductive Times
  | all
  | one (t : Nat)
  | some (ts : List Nat)

/-- `scenario_slice`: not given, one column, or several. -/
inductive Columns
  | all
  | one (s : Nat)
  | some (ss : List Nat)

/-- The arguments. -/
structure Options where
  times : Times
  timeAgg : Option (List Rat → Rat)
  columns : Columns
  /-- `scenario_agg_func` -/
  columnAgg : Option (List Rat → Rat)
  threshold : Rat
  ignoreCircular : Bool
  rename : Option (String → Bool → String)
  keep : Option (String → String → Rat → Bool)

/-- The defaults (`sankey.py:6-22`). -/
def defaults : Options := ⟨.all, some mean, .all, some mean, 0, false, none, none⟩

/-- An array: one number for each column. -/
abbrev Row := List Rat

/-- The timesteps (`:30-34`), for one route: `T` timesteps and `S` columns.  `none`: the result still has a time axis (`time_agg_func=None` without a single timestep), so that the
assertions at `:46-47` fail, unless it is averaged with the scenarios; that case is left out (it raises here). -/
def overTime (o : Options) (T S : Nat) (a : Nat → Nat → Rat) : Option Row :=
  match o.times, o.timeAgg with
  | .one t, _ => some ((List.range S).map fun s => a t s)
  | .all, some f => some ((List.range S).map fun s => f ((List.range T).map fun t => a t s))
  | .some ts, some f => some ((List.range S).map fun s => f (ts.map fun t => a t s))
  | _, none => none

/-- The scenarios (`:36-42`).  `scenario_agg_func = kwargs.pop("scenario_slice", np.mean)` (`:22`): the keyword has been taken out in the line before, so this is always `np.mean`. -/
def overColumns (o : Options) (r : Row) : Option Rat :=
  match o.columns with
  | .all => some (mean r)
  | .one s => r[s]?
  | .some ss => (ss.mapM fun s => r[s]?).map mean

/-- The number for each route. -/
def values (o : Options) (T R S : Nat) (file : Nat → Nat → Nat → Rat) : Option (List Rat) :=
  (List.range R).mapM fun r => (overTime o T S fun t s => file t r s).bind (overColumns o)

/-- `sources[start][end] += flow` for `defaultdict(lambda: defaultdict(lambda: 0.0))`: the inner dict. -/
def addTarget (d : List (String × Rat)) (target : String) (v : Rat) : List (String × Rat) :=
  match d with
  | [] => [(target, 0 + v)]
  | e :: rest => if e.1 = target then (target, e.2 + v) :: rest else e :: addTarget rest target v

/-- The outer dict. -/
def add (d : List (String × List (String × Rat))) (source target : String) (v : Rat) : List (String × List (String × Rat)) :=
  match d with
  | [] => [(source, addTarget [] target v)]
  | e :: rest => if e.1 = source then (source, addTarget e.2 target v) :: rest else e :: add rest source target v

/-- One turn of the loop (`:49-66`). -/
def turn (o : Options) (d : List (String × List (String × Rat))) (x : (String × String) × Rat) : List (String × List (String × Rat)) :=
  if (match o.keep with | none => true | some k => k x.1.1 x.1.2 x.2) then
    let start := match o.rename with | none => x.1.1 | some f => f x.1.1 true
    let stop := match o.rename with | none => x.1.2 | some f => f x.1.2 false
    if o.ignoreCircular ∧ start = stop then d else add d start stop x.2
  else d

/-- The links (`:68-74`). -/
def collect (threshold : Rat) (d : List (String × List (String × Rat))) : List (String × String × Rat) :=
  d.flatMap fun e => (e.2.filter fun t => ¬ t.2 < threshold).map fun t => (e.1, t.1, t.2)

/-- `routes_to_sankey_links`; `none` for an exception. -/
def links (o : Options) (routes : List (String × String)) (T S : Nat) (file : Nat → Nat → Nat → Rat) : Option (List (String × String × Rat)) :=
  (values o T routes.length S file).map fun vs => collect o.threshold ((routes.zip vs).foldl (turn o) [])

end Verif.Sankey

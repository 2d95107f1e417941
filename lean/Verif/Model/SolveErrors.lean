import Verif.Model.Bounds
/-!
# Bad numbers, failed solves and interrupted timesteps

Models which numbers the route solver hands to GLPK in a timestep (`/repo/pywr/solvers/cython_glpk.pyx:875-1021`), what the
checked and unchecked setters make of them (`:251-335`), the attempts to solve (`:1028-1063`), the loop over the scenarios
(`:821-831`), and a timestep of the model around it (`/repo/pywr/_model.pyx:621-631`).  The edge solver
(`cython_glpk.pyx:1634-1918`) has the same checks, with the costs of single nodes in place of those of routes, and no second
attempt.  Numbers are doubles with infinities and NaN; rounding and overflow are not modelled.
-/

namespace Verif.SolveErrors

open Verif.Bounds

/-! ## Arithmetic of doubles -/

/-- `a + b`. -/
def add : F → F → F
  | .nan, _ => .nan
  | _, .nan => .nan
  | .fin a, .fin b => .fin (a + b)
  | .posInf, .negInf => .nan
  | .negInf, .posInf => .nan
  | .posInf, _ => .posInf
  | _, .posInf => .posInf
  | .negInf, _ => .negInf
  | _, .negInf => .negInf

/-- `-a`. -/
def neg : F → F
  | .fin a => .fin (-a)
  | .posInf => .negInf
  | .negInf => .posInf
  | .nan => .nan

/-- `a - b`. -/
def sub (a b : F) : F := add a (neg b)

/-- `max(a, 0.0)`, compiled to `0.0 > a ? 0.0 : a`: NaN stays NaN. -/
def floorZero : F → F
  | .fin a => if 0 > a then .fin 0 else .fin a
  | .negInf => .fin 0
  | x => x

/-- `a / days` for a positive number of days. -/
def over (a : F) (days : Rat) : F := match a with
  | .fin a => .fin (a / days)
  | x => x

/-- `a == b`: false if either is NaN. -/
def same : F → F → Bool
  | .nan, _ => false
  | _, .nan => false
  | a, b => decide (a = b)

/-! ## What is handed to GLPK -/

/-- Volume and limits of a storage. -/
structure Vol where
  volume : F
  mx : F
  mn : F

/-- The numbers the solver asks nodes and parameters for, for one scenario: for every route the costs of its nodes, the
normalised factors of aggregated nodes, the limits of nodes and aggregated nodes, the storages, the virtual storages (with
their `active`), and the length of the timestep. -/
structure Given where
  routes : List (List F)
  factors : List F
  limits : List (F × F)
  storages : List Vol
  virtuals : List (Bool × Vol)
  days : Rat

/-- The cost of a route, `cython_glpk.pyx:886-893`. -/
def routeCost (costs : List F) : F := roundTiny (costs.foldl add (.fin 0))

/-- The limits of a row, `cython_glpk.pyx:932-959`. -/
def limitBounds (l : F × F) : List F := [roundTiny (infToDblMax l.1), roundTiny (infToDblMax l.2)]

/-- The bounds of the row of a storage, `cython_glpk.pyx:965-988`. -/
def storageBounds (days : Rat) (s : Vol) : List F :=
  if same s.mx s.mn then [.fin 0, .fin 0]
  else [roundTiny (over (neg (floorZero (sub s.volume s.mn))) days), roundTiny (over (floorZero (sub s.mx s.volume)) days)]

/-- The bounds of the row of a virtual storage, `cython_glpk.pyx:991-1019`. -/
def virtualBounds (days : Rat) (s : Bool × Vol) : List F :=
  if same s.2.mx s.2.mn then [.fin 0, .fin 0]
  else if s.1 then storageBounds days s.2
  else [.fin (-dblMax), .fin dblMax]

/-- All numbers handed to GLPK for a scenario, in order. -/
def handed (p : Given) : List F :=
  p.routes.map routeCost ++ p.factors.map neg ++ p.limits.flatMap limitBounds ++ p.storages.flatMap (storageBounds p.days) ++
    p.virtuals.flatMap (virtualBounds p.days)

/-! ## Solving -/

/-- Exceptions. -/
inductive Err
  /-- `GLPKError`: NaN detected. -/
  | glpk
  /-- `RuntimeError`: simplex failed. -/
  | runtime
deriving DecidableEq

/-- Flows through the nodes. -/
abbrev Flow := Nat → Rat

/-- `_solve_scenario`: with the checked interface the first NaN raises (`:286-335`); with the unchecked one it is stored
(`:251-270`).  `attempt n` is what the `n`-th call of simplex gives: flows, if it returns 0 with an optimal status.  The
second attempt, with a new basis, is made only with `retry_solve` (`:1034-1042`).  The attempt with debug messages
(`:1053-1059`) has no influence on what happens. -/
def solveScenario (safe retry : Bool) (p : Given) (attempt : Nat → Option Flow) : Except Err Flow :=
  if safe && (handed p).any (· = .nan) then .error .glpk
  else match attempt 0 with
    | some x => .ok x
    | none =>
      if retry then
        match attempt 1 with
        | some x => .ok x
        | none => .error .runtime
      else .error .runtime

/-- `commit` of the flows of scenario `g` (`cython_glpk.pyx:1090-1093`; `_core.pyx:481-483` adds). -/
def commit (flows : Nat → Flow) (g : Nat) (x : Flow) : Nat → Flow :=
  fun h n => if h = g then flows h n + x n else flows h n

/-- The loop over the scenarios, `cython_glpk.pyx:827-828`; an exception leaves it. -/
def solveFrom (safe retry : Bool) : Nat → List (Given × (Nat → Option Flow)) → (Nat → Flow) → Option Err × (Nat → Flow)
  | _, [], flows => (none, flows)
  | g, (p, a) :: rest, flows =>
    match solveScenario safe retry p a with
    | .error e => (some e, flows)
    | .ok x => solveFrom safe retry (g + 1) rest (commit flows g x)

/-! ## A timestep -/

/-- Volumes of the storages, flows and previous flows of the nodes, by scenario. -/
structure State where
  volume : Nat → Nat → Rat
  flow : Nat → Flow
  prev : Nat → Flow

/-- One timestep, `_model.pyx:626-631`: `before` sets the flows to zero (`_core.pyx:475-479`); after the solve, `after`
changes the volumes by the net inflow (`_core.pyx:1335-1361`, here without the clipping of volumes within 1e-6 of a limit)
and keeps the flows as the previous ones (`:491-492`).  An exception of the solver leaves out `after`.  `stores` are the
nodes that take from and give to each storage. -/
def step (safe retry : Bool) (stores : Nat → List Nat × List Nat) (days : Rat)
    (scenarios : List (Given × (Nat → Option Flow))) (s : State) : Option Err × State :=
  match solveFrom safe retry 0 scenarios (fun _ _ => 0) with
  | (some e, f) => (some e, { s with flow := f })
  | (none, f) => (none,
      { volume := fun g i => s.volume g i + (((stores i).2.map (f g)).sum - ((stores i).1.map (f g)).sum) * days,
        flow := f, prev := f })

end Verif.SolveErrors

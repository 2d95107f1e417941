/-!
# Choice of the solver and its options

Models `_parse_env_kwarg` and the wrapper classes `CythonGLPKSolver`/`CythonGLPKEdgeSolver`
(`/repo/pywr/solvers/__init__.py:17-35`, `:75-109`, `:201-236`), the keyword arguments of the solvers they wrap
(`/repo/pywr/solvers/cython_glpk.pyx:153-164`, `:379-386`, `:1140-1146`), the choice of the solver class in `Model.__init__`
(`/repo/pywr/_model.pyx:74-75`, `:95-112`) and in `Model.load_from_dict` (`:343-351`, `:364-371`).
-/

namespace Verif.SolverOptions

/-- Keyword arguments. `V` is the type of their values. -/
abbrev Kwargs (V : Type) := List (String × V)

/-- `_parse_env_kwarg(kwargs, keyword, env_name, bool)`, `:17-35`. `env` is `os.environ.get`. The branches for `str`, `float` and
`int` have no caller. `String.toLower` only changes ASCII letters; no other letter has a lower case in `"true"`. -/
def parseEnvBool {V : Type} (ofBool : Bool → V) (env : String → Option String) (keyword envName : String) (kwargs : Kwargs V) :
    Kwargs V :=
  if (kwargs.lookup keyword).isSome then kwargs
  else
    match env envName with
    | none => kwargs
    | some value => kwargs ++ [(keyword, ofBool (value == "1" || value.toLower == "true"))]

/-- The keyword arguments with which `CythonGLPKSolver.__init__` (`:84-109`) and `CythonGLPKEdgeSolver.__init__` (`:210-235`) create
the wrapped solver. -/
def glpkKwargs {V : Type} (ofBool : Bool → V) (env : String → Option String) (kwargs : Kwargs V) : Kwargs V :=
  let kwargs := parseEnvBool ofBool env "set_fixed_flows_once" "PYWR_SOLVER_GLPK_FIXED_FLOWS_ONCE" kwargs
  let kwargs := parseEnvBool ofBool env "set_fixed_costs_once" "PYWR_SOLVER_GLPK_FIXED_COSTS_ONCE" kwargs
  let kwargs := parseEnvBool ofBool env "set_fixed_factors_once" "PYWR_SOLVER_GLPK_FIXED_FACTORS_ONCE" kwargs
  parseEnvBool ofBool env "use_unsafe_api" "PYWR_SOLVER_GLPK_UNSAFE_API" kwargs

/-- The keyword arguments the wrapped solvers accept (`cython_glpk.pyx:153-154`, `:379-381`, `:1140-1142`). -/
def accepted : List String :=
  ["use_presolve", "time_limit", "iteration_limit", "message_level", "save_routes_flows", "retry_solve",
    "set_fixed_flows_once", "set_fixed_costs_once", "set_fixed_factors_once", "use_unsafe_api"]

/-- The attributes of the wrapped solver that the environment can set. -/
structure Glpk (V : Type) where
  setFixedFlowsOnce : V
  setFixedCostsOnce : V
  setFixedFactorsOnce : V
  useUnsafeApi : V

/-- Creating the solver; `none`: `TypeError` because of an unexpected keyword argument. The rejection of an unknown
`message_level` is the subject of `Model/SolverLimits`. -/
def glpk {V : Type} (ofBool : Bool → V) (env : String → Option String) (kwargs : Kwargs V) : Option (Glpk V) :=
  let k := glpkKwargs ofBool env kwargs
  if k.all fun e => accepted.contains e.1 then
    some {
      setFixedFlowsOnce := (k.lookup "set_fixed_flows_once").getD (ofBool false)
      setFixedCostsOnce := (k.lookup "set_fixed_costs_once").getD (ofBool false)
      setFixedFactorsOnce := (k.lookup "set_fixed_factors_once").getD (ofBool false)
      useUnsafeApi := (k.lookup "use_unsafe_api").getD (ofBool false) }
  else none

/-- Outcome of choosing a solver class: its index in the registry, or the exception. -/
inductive Choice
  | cls (i : Nat)
  | unrecognised
  | noSolver
deriving DecidableEq

/-- The loop `:101-105` over the registry, from index `i`, with the class found so far. -/
def search (lower : String → String) (name : String) : Nat → List String → Option Nat → Option Nat
  | _, [], found => found
  | i, cls :: rest, found => search lower name (i + 1) rest (if lower name = lower cls then some i else found)

/-- `Model.__init__`, `:95-97`: the name of the solver. -/
def solverName (env : String → Option String) (solver : Option String) : Option String :=
  match solver with
  | none => env "PYWR_SOLVER"
  | some s => some s

/-- `Model.__init__`, `:95-111`: choice of the solver class. `registry` lists the names of the classes. -/
def choose (lower : String → String) (env : String → Option String) (registry : List String) (solver : Option String) : Choice :=
  match solverName env solver with
  | some n =>
    match search lower n 0 registry none with
    | none => .unrecognised
    | some i => .cls i
  | none => if registry = [] then .noSolver else .cls 0

/-- `Model.load_from_dict`, `:343-351`: name and arguments passed to `Model.__init__`. `document` is the section `"solver"` of the
document: the name and the other entries (a section without a name raises `KeyError`, not modelled). -/
def loadSolver {V : Type} (solver : Option String) (solverArgs : Option (Kwargs V)) (document : Option (String × Kwargs V)) :
    Option String × Kwargs V :=
  let args := solverArgs.getD []
  match solver with
  | some s => (some s, args)
  | none =>
    match document with
    | some d => (some d.1, d.2)
    | none => (none, args)

end Verif.SolverOptions

/-!
# The basis kept for each scenario

Models what `/repo/pywr/solvers/cython_glpk.pyx` keeps from one solve to the next apart from the problem itself: the basis of each scenario
(`BasisManager`, lines 195-232), the flag `is_first_solve` (383, 739, 757-759, 831; edge solver 1144, 1551, 1571, 1644), the presolver
(`GLPKSolver`, 159, 174-186) and the second attempt (`retry_solve`, 1025-1063; edge solver 1849-1886).

GLPK is any collection of functions: what it answers is determined by the problem in memory, the basis it starts from and whether the
presolver is on.  The problem in memory is that of the scenario (C68).  The statuses of all rows and columns are one value of type `B`.
Time limits, messages and statistics are left out.
-/

namespace Verif.Basis

/-- What `glp_simplex` leaves behind: whether it returned 0 with status `GLP_OPT`, the flows, the basis. -/
structure Result (B X : Type) where
  optimal : Bool
  flows : X
  basis : B

/-- The functions of GLPK: `glp_adv_basis`, `glp_std_basis`, setting the status of every row and column (adjusted by GLPK to the bounds of
the problem), and `glp_simplex`. -/
structure Glpk (P B X : Type) where
  adv : P → B
  std : P → B
  install : P → B → B
  simplex : Bool → P → B → Result B X

/-- The options `use_presolve` and `retry_solve`. -/
structure Options where
  presolve : Bool
  retry : Bool

/-- What the solver keeps: the arrays of `BasisManager` by scenario, the basis in the problem object, `is_first_solve`, `has_presolved`,
`smcp.presolve`. -/
structure St (B : Type) where
  table : Nat → B
  current : B
  first : Bool
  presolved : Bool
  smcp : Bool

variable {P B X : Type}

/-- `setup`: arrays allocated but not filled, `glp_erase_prob` (174-175, 738-739). -/
def setup (junk : Nat → B) (erased : B) (st : St B) : St B := { st with table := junk, current := erased, first := true, presolved := false }

/-- `reset` (757-759); `GLPKSolver.reset` does nothing (177-178). -/
def reset (st : St B) : St B := { st with first := true }

/-- `save_basis` (207-215). -/
def saveBasis (st : St B) (id : Nat) : St B := { st with table := fun i => if i = id then st.current else st.table i }

/-- `set_basis` (217-231). -/
def setBasis (g : Glpk P B X) (p : P) (st : St B) (id : Nat) : St B :=
  { st with current := if st.first then g.adv p else g.install p (st.table id) }

/-- `simplex_safe` or `simplex_unsafe` and `glp_get_status` (248-250, 278-283). -/
def simplex (g : Glpk P B X) (p : P) (st : St B) : Result B X × St B :=
  let r := g.simplex st.smcp p st.current
  (r, { st with current := r.basis })

/-- The end of `_solve_scenario` (1025-1071), the problem being written: `none` is the `RuntimeError`. -/
def solveScenario (g : Glpk P B X) (o : Options) (p : P) (st : St B) (id : Nat) : Option X × St B :=
  let st := setBasis g p st id
  let a := simplex g p st
  let a := if !a.1.optimal && o.retry then simplex g p { a.2 with current := g.std p } else a
  if !a.1.optimal then (none, (simplex g p a.2).2) else (some a.1.flows, saveBasis a.2 id)

/-- The loop over the scenarios (827-828), with the results committed. -/
def loop (g : Glpk P B X) (o : Options) (ps : Nat → P) : List Nat → St B → Option (List (Nat × X)) × St B
  | [], st => (some [], st)
  | id :: ids, st =>
    let a := solveScenario g o (ps id) st id
    match a.1 with
    | none => (none, a.2)
    | some x =>
      let b := loop g o ps ids a.2
      (b.1.map fun l => (id, x) :: l, b.2)

/-- `GLPKSolver.solve` (180-185). -/
def begin_ (o : Options) (st : St B) : St B :=
  if o.presolve && !st.presolved then { st with smcp := true, presolved := true } else { st with smcp := false }

/-- `solve` (820-831). -/
def solve (g : Glpk P B X) (o : Options) (ps : Nat → P) (ids : List Nat) (st : St B) : Option (List (Nat × X)) × St B :=
  let a := loop g o ps ids (begin_ o st)
  match a.1 with
  | none => a
  | some l => (some l, { a.2 with first := false })

/-- Add the results of one timestep to those of the scenarios. -/
def record (h : Nat → List X) (l : List (Nat × X)) : Nat → List X := fun s => h s ++ (l.filter fun q => q.1 == s).map (·.2)

/-- `n` timesteps (`/repo/pywr/_model.pyx:584-700`): the problem of a scenario is determined by what has happened in it so far.  `none`: an exception. -/
def run (g : Glpk P B X) (o : Options) (prob : Nat → List X → P) (ids : List Nat) : Nat → (Nat → List X) → St B → Option (Nat → List X) × St B
  | 0, h, st => (some h, st)
  | n + 1, h, st =>
    let a := solve g o (fun s => prob s (h s)) ids st
    match a.1 with
    | none => (none, a.2)
    | some l => run g o prob ids n (record h l) a.2

/-- What happens to a solver. -/
inductive Ev (P B : Type)
  | setup (junk : Nat → B) (erased : B)
  | reset
  | solve (ps : Nat → P) (ids : List Nat)

/-- A history; the user may go on after an exception. -/
def history (g : Glpk P B X) (o : Options) : List (Ev P B) → St B → St B
  | [], st => st
  | .setup j e :: es, st => history g o es (setup j e st)
  | .reset :: es, st => history g o es (reset st)
  | .solve ps ids :: es, st => history g o es (solve g o ps ids st).2

end Verif.Basis

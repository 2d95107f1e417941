import Verif.Model.Optimisation
/-!
# The first population of an optimisation

Models `PywrRandomGenerator` (`/repo/pywr/optimisation/platypus.py:157-260`) over all its calls: the flag and the pointer it keeps, and how a given solution is read.  What `RandomGenerator` of
platypus makes is not modelled.  A list of values of another length than the variables is refused (numpy would spread a single value, and platypus refuses the wrong number at the end).
-/

namespace Verif.Opt

/-- A given solution: for the name of a parameter the entries `doubles` and `integers`. -/
abbrev Given := List (String × (Option (List Rat) × Option (List Int)))

/-- What was generated. -/
inductive Origin
  | values (x : List Rat)
  | random
deriving DecidableEq

/-- The generator: `use_current`, `solutions` (without them, none), whether there is a wrapper, and what it keeps (`:190-196`). -/
structure Generator where
  wrapper : Bool
  useCurrent : Bool
  solutions : List Given
  done : Bool
  pointer : Nat
deriving DecidableEq

/-- `__init__` (`:189-196`); without `solutions`, there are none. -/
def Generator.new (wrapper useCurrent : Bool) (solutions : Option (List Given)) : Generator := ⟨wrapper, useCurrent, solutions.getD [], false, 0⟩

/-- The entry of a parameter, if it is needed (`:231-250`); `none` is the KeyError or a wrong number of values. -/
def entry {α : Type} (n : Nat) (v : Option (List α)) : Option (List α) :=
  if n > 0 then v.bind fun l => if l.length = n then some l else none else some []

/-- Reading a given solution (`:229-250`). -/
def readGiven : List (String × Var) → Given → Option (List (List Rat × List Int))
  | [], _ => some []
  | (name, v) :: vs, g => do
    if v.dsize > 0 ∨ v.isize > 0 then
      let q ← g.lookup name
      let d ← entry v.dsize q.1
      let n ← entry v.isize q.2
      let rest ← readGiven vs g
      return (d, n) :: rest
    else
      let rest ← readGiven vs g
      return ([], []) :: rest

/-- `generate` (`:198-260`), with the variables as they are when it is called; `none` is an exception. -/
def Generator.generate (g : Generator) (vars : List (String × Var)) : Option Origin × Generator :=
  if g.wrapper then
    if g.useCurrent && !g.done then (some (.values (current (vars.map Prod.snd))), { g with done := true })
    else match g.solutions[g.pointer]? with
      | some s =>
        match readGiven vars s with
        | some q => (some (.values (given (vars.map Prod.snd) q)), { g with pointer := g.pointer + 1 })
        | none => (none, g)
      | none => (some .random, g)
  else (some .random, g)

/-- Several calls. -/
def Generator.population (g : Generator) : List (List (String × Var)) → List (Option Origin)
  | [] => []
  | vars :: rest => (g.generate vars).1 :: (g.generate vars).2.population rest

end Verif.Opt

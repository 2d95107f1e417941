import Verif.Model.Lp
/-!
# Composite nodes: loss links and piecewise links

Models `LossLink` (`/repo/pywr/nodes.py:1242-1364`) and `PiecewiseLink` (`/repo/pywr/nodes.py:760-887`): which nodes they create, what `setup` writes to
them, and the limits they report. The flows they report are in `Model/NodeRun.lean` (classes `copyOf` and `piecewise`).
-/

namespace Verif.Composite

open Verif Verif.Lp Verif.Bounds

/-! ## LossLink -/

/-- `loss_factor`: a number, or a parameter (whose value is only known in a timestep). -/
inductive Factor
  | number (q : Rat)
  | parameter

/-- Value of a factor in a timestep in which the parameter's value is `p` (`AggregatedNode.get_factors`, `/repo/pywr/_core.pyx:898-919`). -/
def Factor.value (p : Rat) : Factor → Rat
  | .number q => q
  | .parameter => p

/-- `loss_factor_type`. -/
inductive LossType
  | net
  | gross
  | unknown
deriving DecidableEq

/-- The attributes of the internal nodes written by `setup`: `agg.factors`, `output.max_flow` and `net.max_flow`. -/
structure LossState where
  factors : Option (List Factor)
  outputMax : F
  netMax : F

/-- Exceptions of `setup`. -/
inductive SetupErr
  | valueError
  | typeError
deriving DecidableEq

/-- `LossLink.setup` (`nodes.py:1298-1325`). A parameter compares unequal to every number, and `float(parameter)` is a TypeError. -/
def LossState.setup (s : LossState) (f : Factor) (t : LossType) : Except SetupErr LossState :=
  match f with
  | .number q =>
    if q = 0 then .ok { s with factors := none, outputMax := .fin 0 }
    else if q = 1 ∧ t = .gross then .ok { factors := none, outputMax := .posInf, netMax := .fin 0 }
    else
      let s := { s with outputMax := .posInf }
      match t with
      | .net => .ok { s with factors := some [.number 1, .number q] }
      | .gross => .ok { s with factors := some [.number (1 - q), .number q] }
      | .unknown => .error .valueError
  | .parameter =>
    let s := { s with outputMax := .posInf }
    match t with
    | .net => .ok { s with factors := some [.number 1, .parameter] }
    | .gross => .error .typeError
    | .unknown => .error .valueError

/-- The internal aggregated node as the solver sees it (`nodes.py:1292`; no weights, no limits), when the parameter's value is `p`. -/
def LossState.agg (s : LossState) (net out : Nat) (p : Rat) : AggData :=
  ⟨[net, out], none, s.factors.map (·.map (Factor.value p)), .negInf, .posInf⟩

/-! ## PiecewiseLink -/

/-- The nodes created by `PiecewiseLink.__init__` (`nodes.py:803-834`): `output` receives the flow, every sublink is connected from it across the
domain boundary and to `sub_output`, which is connected across the boundary to `input`. -/
structure Piecewise where
  output : Nat
  sublinks : List Nat
  subOutput : Nat
  input : Nat

/-- The connections made by the constructor. -/
def Piecewise.edges (p : Piecewise) : List (Nat × Nat) :=
  (p.subOutput, p.input) :: p.sublinks.flatMap fun s => [(s, p.subOutput), (p.output, s)]

/-- The connections between domains, as the solver collects them (`cython_glpk.pyx:474-487`). The constructor leaves the conversion factors at
their default 1 (`/repo/pywr/_core.pyx:522, 704-709`; `nodes.py:226`). -/
def Piecewise.cross (p : Piecewise) : List (Nat × List (Nat × Rat)) :=
  [(p.output, p.sublinks.map fun s => (s, 1)), (p.subOutput, [(p.input, 1)])]

/-- `max_flows` setter (`nodes.py:861-871`): one value per sublink, or a ValueError (`none`). -/
def Piecewise.setMaxFlows (p : Piecewise) (values : List F) (maxFlow : Nat → F) : Option (Nat → F) :=
  if p.sublinks.length ≠ values.length then none
  else some ((p.sublinks.zip values).foldl (fun m q => fun n => if n = q.1 then q.2 else m n) maxFlow)

/-- `PiecewiseLink.get_max_flow` (`nodes.py:844-845`), for finite limits. -/
def Piecewise.maxFlow (p : Piecewise) (limit : Nat → Rat) : Rat := (p.sublinks.map limit).sum

/-- The flow reported after a timestep (`nodes.py:880-887`): the sum over the sublinks. -/
def Piecewise.flow (p : Piecewise) (flow : Nat → Rat) : Rat := (p.sublinks.map flow).sum

end Verif.Composite

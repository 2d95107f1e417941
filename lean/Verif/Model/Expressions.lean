import Verif.Model.Components
import Verif.Model.Aggregate
import Verif.Model.DataFrame
/-!
# Parameters computed from other parameters

Models `IndexedArrayParameter` (`/repo/pywr/parameters/_parameters.pyx:1262-1312`), the construction and the changes of the children of `AggregatedParameter` (`:1454-1494`),
`DivisionParameter` (`:1688-1739`), `NegativeParameter` (`:1742-1766`), `MaxParameter`, `NegativeMaxParameter`, `MinParameter`, `NegativeMinParameter` (`:1769-1855`),
`OffsetParameter` (`:1858-1907`), `ScaledProfileParameter` (`/repo/pywr/parameters/parameters.py:102-119`), `InterpolatedParameter` (`:159-192`),
`InterpolatedQuadratureParameter` (`:281-354`), `ScenarioWrapperParameter` (`:359-415`), `parameter_property` (`/repo/pywr/parameter_property.py:1-26`): which parameters they
register in the component graph, what their setters do to it, and the value they compute.  Values are exact numbers; an exception raised by a computation (division by zero, an index out
of range) aborts the run: here it is the value `none`, and everything computed from it is `none` too.  The functions of SciPy (`interp1d`, `quad`) are arbitrary functions.  All parameters belong to one model.
-/

namespace Verif.Expressions

open Verif Verif.Components

/-- A parameter object, with the numbers of the parameters it refers to. -/
inductive Kind
  /-- Any parameter that does not read others (constants, profiles, tables …): its value in each scenario at the current timestep. -/
  | leaf (value : Nat → Rat)
  /-- Any `IndexParameter` that does not read others: its index in each scenario. -/
  | index (value : Nat → Int)
  | negative (p : Nat)
  | maximum (p : Nat) (threshold : Rat)
  | negativeMax (p : Nat) (threshold : Rat)
  | minimum (p : Nat) (threshold : Rat)
  | negativeMin (p : Nat) (threshold : Rat)
  | offset (p : Nat) (by_ : Rat)
  | scaled (p : Nat) (scale : Rat)
  | division (numerator denominator : Nat)
  | aggregated (func : Aggregate.Func) (ps : List Nat)
  | indexedArray (i : Nat) (ps : List Nat)
  /-- `member g` is the ensemble member of the scenario in column `g`. -/
  | wrapper (member : Nat → Nat) (ps : List Nat)
  | interpolated (p : Nat) (f : Rat → Option Rat)
  | quadrature (upper : Nat) (lower : Option Nat) (f : Rat → Rat → Option Rat)
  /-- Any other parameter that registers the parameters it reads in its constructor (control curves, polynomials, piecewise integrals, …). -/
  | computed (ps : List Nat) (f : Nat → List Rat → Option Rat)

/-- The parameters whose stored values a parameter reads. -/
def Kind.reads : Kind → List Nat
  | .leaf _ | .index _ => []
  | .negative p | .maximum p _ | .negativeMax p _ | .minimum p _ | .negativeMin p _ | .offset p _ | .scaled p _ => [p]
  | .division n d => [n, d]
  | .aggregated _ ps | .wrapper _ ps | .computed ps _ => ps
  | .indexedArray i ps => i :: ps
  | .interpolated p _ => [p]
  | .quadrature u l _ => u :: l.toList

/-- The calls of `children.add` (or `parents.add` on the child) a constructor makes, in order (`_parameters.pyx:1283-1294, 1458-1459, 1702-1725, 1753, 1785, 1830, 1878`,
`parameters.py:107, 176, 319-321, 387`). -/
def Kind.registered : Kind → List Nat
  | .leaf _ | .index _ => []
  | .negative p | .maximum p _ | .negativeMax p _ | .minimum p _ | .negativeMin p _ | .offset p _ | .scaled p _ => [p]
  | .division n d => [n, d]
  | .aggregated _ ps | .wrapper _ ps | .computed ps _ => ps
  | .indexedArray i ps => i :: ps ++ [i]
  | .interpolated p _ => [p]
  | .quadrature u (some l) _ => [u, l]
  | .quadrature u none _ => [u]

/-- The parameter objects and the component graph. -/
structure St where
  heap : Nat → Option Kind
  graph : Digraph

/-- A model without components (`/repo/pywr/_model.pyx:112-113`). -/
def St.empty : St := ⟨fun _ => none, Digraph.empty.addNode root⟩

/-- Update one object. -/
def put (h : Nat → Option Kind) (x : Nat) (k : Kind) : Nat → Option Kind := fun y => if y = x then some k else h y

/-- What is done with parameters before a run. -/
inductive Op
  /-- Call a constructor. -/
  | new (x : Nat) (k : Kind)
  /-- `x.numerator = p`, `x.denominator = p`. -/
  | setNumerator (x p : Nat)
  | setDenominator (x p : Nat)
  /-- `x.add(p)`, `x.remove(p)` of an aggregated parameter. -/
  | aggAdd (x p : Nat)
  | aggRemove (x p : Nat)
  /-- `x.parameter = p` of an `InterpolatedParameter`. -/
  | setInterpolated (x p : Nat)
  /-- `x.upper_parameter = p`, `x.lower_parameter = p` of an `InterpolatedQuadratureParameter`. -/
  | setUpper (x p : Nat)
  | setLower (x : Nat) (p : Option Nat)
  /-- `x.parameter = p` of a negative, maximum, minimum, offset parameter or a piecewise integral: a plain attribute (`/repo/pywr/parameters/_parameters.pxd:180, 183, 190, 197`). -/
  | assign (x p : Nat)

/-- Truth value of a parameter object in `if old_parameter:` (`parameter_property.py:19`): only aggregated parameters have a `__len__` (`_parameters.pyx:1496-1497`). -/
def truthy (h : Nat → Option Kind) (p : Nat) : Bool :=
  match h p with
  | some (.aggregated _ []) => false
  | _ => true

/-- The setter made by `parameter_property` (`parameter_property.py:17-22`) on the graph: old and new value, `none` for Python's `None`. -/
def propertySet (h : Nat → Option Kind) (g : Digraph) (x : Nat) (old new : Option Nat) : Option Digraph :=
  let removed := match old with
    | some o => if truthy h o then applyOp g (.removeDep x o) else some g
    | none => some g
  removed.bind fun g => match new with
    | some p => applyOp g (.addDep x p)
    | none => applyOp g (.addOther x)

/-- `isinstance(index_parameter, IndexParameter)` (`_parameters.pyx:1281`) and, for the other kinds, no check. -/
def accepted (h : Nat → Option Kind) : Kind → Bool
  | .indexedArray i _ => match h i with | some (.index _) => true | _ => false
  | _ => true

/-- The kinds with a plain attribute `parameter`, with another parameter put into it. -/
def Kind.reassign (p : Nat) : Kind → Option Kind
  | .negative _ => some (.negative p)
  | .maximum _ t => some (.maximum p t)
  | .negativeMax _ t => some (.negativeMax p t)
  | .minimum _ t => some (.minimum p t)
  | .negativeMin _ t => some (.negativeMin p t)
  | .offset _ o => some (.offset p o)
  | _ => none

/-- One operation; `none`: it raised, or there is no such object. -/
def step (s : St) : Op → Option St
  | .new x k =>
    if (s.heap x).isNone ∧ (∀ d ∈ k.registered, (s.heap d).isSome) ∧ accepted s.heap k then
      ((Components.Op.create x :: k.registered.map (Components.Op.addDep x)).foldlM applyOp s.graph).bind fun g =>
        some ⟨put s.heap x k, g⟩
    else none
  | .setNumerator x p => match s.heap x, s.heap p with
    | some (.division n d), some _ =>
      ([Components.Op.removeDep x n, Components.Op.addDep x p].foldlM applyOp s.graph).bind fun g => some ⟨put s.heap x (.division p d), g⟩
    | _, _ => none
  | .setDenominator x p => match s.heap x, s.heap p with
    | some (.division n d), some _ =>
      ([Components.Op.removeDep x d, Components.Op.addDep x p].foldlM applyOp s.graph).bind fun g => some ⟨put s.heap x (.division n p), g⟩
    | _, _ => none
  | .aggAdd x p => match s.heap x, s.heap p with
    | some (.aggregated f ps), some _ =>
      (applyOp s.graph (.addDep x p)).bind fun g => some ⟨put s.heap x (.aggregated f (ps ++ [p])), g⟩
    | _, _ => none
  | .aggRemove x p => match s.heap x with
    | some (.aggregated f ps) =>
      if p ∈ ps then (applyOp s.graph (.removeDep x p)).bind fun g => some ⟨put s.heap x (.aggregated f (ps.erase p)), g⟩ else none
    | _ => none
  | .setInterpolated x p => match s.heap x, s.heap p with
    | some (.interpolated o f), some _ =>
      (propertySet s.heap s.graph x (some o) (some p)).bind fun g => some ⟨put s.heap x (.interpolated p f), g⟩
    | _, _ => none
  | .setUpper x p => match s.heap x, s.heap p with
    | some (.quadrature u l f), some _ =>
      (propertySet s.heap s.graph x (some u) (some p)).bind fun g => some ⟨put s.heap x (.quadrature p l f), g⟩
    | _, _ => none
  | .setLower x p => match s.heap x with
    | some (.quadrature u l f) =>
      (propertySet s.heap s.graph x l p).bind fun g => some ⟨put s.heap x (.quadrature u p f), g⟩
    | _ => none
  | .assign x p => match s.heap x, s.heap p with
    | some k, some _ => (k.reassign p).bind fun k' => some ⟨put s.heap x k', s.graph⟩
    | _, _ => none

/-- A history in which nothing raised. -/
def runOps (ops : List Op) : Option St := ops.foldlM step St.empty

/-- The value a parameter computes in scenario `g` from the stored values (`calc_values`/`value` of the classes; `_parameters.pyx:1296-1301, 1503-1556, 1727-1732, 1755-1760,
1788-1793, 1804-1809, 1833-1838, 1849-1854, 1884-1889`, `parameters.py:116-118, 154-156, 329-336, 398-405`). A python list accepts negative indices. -/
def compute (k : Kind) (v : Nat → Nat → Option Rat) (g : Nat) : Option Rat :=
  match k with
  | .leaf f => some (f g)
  | .index f => some (f g)
  | .negative p => (v p g).map fun a => -a
  | .maximum p t => (v p g).map fun a => if t > a then t else a
  | .negativeMax p t => (v p g).map fun a => if t > -a then t else -a
  | .minimum p t => (v p g).map fun a => if t < a then t else a
  | .negativeMin p t => (v p g).map fun a => if t < -a then t else -a
  | .offset p o => (v p g).map fun a => a + o
  | .scaled p s => (v p g).map fun a => s * a
  | .division n d => (v n g).bind fun a => (v d g).bind fun b => if b = 0 then none else some (a / b)
  | .aggregated f ps => (ps.mapM fun p => v p g).bind fun as => (Aggregate.evaluate f (as.map fun a _ => a) g).join
  | .indexedArray i ps => (v i g).bind fun a => (DataFrame.resolve ps.length a.num).bind fun j => (ps[j]?).bind fun p => v p g
  | .wrapper member ps => (ps[member g]?).bind fun p => v p g
  | .interpolated p f => (v p g).bind f
  | .quadrature u l f => match l with
    | some l => (v l g).bind fun a => (v u g).bind fun b => f a b
    | none => (v u g).bind fun b => f 0 b
  | .computed ps f => (ps.mapM fun p => v p g).bind fun as => f g as

/-- The rule of component `c` for the value-calculation loop (`Components.calcValues`). -/
def rule (h : Nat → Option Kind) (c : Nat) (v : Nat → Nat → Option Rat) : Nat → Option Rat :=
  match h c with
  | some k => compute k v
  | none => fun _ => none

/-- The values after the value-calculation loop of a timestep: for every parameter and scenario. -/
def St.values (s : St) (order : List Nat) (stale : Nat → Nat → Option Rat) : Nat → Nat → Option Rat :=
  calcValues (rule s.heap) order stale

end Verif.Expressions

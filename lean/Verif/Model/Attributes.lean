import Verif.Model.Bounds
/-!
# Numeric attributes of nodes

Models the attributes of nodes and storages that are numbers or parameters, their setters and all ways to ask for them (`/repo/pywr/_core.pyx:485-489, 499-709, 812-911, 941-1003, 1078-1108,
1184-1280, 1429-1456`).  A parameter is known by a number; `World` gives its values in the present timestep, one for each combination of scenarios.  `Node.set_parameters` (`:711-723`) is not used
by any code.
-/

namespace Verif.Attributes

open Verif.Bounds (F)

/-- What the parameters say in the present timestep: `get_value`/`get_all_values` and, if `is_constant`, `get_constant_value` (`/repo/pywr/parameters/_parameters.pyx:77-88`). -/
structure World (V : Type) where
  values : Nat → List V
  constant : Nat → Option V

/-- An attribute: `_x` and `_x_param`. -/
structure Slot (V : Type) where
  fixed : V
  param : Option Nat
deriving DecidableEq

/-- What is assigned: `None`, a number, a parameter, or something that is no number. -/
inductive Given (V : Type)
  | none
  | number (v : V)
  | param (p : Nat)
  | other

/-- The setters.  `whenNone` is the number that `None` stands for (`min_flow`, `max_flow`: `:587-595, 639-647, 842-850, 880-888`; `level`, `area`: `:1246-1254, 1267-1275`), or nothing (`cost`, `min_volume`,
`max_volume`: `:547-552, 1081-1086, 1190-1195, 1218-1223`).  Whatever is no parameter first removes the parameter and is then converted to a double, which raises a `TypeError` if it is no number; the
flag tells whether it did not. -/
def assign {V : Type} (whenNone : Option V) (s : Slot V) : Given V → Slot V × Bool
  | .none =>
    match whenNone with
    | some d => (⟨d, none⟩, true)
    | none => (⟨s.fixed, none⟩, false)
  | .number v => (⟨v, none⟩, true)
  | .param p => (⟨s.fixed, some p⟩, true)
  | .other => (⟨s.fixed, none⟩, false)

/-- The property: a parameter or a number. -/
def property {V : Type} (s : Slot V) : V ⊕ Nat :=
  match s.param with
  | none => .inl s.fixed
  | some p => .inr p

/-- `get_cost(si)`, `get_min_flow(si)`, … for one combination (`:559-564, 611-616, 674-679, 852-857, 890-895, 1093-1098, 1197-1200, 1225-1228, 1256-1259, 1277-1280`); `none` is an `IndexError`. -/
def getOne {V : Type} (w : World V) (s : Slot V) (i : Nat) : Option V :=
  match s.param with
  | none => some s.fixed
  | some p => (w.values p)[i]?

/-- `out[:] = x` with an array; a length that does not fit is a `ValueError`. -/
def fill {V : Type} (out xs : List V) : Option (List V) := if xs.length = out.length then some xs else none

/-- `get_all_cost(out)`, `get_all_min_flow(out)`, … (`:566-574, 618-626, 681-689, 859-867, 897-905, 1100-1108, 1202-1210, 1230-1238`).  `out` is the array given by the caller or a new one. -/
def getAll {V : Type} (w : World V) (s : Slot V) (out : List V) : Option (List V) :=
  match s.param with
  | none => some (out.map fun _ => s.fixed)
  | some p => fill out (w.values p)

/-- `get_constant_min_flow`, `get_constant_max_flow` (`:603-609, 666-672`).  `none` is NaN. -/
def getConstant {V : Type} (w : World V) (s : Slot V) : Option V :=
  match s.param with
  | none => some s.fixed
  | some p => w.constant p

/-- A node with limits. -/
structure Flows where
  minFlow : Slot F
  maxFlow : Slot F

/-- `has_fixed_flows`, `has_constant_flows` (`:649-658`). -/
def Flows.hasFixed (n : Flows) : Bool := n.maxFlow.param.isNone && n.minFlow.param.isNone

@[inherit_doc Flows.hasFixed]
def Flows.hasConstant (w : World F) (n : Flows) : Bool :=
  (match n.maxFlow.param with | none => true | some p => (w.constant p).isSome) && (match n.minFlow.param with | none => true | some p => (w.constant p).isSome)

/-- `get_fixed_min_flow`, `get_fixed_max_flow` (`:597-601, 660-664`).  `none` is NaN. -/
def Flows.fixedMin (n : Flows) : Option F := if n.hasFixed then some n.minFlow.fixed else none

@[inherit_doc Flows.fixedMin]
def Flows.fixedMax (n : Flows) : Option F := if n.hasFixed then some n.maxFlow.fixed else none

/-- A new `Node` (`Node.__cinit__`, `:514-527`) and a new `AggregatedNode` (`:742-751`). -/
def newFlows : Flows := ⟨⟨.fin 0, none⟩, ⟨.posInf, none⟩⟩

/-- What `None` stands for: the limits of a `Node` … -/
def nodeMinNone : Option F := some (.fin 0)
@[inherit_doc nodeMinNone]
def nodeMaxNone : Option F := some .posInf
/-- … and of an `AggregatedNode` (`:843-845, 881-883`). -/
def aggMinNone : Option F := some .negInf
@[inherit_doc aggMinNone]
def aggMaxNone : Option F := some .posInf

/-- `StorageInput.get_cost` (`:959-961`): minus the cost of the storage. -/
def inputCost (w : World Rat) (storage : Slot Rat) (i : Nat) : Option Rat := (getOne w storage i).map fun c => -c

/-- `StorageInput.get_all_cost` (`:963-973`): the array is filled by the storage, then its signs are changed in place. -/
def inputAllCost (w : World Rat) (storage : Slot Rat) (out : List Rat) : Option (List Rat) := (getAll w storage out).map fun cs => cs.map fun c => c * -1

/-- `StorageOutput.get_cost`, `get_all_cost` (`:993-1004`). -/
def outputCost (w : World Rat) (storage : Slot Rat) (i : Nat) : Option Rat := getOne w storage i

@[inherit_doc outputCost]
def outputAllCost (w : World Rat) (storage : Slot Rat) (out : List Rat) : Option (List Rat) := getAll w storage out

/-- `AbstractNode.get_cost`, `get_all_cost` (`:500-509`): nodes without a cost. -/
def noCost (_ : Nat) : Rat := 0

@[inherit_doc noCost]
def noAllCost (out : List Rat) : List Rat := out.map fun _ => 0

/-- `out[i] += xs[i]` for all `i` of `xs`; an `IndexError` if `out` is too short. -/
def addInto (out xs : List Rat) : Option (List Rat) := if xs.length ≤ out.length then some (List.zipWith (· + ·) out xs ++ out.drop xs.length) else none

/-- `AggregatedStorage.get_all_min_volume`, `get_all_max_volume` (`:1429-1456`) for `n` combinations: the array given is emptied first, then every storage adds its own volumes. -/
def aggregatedAll (w : World Rat) (n : Nat) (storages : List (Slot Rat)) (out : Option (List Rat)) : Option (List Rat) :=
  storages.foldlM (fun acc s => (getAll w s (List.replicate n 0)).bind (addInto acc)) (match out with | none => List.replicate n 0 | some o => o.map fun _ => 0)

/-- The sums that `AggregatedStorage.reset` and `after` take over its storages (`:1390-1392, 1410-1415`). -/
def aggregatedOne (w : World Rat) (storages : List (Slot Rat)) (i : Nat) : Option Rat :=
  storages.foldlM (fun acc s => (getOne w s i).map fun v => acc + v) 0

/-- `commit(scenario_index, value)` (`:481-483`). -/
def commit (flow : List Rat) (i : Nat) (v : Rat) : List Rat := flow.modify i (· + v)

/-- `commit_all(value)` (`:485-489`): a loop over the flows; a shorter array is an `IndexError`. -/
def commitAll (flow value : List Rat) : Option (List Rat) := if flow.length ≤ value.length then some (List.zipWith (· + ·) flow value) else none

/-- The flows of an end of a storage and of the storage. -/
structure End where
  own : List Rat
  storage : List Rat
deriving DecidableEq

/-- `StorageInput.commit` (`sign = -1`) and `StorageOutput.commit` (`sign = 1`) (`:943-945, 977-979`). -/
def endCommit (sign : Rat) (e : End) (i : Nat) (v : Rat) : End := ⟨commit e.own i v, commit e.storage i (sign * v)⟩

/-- `StorageInput.commit_all`, `StorageOutput.commit_all` (`:947-952, 981-986`). -/
def endCommitAll (sign : Rat) (e : End) (value : List Rat) : Option End :=
  (commitAll e.own value).bind fun own => (commitAll e.storage (value.map fun v => sign * v)).map fun storage => ⟨own, storage⟩

end Verif.Attributes

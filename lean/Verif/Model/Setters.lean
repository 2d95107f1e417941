/-!
# Assigning parameters to attributes of components

Models the setters that keep the dependencies of a component in step with its attributes: `parameter_property` (`/repo/pywr/parameter_property.py:1-26`), the four attributes of `HydropowerTargetParameter`
(`/repo/pywr/parameters/_hydropower.pyx:134-168`), `water_elevation_parameter` of the two hydropower recorders (`/repo/pywr/recorders/_hydropower.pyx:117-124, 222-229`), `threshold` of the threshold parameters
(`/repo/pywr/parameters/_thresholds.pyx:118-132`) and `control_curves` of the control curve parameters (`/repo/pywr/parameters/_control_curves.pyx:47-68, 322-343`).  Components are numbers.  A value that is not a
component (a number, `None`) has no dependency (`/repo/pywr/_component.pyx:18-32`); it is `none` here.  Simplified: components count as true, which an aggregated parameter without parameters does not (C73_empty_fails).
-/

namespace Verif.Setters

/-- A component: `fixed` are the parameters given to the constructor which no setter replaces (the values of a control curve parameter, `_control_curves.pyx:158-162`); `children` are the
predecessors in the component graph, a set. -/
structure Obj where
  fixed : List Nat
  slots : List (Option Nat)
  curves : Option (List Nat)
  children : List Nat
deriving DecidableEq, Repr

/-- An item of a list of control curves: a parameter; a number, for which a new `ConstantParameter` is made; anything else has no attribute `parents`. -/
inductive Item
  | component (x : Nat)
  | number (new : Nat)
  | other
deriving DecidableEq, Repr

/-- Exceptions: `NetworkXError` for an edge that does not exist, `AttributeError`. -/
inductive Err
  | noEdge
  | attribute
deriving DecidableEq, Repr

/-- `children.add(x)` (`_component.pyx:18-24`). -/
def add (children : List Nat) (x : Nat) : List Nat := if x ∈ children then children else children ++ [x]

/-- A component after its constructor has added the fixed parameters; its attributes are `None`. -/
def Obj.new (fixed : List Nat) (n : Nat) : Obj := ⟨fixed, List.replicate n none, none, fixed.foldl add []⟩

/-- The setter of an attribute (`parameter_property.py:17-22` and the others). -/
def Obj.setSlot (o : Obj) (i : Nat) (v : Option Nat) : Except Err Unit × Obj :=
  match o.slots[i]?.join with
  | some old =>
    if old ∈ o.children then
      (.ok (), { o with slots := o.slots.set i v, children := (match v with | some x => add (o.children.erase old) x | none => o.children.erase old) })
    else (.error .noEdge, o)
  | none => (.ok (), { o with slots := o.slots.set i v, children := (match v with | some x => add o.children x | none => o.children) })

/-- `for control_curve in self._control_curves: control_curve.parents.remove(self)` (`_control_curves.pyx:56-58`). -/
def removeAll : List Nat → List Nat → Except Err Unit × List Nat
  | [], children => (.ok (), children)
  | c :: cs, children => if c ∈ children then removeAll cs (children.erase c) else (.error .noEdge, children)

/-- The loop over the new curves (`_control_curves.pyx:60-67`). -/
def addAll : List Item → List Nat → Except Err (List Nat) × List Nat
  | [], children => (.ok [], children)
  | .other :: _, children => (.error .attribute, children)
  | .component x :: is, children =>
    match addAll is (add children x) with
    | (.ok xs, c) => (.ok (x :: xs), c)
    | (.error e, c) => (.error e, c)
  | .number x :: is, children =>
    match addAll is (add children x) with
    | (.ok xs, c) => (.ok (x :: xs), c)
    | (.error e, c) => (.error e, c)

/-- The setter of `control_curves` (`_control_curves.pyx:50-68`). -/
def Obj.setCurves (o : Obj) (items : List Item) : Except Err Unit × Obj :=
  match removeAll (o.curves.getD []) o.children with
  | (.error e, c) => (.error e, { o with children := c })
  | (.ok (), c) =>
    match addAll items c with
    | (.error e, c') => (.error e, { o with children := c' })
    | (.ok xs, c') => (.ok (), { o with curves := some xs, children := c' })

/-- What a user can assign. -/
inductive Op
  | slot (i : Nat) (v : Option Nat)
  | curves (items : List Item)
deriving DecidableEq, Repr

/-- One assignment. -/
def Obj.step (o : Obj) : Op → Except Err Unit × Obj
  | .slot i v => o.setSlot i v
  | .curves items => o.setCurves items

/-- A history of assignments; exceptions are caught by the user. -/
def Obj.run (o : Obj) : List Op → Obj
  | [] => o
  | op :: ops => (o.step op).2.run ops

end Verif.Setters

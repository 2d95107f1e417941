import Verif.Model.Setters
/-!
What a component depends on.
-/

namespace Verif.Setters

/-- A component refers to another one: by the constructor, by an attribute or by a control curve. -/
def Obj.Refers (o : Obj) (x : Nat) : Prop := x ∈ o.fixed ∨ some x ∈ o.slots ∨ ∃ cs, o.curves = some cs ∧ x ∈ cs

/-- The component an item stands for. -/
def Item.id? : Item → Option Nat
  | .component x => some x
  | .number x => some x
  | .other => none

/-- Only attributes that exist are assigned (there are `n`), and only parameters and numbers are given as control curves. -/
def Op.Valid (n : Nat) : Op → Prop
  | .slot i _ => i < n
  | .curves items => ∀ i ∈ items, i ≠ .other

/-- An assignment that does not make a component be used in two places of the same component. -/
def Apart (o : Obj) : Op → Prop
  | .slot i v => ∀ x, v = some x → x ∉ o.fixed ∧ (∀ j : Nat, j ≠ i → o.slots[j]? ≠ some (some x)) ∧ ∀ cs, o.curves = some cs → x ∉ cs
  | .curves items => (items.map Item.id?).Nodup ∧ ∀ x, some x ∈ items.map Item.id? → x ∉ o.fixed ∧ some x ∉ o.slots

/-- All assignments of a history are of this kind, at the time they are made. -/
def AllApart (o : Obj) : List Op → Prop
  | [] => True
  | op :: ops => op.Valid o.slots.length ∧ Apart o op ∧ AllApart (o.step op).2 ops

/-- No assignment of a history raises an exception. -/
def NeverRaises (o : Obj) : List Op → Prop
  | [] => True
  | op :: ops => (o.step op).1 = .ok () ∧ NeverRaises (o.step op).2 ops

end Verif.Setters

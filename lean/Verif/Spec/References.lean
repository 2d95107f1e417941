import Verif.Model.References
/-!
# What loading a document should give
-/

namespace Verif.References

/-- A definition without `type`: a literal value. -/
def Untyped (defs : List (Key × Data)) (key : Key) : Prop := ∃ kind name args, (key, .mapping kind false name args) ∈ defs

mutual
/-- `v` is what `d` stands for, given the components: a reference stands for the component with that kind and name (or a number, if its definition has no
`type`), a definition for a component of its own with its kind and name, made of what its parts stand for. -/
def Resolves (defs : List (Key × Data)) (objs : List Obj) : Data → Value → Prop
  | .ref key, v => (∃ i o, v = .obj i ∧ objs[i]? = some o ∧ o.kind = key.kind ∧ o.name = some key.name) ∨ (v = .lit ∧ Untyped defs key)
  | .literal, v => v = .lit
  | .mapping kind true name args, v => ∃ i vs, v = .obj i ∧ objs[i]? = some ⟨kind, name, vs⟩ ∧ ResolvesAll defs objs args vs
  | .mapping _ false _ _, v => v = .lit
/-- The same for a list. -/
def ResolvesAll (defs : List (Key × Data)) (objs : List Obj) : List Data → List Value → Prop
  | [], vs => vs = []
  | d :: ds, vs => ∃ v vs', vs = v :: vs' ∧ Resolves defs objs d v ∧ ResolvesAll defs objs ds vs'
end

mutual
/-- The names that occur in `d`, at any depth. -/
def uses : Data → List Key
  | .ref key => [key]
  | .literal => []
  | .mapping _ true _ args => usesAll args
  | .mapping _ false _ _ => []
/-- The same for a list. -/
def usesAll : List Data → List Key
  | [] => []
  | d :: ds => uses d ++ usesAll ds
end

mutual
/-- Definitions inside `d` (not `d` itself) have no name of their own and all have a `type`. -/
def Plain : Data → Prop
  | .ref _ => True
  | .literal => True
  | .mapping _ typed _ args => typed = true ∧ PlainAll args
/-- The same for a list, with the entries themselves nameless. -/
def PlainAll : List Data → Prop
  | [] => True
  | d :: ds => (match d with | .mapping _ _ name _ => name = none | _ => True) ∧ Plain d ∧ PlainAll ds
end

mutual
/-- Size of a definition. -/
def size : Data → Nat
  | .ref _ => 1
  | .literal => 1
  | .mapping _ _ _ args => 1 + sizeAll args
/-- Size of a list of definitions. -/
def sizeAll : List Data → Nat
  | [] => 0
  | d :: ds => size d + sizeAll ds
end

/-- Total size of the definitions. -/
def weight (todo : List (Key × Data)) : Nat := (todo.map fun e => size e.2).sum

/-- The definitions form two dictionaries, and each carries its name (`_model.pyx:414-418`). -/
structure WellFormed (defs : List (Key × Data)) : Prop where
  nodup : (defs.map Prod.fst).Nodup
  named : ∀ e ∈ defs, ∃ typed args, e.2 = .mapping e.1.kind typed (some e.1.name) args

/-- Every name used is defined, and no definition uses itself, directly or through others: `rank` decreases along uses. -/
structure Acyclic (defs : List (Key × Data)) (nodes : List Data) (rank : Key → Nat) : Prop where
  known : ∀ e ∈ defs, ∀ k ∈ uses e.2, k ∈ defs.map Prod.fst
  nodes : ∀ k ∈ usesAll nodes, k ∈ defs.map Prod.fst
  rank : ∀ e ∈ defs, ∀ k ∈ uses e.2, rank k < rank e.1

end Verif.References

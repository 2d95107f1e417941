import Verif.Model.OutputFile
/-!
# Specifications for the arrays and tables of output files
-/

namespace Verif.OutputFile

variable {α : Type}

/-- Neither path leads through the other one. -/
def Apart (p q : Path) : Prop := ¬ p <+: q ∧ ¬ q <+: p

/-- The content of the array or table at a path. -/
def content (f : File α) (p : Path) : Option α := match f.at p with
  | some (.leaf a) => some a
  | _ => none

/-- Every array has a place of its own, apart from the other arrays and the tables. -/
structure Clear (c : Conf α) : Prop where
  arrays : c.itemPaths.Pairwise Apart
  fixed : ∀ p ∈ c.itemPaths, ∀ q ∈ c.fixed, Apart p q.1
  remade : ∀ p ∈ c.itemPaths, ∀ q ∈ c.remade, Apart p q.1
  root : [] ∉ c.itemPaths

/-- The tables have places of their own. -/
structure ClearTables (c : Conf α) : Prop where
  all : (c.fixed.map Prod.fst ++ c.remade.map Prod.fst).Pairwise Apart
  root : [] ∉ c.fixed.map Prod.fst ++ c.remade.map Prod.fst

/-- What a history makes of the content of the array `s` of item `x`. -/
def written (x : Nat) (s : Path) : List (Ev α) → α → α
  | [], a => a
  | .reset :: es, a => written x s es a
  | .after w :: es, a => written x s es (w x s a)

end Verif.OutputFile

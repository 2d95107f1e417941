import Verif.Model.ModelCache
import Verif.Spec.Optimisation
/-! # Vocabulary for evaluations with a cached model -/

namespace Verif.ModelCache

open Verif.Opt

variable {J H R : Type}

/-- A run starts from scratch: its results do not depend on what the model did before (C18). -/
def World.Amnesic (W : World J H R) : Prop := ∀ j vars h h', (W.run j vars h).1 = (W.run j vars h').1

/-- The result of a model just made from the document, with the decision vector assigned and run once. -/
def World.once (W : World J H R) (j : J) (x : List Rat) : Option R := (assign (W.decl j) x).bind fun vars => (W.run j vars (W.fresh j)).1

/-- The wrappers in the events. -/
def wrappers : List (Event J) → List (Wrapper J)
  | [] => []
  | .evaluate _ w _ :: es => w :: wrappers es
  | .clear _ :: es => wrappers es
  | .fork _ _ :: es => wrappers es

/-- No identifier is used for two documents. -/
def Distinct (ws : List (Wrapper J)) : Prop := ∀ w ∈ ws, ∀ w' ∈ ws, w.uid = w'.uid → w.doc = w'.doc

end Verif.ModelCache

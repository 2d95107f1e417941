import Verif.Model.Rerun
import Verif.Spec.NodeRun
/-! # Vocabulary for running again -/

namespace Verif.Rerun

open Verif.NodeRun

variable {I S O : Type}

/-- What a component sees in one timestep: the nodes before the solution, the values it uses, and the nodes at the end. -/
structure Seen (I : Type) where
  nodes : St
  uses : I
  result : St

/-- The values a component gives in consecutive timesteps. -/
def Part.values (p : Part I S O) : Nat → S → List (Seen I) → List O
  | _, _, [] => []
  | k, s, x :: xs =>
    let r := p.evaluate k x.nodes x.uses (p.before k x.nodes s)
    r.2 :: p.values (k + 1) (p.after k x.result x.uses r.2 r.1) xs

/-- At the first timestep of a run no previous flow is left of nodes that the reset reaches. -/
def Fresh (c : Config) (st : St) : Prop := ∀ i < c.size, c.hidden i = false → (∀ ms v p, c.cls i ≠ .aggregatedStorage ms v p) → (st i).prevFlow = 0

/-- After a reset the values do not depend on what was kept before, whatever is seen from then on. `ok` says which states there can be (sizes of arrays). -/
def Part.Forgets (c : Config) (ok : S → Prop) (p : Part I S O) : Prop :=
  ∀ s s', ok s → ok s' → ∀ xs : List (Seen I), (∀ x ∈ xs.head?, Fresh c x.nodes) → p.values 0 (p.reset s) xs = p.values 0 (p.reset s') xs

/-- The component does not look at the previous flow of nodes with a parent, nor of aggregated storages. -/
structure Part.Careful (c : Config) (p : Part I S O) : Prop where
  before : ∀ k st st' s, AgreeMostly c st st' → p.before k st s = p.before k st' s
  evaluate : ∀ k st st' i s, AgreeMostly c st st' → p.evaluate k st i s = p.evaluate k st' i s
  after : ∀ k st st' i o s, AgreeMostly c st st' → p.after k st i o s = p.after k st' i o s

/-- States stay possible. -/
structure Part.Keeps (ok : S → Prop) (p : Part I S O) : Prop where
  reset : ∀ s, ok s → ok (p.reset s)
  before : ∀ k st s, ok s → ok (p.before k st s)
  evaluate : ∀ k st i s, ok s → ok (p.evaluate k st i s).1
  after : ∀ k st i o s, ok s → ok (p.after k st i o s)

/-- All three. -/
structure Part.Good (c : Config) (ok : S → Prop) (p : Part I S O) : Prop where
  forgets : p.Forgets c ok
  careful : p.Careful c
  keeps : p.Keeps ok

/-- Node classes whose previous flow is reset with the model. -/
def Visible (c : Config) (i : Nat) : Prop := i < c.size ∧ c.hidden i = false ∧ ∀ ms v p, c.cls i ≠ .aggregatedStorage ms v p

end Verif.Rerun

import Verif.Model.Labels
import Mathlib.Data.List.Forall2
/-! # Specification: labels that name what was computed -/

namespace Verif.Labels

open Verif.Scenarios

/-- `lab` names the ensemble members `members` in the scenarios of `s`: one label per scenario, the user-defined name of the
member or its number. -/
def Names (s : St) (members : List Int) (lab : List Lab) : Prop :=
  if s.coll.scenarios = [] then lab = [.num 0]
  else lab.length = s.coll.scenarios.length ∧ members.length = s.coll.scenarios.length ∧
    ∀ (n : Nat) (i : Int), members[n]? = some i → (∃ sc, s.coll.scenarios[n]? = some sc ∧ 0 ≤ i ∧ i < sc.size) ∧
      ((s.names[n]? = some none ∧ lab[n]? = some (.num i)) ∨
        ∃ l x, s.names[n]? = some (some l) ∧ l[i.toNat]? = some x ∧ lab[n]? = some (.str x))

/-- The columns of the results of the last run are labelled with the members they were computed for (if labels can be
made at all). -/
def Labelled (s : St) : Prop :=
  ∃ rs : List (List Int), s.results = some rs ∧ ∀ ls : List (List Lab), s.multiindex = some ls →
    rs.length = ls.length ∧
    ∀ (g : Nat) (r : List Int) (l : List Lab), rs[g]? = some r → ls[g]? = some l → Names s r l

/-- The user-defined combinations, if any, have an entry for every scenario, and no entry is beyond its scenario. -/
def TableFits (s : St) : Prop :=
  ∀ rows, s.coll.user = some rows → ∀ r ∈ rows,
    List.Forall₂ (fun (i : Int) (sc : Scenario) => 0 ≤ i ∧ i < sc.size) r s.coll.scenarios

/-- Actions that do not change which combinations are selected. -/
def Op.keeps : Op → Prop
  | .setNames _ _ => True
  | .touch => True
  | .setup => True
  | .run => True
  | _ => False

end Verif.Labels

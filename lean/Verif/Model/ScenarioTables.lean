import Verif.Model.DataFrame
import Verif.Model.Profiles
/-!
# Parameters with a value or profile for each ensemble member

Models `ConstantScenarioParameter` (`/repo/pywr/parameters/_parameters.pyx:515-546`), `ConstantScenarioIndexParameter` (`:1228-1259`), `ArrayIndexedScenarioMonthlyFactorsParameter`
(`:549-612`), `ScenarioMonthlyProfileParameter` (`:799-832`), `ScenarioWeeklyProfileParameter` (`:834-870`), `ScenarioDailyProfileParameter` (`:872-909`), `ScenarioWrapperParameter`
(`/repo/pywr/parameters/parameters.py:359-405`), the look-up of a scenario's position (`ScenarioCollection.get_scenario_index`, `/repo/pywr/_core.pyx:156-158`) and
`Parameter.calc_values` (`_parameters.pyx:70-75`).  Values are exact numbers; two-dimensional arrays are lists of rows of equal length; a raised exception is `none`.
-/

namespace Verif.ScenarioTables

open Verif.Scenarios Verif.Profiles

/-- The tables given to the constructors. -/
inductive Table
  | constant (values : List Rat)
  | monthly (rows : List (List Rat))
  | weekly (rows : List (List Rat))
  | daily (rows : List (List Rat))
  /-- Baseline values by timestep and factors by member and month. -/
  | factors (values : List Rat) (rows : List (List Rat))

/-- The constructors' checks against the size of the scenario (`:526-531, 563-572, 813-821, 852-859, 890-897`); `none` is the `ValueError`. -/
def Table.init (size : Nat) : Table → Option Table
  | .constant values => if size ≠ values.length then none else some (.constant values)
  | .monthly rows => (scenarioTable 12 size rows).map .monthly
  | .weekly rows => (scenarioTable 52 size rows).map .weekly
  | .daily rows => (scenarioTable 366 size rows).map .daily
  | .factors values rows => (scenarioTable 12 size rows).map (.factors values)

/-- `self._scenarios.index(sc)`: position of a scenario object among those of the model, compared by identity; `none` is the `ValueError`. -/
def scenarioIndex (objects : List Nat) (sc : Nat) : Option Nat := objects.idxOf? sc

/-- `self._values[i, j]` or `self._values[i]` for possibly negative `i` (memoryviews with bounds checks and wraparound). -/
def rowAt {α : Type} (rows : List α) (i : Int) : Option α := (DataFrame.resolve rows.length i).bind fun m => rows[m]?

/-- `value` for a combination, given the position `k` of the scenario, the index of the timestep and its date (`:539-545, 580-588, 829-830, 867-868, 905-907`). -/
def Table.value (t : Table) (k index : Nat) (date : Date) (combo : List Int) : Option Rat :=
  (combo[k]?).bind fun m => match t with
    | .constant values => rowAt values m
    | .monthly rows => (rowAt rows m).bind fun r => r[date.month - 1]?
    | .weekly rows => (rowAt rows m).bind fun r => r[Calendar.weekIndex date.index]?
    | .daily rows => (rowAt rows m).bind fun r => r[date.index]?
    | .factors values rows => (values[index]?).bind fun v => (rowAt rows m).bind fun r => (r[date.month - 1]?).map fun f => v * f

/-- `setup` (`:533-537, 574-578, 823-827, 861-865, 899-903`) followed by `value`: the position of the parameter's scenario `sc` is looked up among the scenario objects. -/
def Table.valueOf (t : Table) (objects : List Nat) (sc index : Nat) (date : Date) (combo : List Int) : Option Rat :=
  (scenarioIndex objects sc).bind fun k => t.value k index date combo

/-- `ScenarioWrapperParameter.__init__` (`parameters.py:380-388`). -/
def wrapperInit (size : Nat) (children : List Nat) : Option (List Nat) := if size ≠ children.length then none else some children

/-- `ScenarioWrapperParameter.setup` and `value` (`parameters.py:392-405`): the stored value of the member's child in this combination (column `g`). -/
def wrapperValue (children : List Nat) (stored : Nat → Nat → Option Rat) (objects : List Nat) (sc : Nat) (g : Nat) (combo : List Int) : Option Rat :=
  (scenarioIndex objects sc).bind fun k => (combo[k]?).bind fun m => (rowAt children m).bind fun c => stored c g

/-- `Parameter.calc_values` (`_parameters.pyx:70-75`): for every combination, store its value at its `global_id`.  `none`: not stored, or the value raised. -/
def calcAll (combos : List Index) (value : Nat → List Int → Option Rat) : Nat → Option Rat :=
  combos.foldl (fun stored c => fun g => if g = c.1 then value c.1 c.2 else stored g) fun _ => none

end Verif.ScenarioTables

import Verif.Model.Recorders
import Verif.Model.Constraints
/-!
# Rolling and storage recorders

Models `/repo/pywr/recorders/_recorders.pyx:1182-1240` (`NumpyArrayNormalisedStorageRecorder`), `:1554-1630`
(`RollingWindowParameterRecorder`) and `:1632-1702` (`RollingMeanFlowNodeRecorder`).
-/

namespace Verif.Recorders

open Verif.Run Verif.Constraints

/-- State of a rolling recorder: `_data`, `_memory` (a row per position; the mean flow recorder has it transposed) and
`position`. -/
structure Rolling where
  data : List (List Res)
  memory : List (List Rat)
  position : Nat

/-- The number of rows used at timestep `k`, `:1595-1598`, `:1689-1692`. -/
def rows (window k : Nat) : Nat := if k < window then k + 1 else window

/-- After-hook of the rolling recorders, `:1585-1607`, `:1681-1701`. `none`: an exception. -/
def rollingAfter (f : Func) (window ncomb k : Nat) (o : List Rat) (s : Rolling) : Option Rolling :=
  if s.position < s.memory.length then
    let memory := s.memory.set s.position o
    (aggregate2d f ((memory.take (rows window k)).map (·.map some)) ncomb false).bind fun value =>
      if k < s.data.length then
        let position := s.position + 1
        some ⟨s.data.set k value, memory, if position ≥ window then 0 else position⟩
      else none
  else none

/-- `RollingWindowParameterRecorder`. `reset` (`:1581-1583`) does not clear the memory, which holds anything: `memory`, `nts` rows
(`:1576-1578`). Observes the values of the parameter. -/
def rollingWindow (f : Func) (window nts ncomb : Nat) (memory : List (List Rat)) : Rec Rolling (List Rat) where
  init := ⟨List.replicate nts (List.replicate ncomb (.num 0)), memory, 0⟩
  after k o s := rollingAfter f window ncomb k o s
  finish _ s := some s

/-- `RollingMeanFlowNodeRecorder`. `reset` (`:1677-1679`) clears neither the memory (`timesteps` rows) nor the data. Observes
the flows of the node. -/
def rollingMeanFlow (timesteps ncomb : Nat) (data : List (List Res)) (memory : List (List Rat)) : Rec Rolling (List Rat) where
  init := ⟨data, memory, 0⟩
  after k o s := rollingAfter .mean timesteps ncomb k o s
  finish _ s := some s

/-- `RollingMeanFlowNodeRecorder.setup` (`:1664-1675`): the number of timesteps of the window for timesteps of `delta` days.
`none`: "Timesteps property … is less than 1". -/
def rollingTimesteps (timesteps days delta : Nat) : Option Nat :=
  let n := if days > 0 then days / delta else timesteps
  if n = 0 then none else some n

/-- `NumpyArrayNormalisedStorageRecorder.after` (`:1212-1233`) for one combination; `none`: division by zero. -/
def normalised (cc vol : Rat) : Option Rat :=
  if vol < cc then (if cc = 0 then none else some (vol / cc - 1))
  else if 1 - cc = 0 then none else some ((vol - cc) / (1 - cc))

/-- `NumpyArrayStorageRecorder.after` (`:1168-1176`): observes volumes and proportional volumes. -/
def arrayStorage (proportional : Bool) (nts ncomb : Nat) : Rec (List (List Rat)) (List Rat × List Rat) :=
  arrayRecorder 0 (fun o => if proportional then o.2 else o.1) nts ncomb

end Verif.Recorders

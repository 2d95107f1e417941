import Verif.Model.Levels
/-! # Vocabulary for recorded levels -/

namespace Verif.Levels

open Verif.Memory

/-- The volume at the beginning of timestep `t`, if it was `initial` at the beginning of the run and `vols` are the volumes at the end of the timesteps. -/
def volumeBefore (initial : Vec) (vols : List Vec) : Nat → Vec
  | 0 => initial
  | t + 1 => vols.getD t fun _ => 0

/-- An amount growing at the rate for a number of years. -/
def grown (rate amount : Rat) : Nat → Rat
  | 0 => amount
  | n + 1 => grown rate amount n * (1 + rate)

end Verif.Levels

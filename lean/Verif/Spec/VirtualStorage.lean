import Verif.Model.VirtualStorage
import Mathlib.Algebra.BigOperators.Group.List.Basic
/-! # Specification for virtual storages -/

namespace Verif.VirtualStorage

open Verif.Bounds

/-- Licensed volume used in a timestep: factor-weighted flows times the length of the timestep. -/
def RStep.used (t : RStep) : Rat := (t.uses.map fun u => u.factor * u.flow).sum * t.days

/-- The use history a rolling licence over `T` timesteps sees: `T - 1` equal shares of the volume missing at the start, then the
uses of the run. Entry `k + T - 1` is the use of timestep `k`. -/
def history (T : Nat) (mx v0 : Rat) (ts : List RStep) : List Rat :=
  List.replicate (T - 1) ((mx - v0) / ((T - 1 : Nat) : Rat)) ++ ts.map RStep.used

/-- Sum of `n` consecutive entries starting at `k`. -/
def windowSum (n k : Nat) (h : List Rat) : Rat := ((h.drop k).take n).sum

/-- Day and month as one number, ordered like the calendar. -/
def code (m d : Nat) : Nat := 32 * m + d

/-- Calendar position of a timestep within its year. -/
def Stamp.code (t : Stamp) : Nat := VirtualStorage.code t.month t.day

/-- Calendar position of a date. -/
def MonthDay.code (r : MonthDay) : Nat := VirtualStorage.code r.month r.day

/-- In season: from the start date up to, not including, the end date, possibly over the new year. -/
def InSeason (c : SeasonalCfg) (t : Stamp) : Prop :=
  if c.date.code < c.endDate.code then c.date.code ≤ t.code ∧ t.code < c.endDate.code
  else c.date.code ≤ t.code ∨ t.code < c.endDate.code

instance (c : SeasonalCfg) (t : Stamp) : Decidable (InSeason c t) := by unfold InSeason; infer_instance

/-- Timesteps are fine enough not to jump over the part of the year in which the licence is off. -/
def FineStep (c : SeasonalCfg) (t u : Stamp) : Prop :=
  (t.year = u.year ∧ t.code ≤ u.code ∧
    (c.endDate.code < c.date.code → ¬ (t.code < c.endDate.code ∧ c.date.code ≤ u.code))) ∨
  (t.year < u.year ∧ c.endDate.code ≤ t.code ∧
    (c.endDate.code < c.date.code → c.date.code ≤ t.code ∧ u.code < c.date.code))

end Verif.VirtualStorage

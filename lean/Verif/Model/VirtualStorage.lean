import Verif.Model.Storage
import Verif.Model.Ring
/-!
# Virtual storages

Models `/repo/pywr/_core.pyx:1458-1536` (VirtualStorage, RollingVirtualStorage), `/repo/pywr/nodes.py:596-758`
(Annual, Seasonal and MonthlyVirtualStorage) and the virtual storage rows of the LP
`/repo/pywr/solvers/cython_glpk.pyx:991-1019`. One scenario; the code repeats the same statements per scenario.
-/

namespace Verif.VirtualStorage

open Verif Verif.Bounds

/-- A factor and the flow of the node it applies to (`zip(self._nodes, self._factors)`). -/
structure Use where
  factor : Rat
  flow : Rat

/-- `_flow -= f*n._flow` for every node, starting from zero (`_core.pyx:1488-1491`). -/
def depletion (us : List Use) : Rat := us.foldl (fun acc u => acc - u.factor * u.flow) 0

/-- State: the storage and the `active` flag. -/
structure VState where
  store : Storage.State
  active : Bool
deriving DecidableEq

/-- `VirtualStorage.after` (`_core.pyx:1483-1493`): nothing happens when inactive. -/
def VState.after (s : VState) (us : List Use) (days mx mn : Rat) (adjustment : Option Rat) : VState :=
  if s.active then
    { s with store := ({ s.store with flow := depletion us }).after days mx mn adjustment }
  else s

/-- `VirtualStorage.reset` (`_core.pyx:1464-1466`). -/
def VState.reset (i : Storage.Initial) (s : VState) : Except Storage.Err VState :=
  match Storage.reset i s.store with
  | .ok st => .ok { store := st, active := true }
  | .error e => .error e

/-- The LP row of a virtual storage (`cython_glpk.pyx:991-1019`): fixed at zero when the bounds coincide, free when inactive, otherwise
as for a storage. The row's expression is `Σ -factor * flow`. -/
def vRow (active : Bool) (volume mx mn days : Rat) : Row :=
  if mx = mn then ⟨.fx, 0, 0⟩
  else if active = false then ⟨.fr, -dblMax, dblMax⟩
  else Storage.storageRow volume mx mn days

/-! ## RollingVirtualStorage -/

/-- Exceptions of `setup`. -/
inductive Err
  | valueError
  | runtimeError
deriving DecidableEq, Inhabited

/-- The initial utilisation computed in `RollingVirtualStorage.setup` (`_core.pyx:1500-1516`). `get_initial_pc` being NaN is
propagated as an error here (in the code it makes the memory NaN). `isParam` is `isinstance(max_volume, Parameter)`. -/
def utilisation (timesteps : Nat) (i : Storage.Initial) : Except Err Rat :=
  if timesteps < 2 then .error .valueError
  else match Storage.getInitialVolume i, Storage.getInitialPc i with
    | .ok v, .ok (some pc) =>
      if pc = 0 then
        match i.mx with
        | .number m => .ok (m / ((timesteps - 1 : Nat) : Rat))
        | _ => .error .valueError
      else .ok ((v / pc - v) / ((timesteps - 1 : Nat) : Rat))
    | _, _ => .error .runtimeError

/-- State of a rolling virtual storage. -/
structure Rolling where
  store : Storage.State
  ring : Ring Rat
deriving DecidableEq

/-- State after `setup` and `reset` (`_core.pyx:1517-1523`): volume from `Storage.reset`, memory filled with the initial
utilisation. -/
def Rolling.init (timesteps : Nat) (i : Storage.Initial) : Except Err Rolling :=
  match utilisation timesteps i, Storage.reset i ⟨0, 0, 0, none⟩ with
  | .ok u, .ok s => .ok ⟨s, Ring.full (timesteps - 1) u⟩
  | .error e, _ => .error e
  | _, .error _ => .error .runtimeError

/-- One timestep as seen by the node. -/
structure RStep where
  uses : List Use
  days : Rat
  mx : Rat
  mn : Rat

/-- `RollingVirtualStorage.after` (`_core.pyx:1525-1536`), the node being active. Out-of-range memory reads (impossible after `setup`)
count as no change. -/
def Rolling.after (r : Rolling) (t : RStep) : Rolling :=
  match r.ring.read with
  | none => r
  | some m =>
    let s := ({ r.store with flow := depletion t.uses }).after t.days t.mx t.mn (some m)
    ⟨s, r.ring.push (-s.flow * t.days)⟩

/-- A run. `before` only clears the flow, which `after` recomputes. -/
def Rolling.run (r : Rolling) (ts : List RStep) : Rolling := ts.foldl Rolling.after r

/-! ## Annual, seasonal and monthly replenishment -/

/-- The fields of a timestep read by `before`. -/
structure Stamp where
  index : Nat
  year : Int
  month : Nat
  day : Nat

/-- Month and day of the reset. -/
structure MonthDay where
  month : Nat
  day : Nat

/-- `ts.month > m or (ts.month == m and ts.day >= d)`. -/
def Stamp.onOrAfter (t : Stamp) (r : MonthDay) : Bool :=
  decide (t.month > r.month) || (decide (t.month = r.month) && decide (t.day ≥ r.day))

/-- `ts.month > m or (ts.month == m and ts.day > d)`. -/
def Stamp.strictlyAfter (t : Stamp) (r : MonthDay) : Bool :=
  decide (t.month > r.month) || (decide (t.month = r.month) && decide (t.day > r.day))

/-- What `before` does to the volume: nothing, or `_reset_storage_only` with the given `use_initial_volume`. -/
inductive Action
  | none
  | reset (useInitial : Bool)
deriving DecidableEq

/-- State kept by the annual node: `_last_reset_year`, and `active` (set by a reset). -/
structure Annual where
  lastReset : Option Int
  active : Bool
deriving DecidableEq

/-- Configuration. -/
structure AnnualCfg where
  date : MonthDay
  toInitial : Bool
  mxIsParam : Bool

/-- `AnnualVirtualStorage.reset` (`nodes.py:626-628`). -/
def Annual.init : Annual := ⟨none, true⟩

/-- `AnnualVirtualStorage.before` (`nodes.py:630-656`). -/
def Annual.before (c : AnnualCfg) (s : Annual) (t : Stamp) : Annual × Action :=
  let last := if t.index = 0 ∧ t.strictlyAfter c.date = true then some t.year else s.lastReset
  if last ≠ some t.year ∧ t.onOrAfter c.date = true then
    let useInitial := if t.index = 0 ∧ c.mxIsParam = true then true else c.toInitial
    (⟨some t.year, true⟩, .reset useInitial)
  else (⟨last, s.active⟩, .none)

/-- State after the first `n` timesteps of a run. -/
def Annual.stateAt (c : AnnualCfg) (ts : List Stamp) : Annual := ts.foldl (fun s t => (s.before c t).1) Annual.init

/-- Action taken at timestep `k`. -/
def Annual.actionAt (c : AnnualCfg) (ts : List Stamp) (k : Nat) (h : k < ts.length) : Action :=
  ((Annual.stateAt c (ts.take k)).before c ts[k]).2

/-- State of a seasonal node. -/
structure Seasonal where
  annual : Annual
  lastActive : Option Int
deriving DecidableEq

/-- Configuration. -/
structure SeasonalCfg extends AnnualCfg where
  endDate : MonthDay

/-- `end_month < reset_month or (== and end_day <= reset_day)`. -/
def SeasonalCfg.endLeReset (c : SeasonalCfg) : Bool :=
  decide (c.endDate.month < c.date.month) || (decide (c.endDate.month = c.date.month) && decide (c.endDate.day ≤ c.date.day))

/-- `end_month > reset_month or (== and end_day >= reset_day)`. -/
def SeasonalCfg.endGeReset (c : SeasonalCfg) : Bool :=
  decide (c.endDate.month > c.date.month) || (decide (c.endDate.month = c.date.month) && decide (c.endDate.day ≥ c.date.day))

/-- `SeasonalVirtualStorage.before` (`nodes.py:694-719`). -/
def Seasonal.before (c : SeasonalCfg) (s : Seasonal) (t : Stamp) : Seasonal :=
  let a := (s.annual.before c.toAnnualCfg t).1
  if s.lastActive ≠ some t.year then
    if t.index = 0 then
      if a.lastReset = some t.year then
        if c.endLeReset = true then ⟨a, some t.year⟩ else ⟨a, s.lastActive⟩
      else
        if c.endGeReset = true then ⟨{ a with active := false }, s.lastActive⟩ else ⟨a, s.lastActive⟩
    else if t.onOrAfter c.endDate = true then ⟨{ a with active := false }, some t.year⟩
    else ⟨a, s.lastActive⟩
  else ⟨a, s.lastActive⟩

/-- A new object: `__init__` sets `_last_active_year = None` (`nodes.py:690`). -/
def Seasonal.new : Seasonal := ⟨Annual.init, none⟩

/-- `reset` before a run: inherited from the annual node, `_last_active_year` survives. -/
def Seasonal.reset (s : Seasonal) : Seasonal := ⟨Annual.init, s.lastActive⟩

/-- A run from a given state. -/
def Seasonal.runFrom (c : SeasonalCfg) (s : Seasonal) (ts : List Stamp) : Seasonal := ts.foldl (Seasonal.before c) s

/-- State of a monthly node: `_count`, `_last_month`. -/
structure Monthly where
  count : Int
  lastMonth : Option Nat
deriving DecidableEq

/-- `MonthlyVirtualStorage.__init__` and `reset` (`nodes.py:735-746`). -/
def Monthly.init (initialMonths : Int) : Monthly := ⟨initialMonths - 1, none⟩

/-- `MonthlyVirtualStorage.before` (`nodes.py:748-757`); the flag says whether the volume is reset. -/
def Monthly.before (months : Int) (s : Monthly) (month : Nat) : Monthly × Bool :=
  if s.lastMonth ≠ some month then
    if s.count + 1 = months then (⟨0, some month⟩, true) else (⟨s.count + 1, some month⟩, false)
  else (s, false)

/-- State after a list of timesteps, given by their months. -/
def Monthly.stateAt (months initialMonths : Int) (ms : List Nat) : Monthly :=
  ms.foldl (fun s m => (s.before months m).1) (Monthly.init initialMonths)

/-- Whether the volume is reset at timestep `k`. -/
def Monthly.resetsAt (months initialMonths : Int) (ms : List Nat) (k : Nat) (h : k < ms.length) : Bool :=
  ((Monthly.stateAt months initialMonths (ms.take k)).before months ms[k]).2

end Verif.VirtualStorage

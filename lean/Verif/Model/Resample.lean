import Mathlib.Algebra.Order.Field.Rat
import Mathlib.Algebra.BigOperators.Group.List.Basic
/-!
# Time series on the timesteps of a model

Models `align_and_resample_dataframe` and its helpers (`/repo/pywr/dataframe_tools.py:20-156`) for one column and the default aggregation (`mean`), as used by `DataFrameParameter`
(`/repo/pywr/parameters/_parameters.pyx:212-228`) and the comparison recorders (`/repo/pywr/recorders/calibration.py:30-35`).  Days are numbered; a missing value (NaN) is `none`.

Pandas is not part of the repository: `resample(freq).agg("mean")` on periods groups the rows by the period their first day lies in, periods being counted from the first row, and takes the mean
of the values that are not missing; `ffill` takes the value of the last row that starts no later; the new index reaches from the first day to the last day of the data; aggregating to a *finer*
calendar frequency keeps the values at the first of the new periods and leaves the others missing (`asfreq`).  Frequencies are multiples of a day (`Tick`), or calendar periods (months, weeks, years: `DateOffset`).
-/

namespace Verif.Resample

/-- Why a data frame is refused: `ResamplingError` (`:97-98`), missing values (`:100-101`), no timesteps (`:44`). -/
inductive Err
  | resampling
  | missing
  | empty
deriving DecidableEq

/-- A row: the day (or number of the calendar period) it starts at, and its value. -/
abbrev Row := Int × Option Rat

/-- A data frame with rows every `f` days from day `s` on. -/
def tickRows (s : Int) (f : Nat) (vs : List (Option Rat)) : List Row := vs.zipIdx.map fun q => (s + (q.2 : Int) * (f : Int), q.1)

/-- The mean of the values that are not missing; missing if there are none. -/
def meanSkip (l : List (Option Rat)) : Option Rat :=
  if l.filterMap id = [] then none else some ((l.filterMap id).sum / ((l.filterMap id).length : Rat))

/-- The values of the rows that start in `[lo, hi)`. -/
def within (rows : List Row) (lo hi : Int) : List (Option Rat) := (rows.filter fun r => decide (lo ≤ r.1 ∧ r.1 < hi)).map Prod.snd

/-- `resample(freq).agg("mean")` to periods of `M` days counted from the first row. -/
def resample (M : Nat) (rows : List Row) : List Row :=
  match rows.head?, rows.getLast? with
  | some a, some z =>
    (List.range (((z.1 - a.1) / (M : Int)).toNat + 1)).map fun i : Nat =>
      (a.1 + (i : Int) * (M : Int), meanSkip (within rows (a.1 + (i : Int) * (M : Int)) (a.1 + ((i : Int) + 1) * (M : Int))))
  | _, _ => []

/-- `resample(freq).ffill()` of rows every `f` days to periods of `M` days: the labels reach to the last day of the data. -/
def ffill (M : Nat) (s : Int) (f : Nat) (vs : List (Option Rat)) : List Row :=
  if vs = [] then []
  else (List.range ((vs.length * f - 1) / M + 1)).map fun i : Nat => (s + (i : Int) * (M : Int), (vs[i * M / f]?).join)

/-- `df[start:end]`, the comparison with the target index and the check for missing values (`:95-103`).  The target: `n` periods of `M` from `T` on. -/
def select (T : Int) (M n : Nat) (rows : List Row) : Except Err (List Rat) :=
  if n = 0 then .error .empty
  else
    let sel := rows.filter fun r => decide (T ≤ r.1 ∧ r.1 ≤ T + ((n : Int) - 1) * (M : Int))
    if sel.map Prod.fst ≠ (List.range n).map (fun i : Nat => T + (i : Int) * (M : Int)) then .error .resampling
    else match (sel.map Prod.snd).mapM id with
      | none => .error .missing
      | some out => .ok out

/-- The rows from the first day to the last day of the target (`:123-125, 143-145`). -/
def sliced (T : Int) (M n : Nat) (rows : List Row) : List Row := rows.filter fun r => decide (T ≤ r.1 ∧ r.1 ≤ T + (n : Int) * (M : Int) - 1)

/-- `_down_sample_tick_to_tick` (`:120-128`) and the checks. -/
def downTick (s : Int) (f : Nat) (vs : List (Option Rat)) (T : Int) (M n : Nat) : Except Err (List Rat) :=
  select T M n (resample M (sliced T M n (tickRows s f vs)))

/-- `_up_sample_tick_to_tick` (`:153-156`) and the checks. -/
def upTick (s : Int) (f : Nat) (vs : List (Option Rat)) (T : Int) (M n : Nat) : Except Err (List Rat) :=
  select T M n (ffill M s f vs)

/-- Data every `f` days, timesteps of `M` days (`:65-73`). -/
def tickTick (s : Int) (f : Nat) (vs : List (Option Rat)) (T : Int) (M n : Nat) : Except Err (List Rat) :=
  if M ≥ f then downTick s f vs T M n else upTick s f vs T M n

/-- Rows of calendar periods, each with its number of days, filled to days (`:140`). -/
def daily (rows : List (Nat × Option Rat)) : List (Option Rat) := rows.flatMap fun r => List.replicate r.1 r.2

/-- Data for calendar periods from day `s` on, timesteps of `M` days: `_resample_date_offset_to_tick` (`:131-150`) and the checks. -/
def offsetTick (s : Int) (rows : List (Nat × Option Rat)) (T : Int) (M n : Nat) : Except Err (List Rat) :=
  let days := sliced T M n (tickRows s 1 (daily rows))
  select T M n (if M > 1 then resample M days else days)

/-- `resample(freq).agg("mean")` to calendar periods: `period d` is the number of the period day `d` lies in. -/
def calendar (period : Int → Int) (rows : List Row) : List Row :=
  match rows.head?, rows.getLast? with
  | some a, some z =>
    (List.range ((period z.1 - period a.1).toNat + 1)).map fun i : Nat =>
      (period a.1 + (i : Int), meanSkip ((rows.filter fun r => decide (period r.1 = period a.1 + (i : Int))).map Prod.snd))
  | _, _ => []

/-- Data every `f` days, timesteps of calendar periods, `n` from number `m` on: `_down_sample_tick_to_date_offset` (`:113-117`) and the checks. -/
def tickOffset (period : Int → Int) (s : Int) (f : Nat) (vs : List (Option Rat)) (m : Int) (n : Nat) : Except Err (List Rat) :=
  select m 1 n (calendar period (tickRows s f vs))

/-- Data for long calendar periods (years), each with its number of timesteps, from timestep number `p` on; timesteps of shorter calendar periods (months):
`_resample_date_offset_to_date_offset` (`:106-110`) and the checks. -/
def offsetOffset (p : Int) (rows : List (Nat × Option Rat)) (m : Int) (n : Nat) : Except Err (List Rat) :=
  select m 1 n (tickRows p 1 (rows.flatMap fun r => (List.range r.1).map fun i => if i = 0 then r.2 else none))

end Verif.Resample

import Verif.Model.Storage
/-!
# Storages in double precision

The volume of a storage (`/repo/pywr/_core.pyx:475-483, 941-944, 975-978, 1335-1361`) and its row in the linear programme (`/repo/pywr/solvers/cython_glpk.pyx:66-77, 963-990`, the same text in
`:1790-1815`) as in `Model/Storage.lean`, but with every operation rounded to the nearest double, ties to even, as C compilers do it on the usual machines (without fused operations and with
`double` evaluation of intermediate results).  A double is a rational number here; results beyond the largest double (which would be infinite) are not limited, the theorems exclude them by the size of the
volumes.  Zero has no sign.
-/

namespace Verif.Float64

open Verif.Bounds Verif.Storage

/-- Powers of two. -/
def pow2 (e : Int) : Rat := if 0 ≤ e then ((2 ^ e.toNat : Nat) : Rat) else 1 / ((2 ^ (-e).toNat : Nat) : Rat)

/-- The exponent of a number that is not zero: the greatest `e` with `2^e ≤ |x|`. -/
def expo (x : Rat) : Int :=
  let e := (Nat.log2 x.num.natAbs : Int) - Nat.log2 x.den
  if pow2 e ≤ |x| then e else e - 1

/-- The nearest integer, the even one of two. -/
def roundEven (r : Rat) : Int :=
  let f := r.floor
  let d := r - f
  if d < 1 / 2 then f else if 1 / 2 < d then f + 1 else if f % 2 = 0 then f else f + 1

/-- The distance of neighbouring doubles around `x`: 52 bits below the leading one, at least `2^-1074`. -/
def unit (x : Rat) : Rat := pow2 (max (expo x - 52) (-1074))

/-- Rounding to a double (IEEE 754 binary64, round to nearest even). -/
def fl (x : Rat) : Rat := if x = 0 then 0 else roundEven (x / unit x) * unit x

/-- `constraint_type(a, b)`, `cython_glpk.pyx:66-77`; the literal is a double, too. -/
def constraintType (a b : Rat) : RowType :=
  if |fl (a - b)| < fl e8 then .fx
  else if b = dblMax then (if a = -dblMax then .fr else .lo)
  else if a = -dblMax then .up
  else .db

/-- The row of a storage in the LP, `cython_glpk.pyx:963-990`. -/
def storageRow (volume mx mn days : Rat) : Row :=
  if mx = mn then ⟨.fx, 0, 0⟩
  else
    let avail := max (fl (volume - mn)) 0
    let lb := fl (-avail / days)
    let ub := fl (max (fl (mx - volume)) 0 / days)
    let lb := if |lb| < fl e8 then 0 else lb
    let ub := if |ub| < fl e8 then 0 else ub
    ⟨constraintType lb ub, lb, ub⟩

/-- Effect of a commit on the storage's flow (`_core.pyx:481-483, 941-944, 975-978`). -/
def commit (s : State) : Commit → State
  | .fromStore v => { s with flow := fl (s.flow + -v) }
  | .toStore v => { s with flow := fl (s.flow + v) }
  | .direct v => { s with flow := fl (s.flow + v) }

/-- Snapping to the bounds, `_core.pyx:1352-1355`. -/
def snap (mx mn v : Rat) : Rat :=
  let v1 := if |fl (v - mx)| < fl e6 then mx else v
  if |fl (v1 - mn)| < fl e6 then mn else v1

/-- `Storage.after`, `_core.pyx:1335-1361`. -/
def after (s : State) (days mx mn : Rat) (adjustment : Option Rat) : State :=
  let v0 := fl (s.volume + fl (s.flow * days))
  let v1 := match adjustment with
    | none => v0
    | some a => min mx (max mn (fl (v0 + a)))
  let v2 := snap mx mn v1
  { volume := v2, flow := s.flow, prevFlow := s.flow, pc := if mx = 0 then none else some (fl (v2 / mx)) }

/-- A timestep: `before` (the flow is cleared), the solver's commits, `after`. -/
def step (s : State) (t : Step) : State := after (t.commits.foldl commit s.before) t.days t.mx t.mn none

/-- A run. -/
def run (s : State) (ts : List Step) : State := ts.foldl step s

end Verif.Float64

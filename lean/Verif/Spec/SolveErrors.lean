import Verif.Model.SolveErrors
/-! # Specification: numbers that cannot be solved with -/

namespace Verif.SolveErrors

open Verif.Bounds

/-- Not infinite. -/
def NotInf (x : F) : Prop := x ≠ .posInf ∧ x ≠ .negInf

/-- The limits are the same number. -/
def Vol.Fixed (s : Vol) : Prop := ∃ q, s.mx = .fin q ∧ s.mn = .fin q

/-- Volume or a limit is NaN. -/
def Vol.Bad (s : Vol) : Prop := s.volume = .nan ∨ s.mx = .nan ∨ s.mn = .nan

/-- A NaN matters: the cost of a node on a route, a factor, a limit; the volume or a limit of a storage whose limits differ;
the same of a virtual storage that is active. -/
def NanUsed (p : Given) : Prop :=
  (∃ r ∈ p.routes, .nan ∈ r) ∨ .nan ∈ p.factors ∨ (∃ l ∈ p.limits, l.1 = .nan ∨ l.2 = .nan) ∨
    (∃ s ∈ p.storages, ¬ s.Fixed ∧ s.Bad) ∨ ∃ s ∈ p.virtuals, s.1 = true ∧ ¬ s.2.Fixed ∧ s.2.Bad

/-- Costs, volumes and limits of volumes are not infinite (limits of flows may be). -/
structure Finite (p : Given) : Prop where
  costs : ∀ r ∈ p.routes, ∀ c ∈ r, NotInf c
  storages : ∀ s ∈ p.storages, NotInf s.volume ∧ NotInf s.mx ∧ NotInf s.mn
  virtuals : ∀ s ∈ p.virtuals, NotInf s.2.volume ∧ NotInf s.2.mx ∧ NotInf s.2.mn

/-- The attempt whose flows are used: the first, or the second if the first failed and a second is wanted. -/
def Found (retry : Bool) (attempt : Nat → Option Flow) (x : Flow) : Prop :=
  attempt 0 = some x ∨ (retry = true ∧ attempt 0 = none ∧ attempt 1 = some x)

/-- Numbers nearer to zero than `1e-8` count as zero. -/
def tidy (q : Rat) : Rat := if |q| < 1 / 100000000 then 0 else q

/-- A storage of finite volume and limits: volume, most and least. -/
def vol (s : Rat × Rat × Rat) : Vol := ⟨.fin s.1, .fin s.2.1, .fin s.2.2⟩

/-- The range of the net flow into a storage per day: what is above the least volume can be given, what is below the most can be taken.  None at all if both are the same. -/
def room (days : Rat) (s : Rat × Rat × Rat) : List Rat :=
  if s.2.1 = s.2.2 then [0, 0] else [tidy (-max 0 (s.1 - s.2.2) / days), tidy (max 0 (s.2.1 - s.1) / days)]

end Verif.SolveErrors

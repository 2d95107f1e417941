import Verif.Model.Values
/-! # Vocabulary for values of parameters in documents -/

namespace Verif.Values

/-- Classes with a list of values over time: how many there have to be, and which one is for a day. -/
inductive OverTime : Kind → (Nat → Prop) → (Day → Nat) → Prop
  | daily : OverTime .daily (· = 366) (·.day)
  | weekly : OverTime .weekly (fun n => n = 52 ∨ n = 53) (·.week)
  | monthly : OverTime .monthly (· = 12) (·.month - 1)
  | arrayIndexed : OverTime .arrayIndexed (fun _ => True) (·.index)

/-- Classes with a list of values for every member of a scenario: its length, and which one is for a day. -/
inductive PerMember : Kind → Nat → (Day → Nat) → Prop
  | daily : PerMember .scenarioDaily 366 (·.day)
  | weekly : PerMember .scenarioWeekly 52 (·.week)
  | monthly : PerMember .scenarioMonthly 12 (·.month - 1)

/-- The options are arguments of the class. -/
def Known (k : Kind) (options : List (String × String)) : Prop :=
  ∀ o ∈ options, o.1 = "is_variable" ∨ k = .monthly ∧ (o.1 = "lower_bounds" ∨ o.1 = "upper_bounds" ∨ o.1 = "interp_day")

/-- No selection. -/
abbrev whole : Datasets.Choice := ⟨none, none, none, none⟩

end Verif.Values

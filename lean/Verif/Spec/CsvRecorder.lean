import Verif.Model.CsvRecorder
/-! # Specification: the CSV file -/

namespace Verif.Csv

/-- A row shows the state: the date, then for each name the value of that node in the scenario, counted from the end if negative. -/
def Shows (fmt : Rat → String) (scenario : Int) (names : List String) (date : String) (nodes : String → Option Node) (row : List String) : Prop :=
  row.length = names.length + 1 ∧ row[0]? = some date ∧
  ∀ (j : Nat) (n : String), names[j]? = some n → ∃ l : List Rat, (nodes n = some (.storage l) ∨ nodes n = some (.node l)) ∧
    ∃ (i : Nat) (v : Rat), ((i : Int) = scenario ∨ (i : Int) = scenario + (l.length : Int)) ∧ l[i]? = some v ∧ row[j + 1]? = some (fmt v)

/-- What `es` (rows and flushes only) adds: the rows in order. -/
inductive Rows (fmt : Rat → String) (scenario : Int) (names : List String) : List Ev → List (List String) → Prop
  | nil : Rows fmt scenario names [] []
  | flush (k : Nat) {es : List Ev} {rs : List (List String)} (h : Rows fmt scenario names es rs) : Rows fmt scenario names (.flush k :: es) rs
  | after {d : String} {ns : String → Option Node} {es : List Ev} {rs : List (List String)} {r : List String} (h1 : Shows fmt scenario names d ns r)
      (h : Rows fmt scenario names es rs) : Rows fmt scenario names (.after d ns :: es) (r :: rs)

/-- All nodes of the recorder exist and have the scenario. -/
def Complete (scenario : Int) (names : List String) : Ev → Prop
  | .after _ ns => ∀ n ∈ names, ∃ l : List Rat, (ns n = some (.storage l) ∨ ns n = some (.node l)) ∧ -(l.length : Int) ≤ scenario ∧ scenario < l.length
  | .flush _ => True
  | _ => False

/-- The text. -/
def content (csv : List String → List Char) (names : List String) (rows : List (List String)) : List Char :=
  csv ("Datetime" :: names) ++ (rows.map csv).flatten

/-- How far a file object that was not closed may still write. -/
def St.reach (st : St) : Nat := match st.handle with
  | none => 0
  | some h => if h.buf = [] then 0 else h.pos + h.buf.length

end Verif.Csv

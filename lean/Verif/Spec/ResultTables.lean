import Verif.Model.ResultTables
/-! # What stands in a table -/

namespace Verif.ResultTables

/-- The value `v` stands in the row `l` and the column `c`. -/
def Frame.Has {α : Type} (f : Frame α) (l : Label) (c : List Label) (v : α) : Prop := ∃ i j, f.index[i]? = some l ∧ f.columns[j]? = some c ∧ f.cell i j = v

/-- The value `v` stands in the row `l` and the column `c` of the recorder `n`. -/
def Table.Has {α : Type} (t : Table α) (l n : Label) (c : List Label) (v : α) : Prop := ∃ i j, t.index[i]? = some l ∧ t.columns[j]? = some (n, c) ∧ t.cell i j = some v

/-- `f` is the table of one of the recorders. -/
def OfRecorder {α : Type} (rs : List (Rec α)) (n : Label) (f : Frame α) : Prop := ∃ r ∈ rs, r.name = n ∧ r.frame = some f

/-- The names of the recorders are distinct (C95). -/
def Distinct {α : Type} (rs : List (Rec α)) : Prop := (rs.map Rec.name).Nodup

/-- The times are in order. -/
def Ordered {α : Type} (rows : List (Int × α)) : Prop := rows.Pairwise fun p q => p.1 < q.1

/-- Clock readings that never decrease: the creation of the profiler, then for every call the reading for the entry and the one after it. -/
def Readings : Rat → List Call → Prop
  | _, [] => True
  | t, c :: cs => t ≤ c.time ∧ c.time ≤ c.time' ∧ Readings c.time' cs

end Verif.ResultTables

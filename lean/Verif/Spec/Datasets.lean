import Verif.Model.Datasets
/-! # Vocabulary for data from tables -/

namespace Verif.Datasets

variable {α : Type}

/-- The table has this value in the row and the column with these labels. -/
def Frame.Has (f : Frame α) (row column : Label) (x : α) : Prop := ∃ i j, f.index[i]? = some row ∧ f.columns[j]? = some column ∧ f.cell i j = x

/-- Every label occurs once. -/
def Frame.Proper (f : Frame α) : Prop := f.index.Nodup ∧ f.columns.Nodup

/-- The two tables have the same values, if perhaps in another order. -/
def Frame.Same (f g : Frame α) : Prop := ∀ r c x, f.Has r c x ↔ g.Has r c x

/-- The extension: what follows the last dot. -/
def extension (url : List Char) : Option (List Char) := if '.' ∈ url then some (url.reverse.takeWhile (· ≠ '.')).reverse else none

/-- The type of file for an extension. -/
def typeOf (e : List Char) : Option (List Char) :=
  ([("xls", "excel"), ("xlsx", "excel"), ("csv", "csv"), ("gz", "csv"), ("hdf", "hdf"), ("hdf5", "hdf"), ("h5", "hdf"), ("rds", "rds"), ("Rds", "rds"), ("rdata", "rds"),
    ("RData", "rds")].map fun p : String × String => (p.1.toList, p.2.toList)).lookup e

end Verif.Datasets

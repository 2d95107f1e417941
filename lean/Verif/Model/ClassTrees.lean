import Mathlib.Data.List.Basic
/-!
# Classes in the diagrams of the network

Models the lists of classes from which the boxes of the diagrams get their looks (`/repo/pywr/notebook/draw_graph.js:117-121`): the loop in `pywr_model_to_d3_json` (`/repo/pywr/notebook/__init__.py:210-221`) and the same loop in
`create_node_class_trees` (`:365-380`), which `pywr_json_to_d3_json` uses (`:309, :321`). Classes are given by their names; two classes of the same name are not distinguished (simplified; `_core.Node` is a name of its own).
-/

namespace Verif.ClassTrees

/-- Classes with their bases (`cls.__bases__`). Bases are defined before: this is what `rank` says. -/
structure Hierarchy where
  bases : String → List String
  rank : String → Nat
  earlier : ∀ c, ∀ b ∈ bases c, rank b < rank c

/-- `issubclass(c, Node)`; `n` bounds the number of steps. -/
def subNode (h : Hierarchy) : Nat → String → Bool
  | 0, c => c == "Node"
  | n + 1, c => c == "Node" || (h.bases c).any (subNode h n)

/-- The bases of `cls` that are appended to `classes` (`:214-216`, `:371-373`). -/
def listed (h : Hierarchy) (cls : String) : List String := (h.bases cls).filter fun b => subNode h (h.rank b) b && b != "Node"

/-- The loop (`:213-220`, `:370-377`): what is appended to `classes` from `cls` on; `n` bounds the number of turns. -/
def loop (h : Hierarchy) : Nat → String → List String
  | 0, _ => []
  | n + 1, cls => match (listed h cls).getLast? with
    | none => []
    | some last => listed h cls ++ loop h n last

/-- `classes[::-1]`. -/
def classes (h : Hierarchy) (cls : String) : List String := (cls :: loop h (h.rank cls) cls).reverse

/-- `node_dict["clss"]` for a node of the class `cls` (`:221`). -/
def ofNode (h : Hierarchy) (cls : String) : List String := (classes h cls).map String.toLower

/-- `create_node_class_trees` (`:365-380`) for a registry of classes by their names in lower case. -/
def trees (h : Hierarchy) (registry : List (String × String)) : List (String × List String) := registry.map fun p => (p.1, (classes h p.2).map String.toLower)

/-- The classes of nodes with their bases: `/repo/pywr/nodes.py` (class statements at `:15` to `:1371`), `/repo/pywr/domains/river.py:13-246`, `/repo/pywr/domains/groundwater.py:9`, `/repo/pywr/_core.pyx:335-1570`. -/
def table : List (String × List String) :=
  [("AbstractNode", []), ("_core.Node", ["AbstractNode"]), ("BaseLink", ["_core.Node"]), ("BaseInput", ["_core.Node"]), ("BaseOutput", ["_core.Node"]), ("_core.AggregatedNode", ["AbstractNode"]),
    ("AbstractStorage", ["AbstractNode"]), ("_core.Storage", ["AbstractStorage"]), ("_core.AggregatedStorage", ["AbstractStorage"]), ("_core.VirtualStorage", ["_core.Storage"]),
    ("_core.RollingVirtualStorage", ["_core.VirtualStorage"]), ("_core.ShadowStorage", ["AbstractStorage"]), ("_core.ShadowNode", ["AbstractNode"]),
    ("Drawable", []), ("Loadable", []), ("Connectable", []), ("Node", ["Loadable", "Drawable", "Connectable", "_core.Node"]), ("Input", ["Node", "BaseInput"]), ("Output", ["Node", "BaseOutput"]), ("Link", ["Node", "BaseLink"]),
    ("Storage", ["Loadable", "Drawable", "Connectable", "_core.Storage"]), ("VirtualStorage", ["Loadable", "Drawable", "_core.VirtualStorage"]), ("RollingVirtualStorage", ["Loadable", "Drawable", "_core.RollingVirtualStorage"]),
    ("AnnualVirtualStorage", ["VirtualStorage"]), ("SeasonalVirtualStorage", ["AnnualVirtualStorage"]), ("MonthlyVirtualStorage", ["VirtualStorage"]), ("PiecewiseLink", ["Node"]), ("MultiSplitLink", ["PiecewiseLink"]),
    ("AggregatedStorage", ["Loadable", "Drawable", "_core.AggregatedStorage"]), ("AggregatedNode", ["Loadable", "Drawable", "_core.AggregatedNode"]), ("BreakLink", ["Node"]), ("DelayNode", ["Node"]), ("LossLink", ["Node"]),
    ("ShadowStorage", ["Loadable", "Drawable", "_core.ShadowStorage"]), ("ShadowNode", ["Loadable", "Drawable", "_core.ShadowNode"]),
    ("RiverDomainMixin", []), ("Catchment", ["RiverDomainMixin", "Input"]), ("Reservoir", ["RiverDomainMixin", "Storage"]), ("River", ["RiverDomainMixin", "Link"]), ("RiverSplit", ["MultiSplitLink"]),
    ("RiverSplitWithGauge", ["RiverSplit"]), ("Discharge", ["Catchment"]), ("RiverGauge", ["RiverDomainMixin", "PiecewiseLink"]), ("KeatingAquifer", ["Storage"])]

/-- The bases of a class of the table. -/
def tableBases (c : String) : List String := (table.lookup c).getD []

/-- The place of a class in the table; classes that are not there have no bases. -/
def tableRank (c : String) : Nat := if (table.map (·.1)).contains c then (table.map (·.1)).idxOf c + 1 else 0

private theorem lookup_mem {c : String} {bs : List String} {l : List (String × List String)} (h : l.lookup c = some bs) : (c, bs) ∈ l := by
  induction l with
  | nil => cases h
  | cons p l ih =>
    obtain ⟨a, w⟩ := p
    rw [List.lookup_cons] at h
    by_cases e : c = a
    · subst e
      simp only [beq_self_eq_true, Option.some.injEq] at h
      subst h
      exact List.mem_cons_self
    · have : (c == a) = false := by simpa using e
      rw [this] at h
      exact List.mem_cons_of_mem _ (ih h)

/-- The classes of `pywr`. -/
def pywr : Hierarchy where
  bases := tableBases
  rank := tableRank
  earlier := by
    intro c b hb
    unfold tableBases at hb
    cases h : table.lookup c with
    | none => rw [h] at hb; cases hb
    | some bs =>
      rw [h] at hb
      have all : (table.all fun p => p.2.all fun b => decide (tableRank b < tableRank p.1)) = true := by decide +kernel
      have := List.all_eq_true.mp all _ (lookup_mem h)
      have := List.all_eq_true.mp this b hb
      simpa using this

end Verif.ClassTrees

import Verif.Model.Composite
/-!
# Splits of a river

Models `MultiSplitLink` (`/repo/pywr/nodes.py:890-1015`), which adds outlets to a `PiecewiseLink`, and its uses `RiverSplit` and `RiverSplitWithGauge`
(`/repo/pywr/domains/river.py:106-235`). The nodes created are given by numbers, in the order of creation. Costs, limits of the segments and the
flows reported are those of the piecewise link (`Model/Composite.lean`). The order in which errors are detected is not modelled.
-/

namespace Verif.Composite

open Verif Verif.Lp Verif.Bounds

/-- The name of an outlet: a number, a string or Python's `None`. -/
inductive Slot
  | number (n : Nat)
  | name (s : String)
  | none
deriving DecidableEq, Repr

/-- A `MultiSplitLink`: its nodes and the names of its outlets. -/
structure MultiSplit where
  link : Piecewise
  slotNames : List Slot
  /-- `_extra_outputs`, the nodes "Bo". -/
  extraOutputs : List Nat
  /-- `_extra_inputs`, the nodes "Bi". -/
  extraInputs : List Nat
  /-- Members and factors of the internal `AggregatedNode`, if there is one. -/
  shares : Option (List (Nat × Rat))

/-- The last non-split segment and the extra ones: `self.sublinks[n - 1:]` (`nodes.py:999`); without a non-split segment the index `-1` denotes the last
extra one. -/
def splitLinks (sublinks : List Nat) (n : Nat) : List Nat :=
  if n = 0 then sublinks.drop (sublinks.length - 1) else sublinks.drop (n - 1)

/-- `for r, nd in zip(factors, ...): if r is not None: ...` (`nodes.py:997-1002`). -/
def shareList (factors : List (Option Rat)) (links : List Nat) : List (Nat × Rat) :=
  (factors.zip links).filterMap fun q => q.1.map fun r => (q.2, r)

/-- `MultiSplitLink.__init__` (`nodes.py:940-1005`), the first free node number being `b`; `none` stands for a ValueError. Nodes are created in the
order: input, output, sub-output, segments (`nodes.py:803-834`), the node itself, then outlet by outlet its output and its input. -/
def MultiSplit.create (b nsteps extra : Nat) (slots : Option (List Slot)) (factors : Option (List (Option Rat))) : Option MultiSplit :=
  if extra < 1 then none
  else
    let names := slots.getD ((List.range (extra + 1)).map .number)
    if extra + 1 ≠ names.length then none
    else
      let sublinks := (List.range (nsteps + extra)).map fun i => b + 3 + i
      let e := b + 4 + nsteps + extra
      let n := sublinks.length - extra
      let base : Option (List (Nat × Rat)) → MultiSplit := fun s =>
        ⟨⟨b + 1, sublinks, b + 2, b⟩, names, (List.range extra).map fun i => e + 2 * i, (List.range extra).map fun i => e + 2 * i + 1, s⟩
      match factors with
      | none => some (base none)
      | some fs =>
        if extra + 1 ≠ fs.length then none
        else some (base (some (shareList fs (splitLinks sublinks n))))

/-- `RiverSplit.__init__` (`river.py:133-153`): one segment by default, as many extra outlets as factors after the first. -/
def riverSplit (b nsteps : Nat) (factors : List (Option Rat)) (slots : Option (List Slot)) : Option MultiSplit :=
  MultiSplit.create b nsteps (factors.length - 1) slots (some factors)

/-- The segments which lead to an extra outlet. -/
def MultiSplit.extraLinks (m : MultiSplit) : List Nat := m.link.sublinks.drop (m.link.sublinks.length - m.extraOutputs.length)

/-- The connections made by the constructor (`nodes.py:819-831, 968-984`). -/
def MultiSplit.edges (m : MultiSplit) : List (Nat × Nat) :=
  m.link.edges ++ (m.extraOutputs.zip m.extraInputs) ++ (m.extraLinks.zip m.extraOutputs)

/-- The connections between domains, as the solver collects them (`cython_glpk.pyx:474-487`): extra outputs lie in the domain of the segments, extra
inputs outside. -/
def MultiSplit.cross (m : MultiSplit) : List (Nat × List (Nat × Rat)) :=
  m.link.cross ++ (m.extraOutputs.zip m.extraInputs).map fun q => (q.1, [(q.2, 1)])

/-- The internal aggregated node as the solver sees it (`nodes.py:1004-1005`; no weights, no limits). -/
def MultiSplit.agg (m : MultiSplit) : List AggData :=
  match m.shares with
  | none => []
  | some l => [⟨l.map (·.1), none, some (l.map (·.2)), .negInf, .posInf⟩]

/-- `iter_slots` for a connection from the node (`nodes.py:1007-1013`): the position of the name in `slot_names`; `none` stands for a ValueError of
`list.index` (position 0 is the piecewise link's input). -/
def MultiSplit.outlet (m : MultiSplit) (slot : Slot) : Option Nat :=
  match m.slotNames.idxOf? slot with
  | none => none
  | some 0 => some m.link.input
  | some (i + 1) => m.extraInputs[i]?

end Verif.Composite

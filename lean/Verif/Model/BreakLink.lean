import Verif.Model.Lp
/-!
# Break links

Models `BreakLink` (`/repo/pywr/nodes.py:1074-1171`): the nodes its constructor makes (`:1106-1123`) and what connecting to it and from it does (`iter_slots`, `:1158-1165`), as the change
from a model in which the same place is taken by an ordinary link.
-/

namespace Verif.BreakLink

open Verif Verif.Lp Verif.Bounds

/-- The nodes of a break link: `link` (which has the limits and the cost, `:1127-1156`), the two ends of the zero-volume storage, the storage itself and the compound node. -/
structure Parts where
  link : Nat
  output : Nat
  input : Nat
  storage : Nat
  compound : Nat

/-- The nodes that an ordinary link does not have. -/
def Parts.fresh (p : Parts) : List Nat := [p.output, p.input, p.storage, p.compound]

/-- The model with a break link instead of the link.  The ends of the storage have the limits of a new node, 0 and infinity (`/repo/pywr/_core.pyx:518-519`), and the cost of the storage, zero (`nodes.py:1117`);
the volumes are zero (`nodes.py:1114-1116`; that the volume stays zero is `C79_volume`).  The solvers ignore the storage and the compound object themselves. -/
def data (d : Data) (p : Parts) : Data where
  kind := fun n => if n = p.output then .output else if n = p.input then .input else if n = p.storage ∨ n = p.compound then .other else d.kind n
  nodes := d.nodes ++ p.fresh
  minFlow := fun n => if n ∈ p.fresh then .fin 0 else d.minFlow n
  maxFlow := fun n => if n ∈ p.fresh then .posInf else d.maxFlow n
  cost := fun n => if n ∈ p.fresh then 0 else d.cost n
  storages := d.storages ++ [⟨[p.input], [p.output], 0, 0, 0⟩]
  virtuals := d.virtuals
  aggs := d.aggs
  cross := d.cross
  days := d.days

/-- What is connected to the link is connected to the output of the storage (`nodes.py:1165`), and the input of the storage to the link (`:1121`); connections from the link stay.  The internal nodes are made
without a domain: they are in the default domain `dom`, also when the break link is given another one (`:1110-1123`: only the compound node receives the remaining arguments). -/
def graph (g : Graph) (dom : Nat) (p : Parts) : Graph where
  edges := (g.edges.map fun e => (e.1, if e.2 = p.link then p.output else e.2)) ++ [(p.input, p.link)]
  domain := fun n => if n = p.output ∨ n = p.input ∨ n = p.link then dom else g.domain n

end Verif.BreakLink

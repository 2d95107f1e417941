import Verif.Model.Schematic
/-!
What a diagram of a network should show.
-/

namespace Verif.Schematic

/-- The diagram draws a link from box `a` to box `b`. -/
def Diagram.Joins (d : Diagram) (a b : String) : Prop := ∃ i j, (i, j) ∈ d.links ∧ d.boxes[i]? = some a ∧ d.boxes[j]? = some b

/-- The node is a part of the node named `a`, or that node itself. -/
def Node.Of (n : Node) (a : String) : Prop := n.parent = some a ∨ n.parent = none ∧ n.name = a

/-- `a` and `b` are different and an edge goes from (a part of) the one to (a part of) the other. -/
def Graph.Joins (g : Graph) (a b : String) : Prop := a ≠ b ∧ ∃ e ∈ g.edges, e.1.Of a ∧ e.2.Of b

/-- The types of all virtual nodes (the classes in `/repo/pywr/nodes.py` made from `AggregatedNode`, `AggregatedStorage` and `VirtualStorage`). -/
def virtualTypes : List String :=
  ["virtualstorage", "rollingvirtualstorage", "annualvirtualstorage", "seasonalvirtualstorage", "monthlyvirtualstorage", "aggregatedstorage", "aggregatednode"]

/-- The graph `g` is what the document describes: its nodes that are not parts are those of the document; each edge of the document joins parts of its two nodes, at least one pair of them; the
other edges are inside of the nodes. -/
structure Describes (d : Doc) (g : Graph) : Prop where
  nodes : ∀ a v, (∃ n ∈ g.nodes, n.name = a ∧ n.parent = none ∧ n.virt = v) ↔ ∃ e ∈ d.nodes, e.name = a ∧ v = decide (e.type ∈ virtualTypes)
  edges : ∀ a b, a ≠ b → ((a, b) ∈ d.edges ↔ ∃ e ∈ g.edges, e.1.Of a ∧ e.2.Of b)

/-- What stands beside an item of a node: the class of a parameter that is described there, the name and the class of a parameter that is named there, and everything else as it is written. -/
inductive Shows (cls : String → Option String) (ps : List (String × String)) : Value → String → Prop
  | described (t c : String) (h : cls t = some c) : Shows cls ps (.object (some t)) c
  | object : Shows cls ps (.object none) "{}"
  | named (s t c : String) (h : ∃ before after, ps = before ++ (s, t) :: after ∧ ∀ q ∈ before, q.1 ≠ s) (hc : cls t = some c) : Shows cls ps (.text s) (s ++ " - " ++ c)
  | text (s : String) (h : ∀ q ∈ ps, q.1 ≠ s) : Shows cls ps (.text s) s
  | plain (s : String) : Shows cls ps (.plain s) s

end Verif.Schematic

import Mathlib.Data.List.Forall2
import Verif.Model.Document
/-!
What loading a document should do, without the order in which `load_from_dict` goes about it.
-/

namespace Verif.Document

/-- The names of the nodes of a document. -/
def Doc.names (doc : Doc) : List String := doc.nodes.map Prod.fst

/-- Node `i` is what a name stands for: the first node of that name. -/
def Named (nodes : List Node) (name : String) (i : Nat) : Prop :=
  (nodes[i]?).map Node.name = some name ∧ ∀ j, j < i → (nodes[j]?).map Node.name ≠ some name

/-- A call of `connect` does what an edge says. -/
def Joins (nodes : List Node) (e : Edge) (c : Call) : Prop :=
  Named nodes e.source c.source ∧ Named nodes e.target c.target ∧
    (e.slots = [] ∧ c.slots = none ∨ ∃ a b, e.slots = [a, b] ∧ c.slots = some (a, b))

/-- The model after loading is the model before with exactly what the document says: every entry has become one node, with the nodes it refers to, and every edge one connection. -/
structure Loaded (g g' : Graph) (doc : Doc) : Prop where
  old : g.nodes <+: g'.nodes
  new : (((g'.nodes.drop g.nodes.length).filter fun n => !n.sub).map fun n => (n.name, n.entry)).Perm (doc.nodes.map fun e => (e.1, some e.2))
  refs : ∀ n ∈ g'.nodes.drop g.nodes.length, ∀ d, n.entry = some d → List.Forall₂ (Named g'.nodes) d.refs n.refs
  done : ∀ n ∈ g'.nodes, n.pending = false
  edges : ∃ calls, g'.calls = g.calls ++ calls ∧ List.Forall₂ (Joins g'.nodes) doc.edges calls

/-- A document that fits a model: the classes exist and accept what they are given, no name is used twice, every reference leads to a node, and there is no circle of references. -/
structure Fits (accepts : Edge → Bool) (g : Graph) (doc : Doc) : Prop where
  fresh : ∀ n ∈ g.nodes, n.name ∉ doc.names
  entries : ∀ e ∈ doc.nodes, e.2.registered = true ∧ e.2.accepts = true ∧ e.2.params = true
  subs : ∀ e ∈ doc.nodes, ∀ x ∈ e.2.subs, x ∉ doc.names ∧ ∀ n ∈ g.nodes, n.sub = false → n.name ≠ x
  refs : ∀ e ∈ doc.nodes, ∀ r ∈ e.2.refs, r ∈ doc.names ∨ r ∈ g.nodes.map Node.name
  order : ∃ rank : String → Nat, ∀ e ∈ doc.nodes, ∀ r ∈ e.2.refs, r ∈ doc.names → rank r < rank e.1
  components : doc.components = true
  edges : ∀ e ∈ doc.edges, accepts e = true ∧ (e.slots.length = 0 ∨ e.slots.length = 2) ∧
    ∀ x, x = e.source ∨ x = e.target → x ∈ doc.names ∨ x ∈ g.nodes.map Node.name ∨ ∃ d ∈ doc.nodes, x ∈ d.2.subs

/-- No entry refers to a sub-node of another. -/
def Doc.Plain (doc : Doc) : Prop :=
  ∀ e ∈ doc.nodes, ∀ r ∈ e.2.refs, ∀ e' ∈ doc.nodes, r ∉ e'.2.subs

/-- What loading means for someone who looks at the settings: an argument counts for more than the document. -/
structure Chosen (path solver solverArgs : Option String) (h : Head) (s : Settings) : Prop where
  solver : s.solver = (if solver.isSome then solver else h.solver.map Prod.fst)
  args : ∀ a, solverArgs = some a → s.solverArgs = a
  stepper : s.stepper = h.timestepper
  path : s.path = path
  metadata : some s.metadata = h.metadata

end Verif.Document

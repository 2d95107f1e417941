/-!
# Insertion-ordered directed graphs

Model of the parts of `networkx.DiGraph` that pywr uses for its node graph (`Model.graph`) and its component
graph (`Model.component_graph`), created in `/repo/pywr/_model.pyx:70` and `:112-113`.

Objects are identified by natural numbers (object identity).  A graph is the insertion-ordered list of its
edges; networkx keeps, per node, an insertion-ordered dictionary of successors, so the order of `adj u` is the
order in which the edges out of `u` were added.
-/

namespace Verif

/-- networkx `DiGraph` restricted to what pywr observes: the node list (insertion order) and the edge list
(insertion order).  Simplification: no attribute dictionaries. -/
structure Digraph where
  nodes : List Nat
  edges : List (Nat × Nat)
deriving Repr, DecidableEq

namespace Digraph

/-- The empty graph. -/
def empty : Digraph := ⟨[], []⟩

/-- `DiGraph.add_node`: idempotent. -/
def addNode (g : Digraph) (u : Nat) : Digraph :=
  if u ∈ g.nodes then g else { g with nodes := g.nodes ++ [u] }

/-- `DiGraph.add_edge(u, v)`: creates missing end nodes; adding an existing edge keeps its position.
Used at `/repo/pywr/_component.pyx:22,24,89` and `/repo/pywr/nodes.py:131`. -/
def addEdge (g : Digraph) (u v : Nat) : Digraph :=
  let g := (g.addNode u).addNode v
  if (u, v) ∈ g.edges then g else { g with edges := g.edges ++ [(u, v)] }

/-- `DiGraph.remove_edge(u, v)`: `none` models the `NetworkXError` raised when the edge is absent.
Used at `/repo/pywr/_component.pyx:30,32,37,39` and `/repo/pywr/nodes.py:171`. -/
def removeEdge (g : Digraph) (u v : Nat) : Option Digraph :=
  if (u, v) ∈ g.edges then some { g with edges := g.edges.erase (u, v) } else none

/-- `G[u]` / `G.successors(u)`: successors of `u` in insertion order. -/
def adj (g : Digraph) (u : Nat) : List Nat :=
  (g.edges.filter (fun e => e.1 == u)).map (·.2)

/-- `G.predecessors(u)`: predecessors of `u` in insertion order. -/
def pred (g : Digraph) (u : Nat) : List Nat :=
  (g.edges.filter (fun e => e.2 == u)).map (·.1)

/-- Depth-first enumeration of `networkx.all_simple_paths(G, u, t, cutoff)` from a partial path whose visited
nodes are `vis` (current end `u`): the tails (without `u`) of all paths to `t` with at most `cutoff` further
edges.  networkx stops expanding a path when it reaches the (single) target.  Simplification: the order in which
networkx yields the paths is not kept, the only caller sorts them (`/repo/pywr/_model.pyx:581`). -/
def simplePathsFrom (g : Digraph) (t : Nat) : Nat → List Nat → Nat → List (List Nat)
  | 0, _, _ => []
  | k + 1, vis, u =>
    (g.adj u).flatMap fun c =>
      if c ∈ vis then []
      else if c = t then [[c]]
      else (g.simplePathsFrom t k (c :: vis) c).map (c :: ·)

/-- `networkx.all_simple_paths(G, s, t, cutoff)` with `cutoff = None` meaning `len(G) - 1` (networkx
documentation of `all_simple_paths`). For `s = t` networkx versions differ (nothing, or the one-node path); this
model yields nothing. -/
def allSimplePaths (g : Digraph) (s t : Nat) (cutoff : Option Nat) : List (List Nat) :=
  if s = t then []
  else (g.simplePathsFrom t (cutoff.getD (g.nodes.length - 1)) [s] s).map (s :: ·)

/-- Number of elementary circuits tested at `/repo/pywr/_model.pyx:890` (`len(list(nx.simple_cycles(G)))`), as a
boolean "is non-zero": a circuit is an edge `u → v` together with a simple path back from `v` to `u`
(a self-loop when `u = v`). -/
def hasCycle (g : Digraph) : Bool :=
  g.edges.any fun e => e.1 == e.2 || !(g.allSimplePaths e.2 e.1 none).isEmpty

end Digraph
end Verif

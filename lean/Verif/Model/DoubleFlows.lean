import Verif.Model.Float64
/-!
# Flows of nodes in double precision

How the solvers turn the solution of the linear programme into flows of nodes, with every operation rounded to a double as in `Model/Float64.lean`: the collection of the flows of routes
(`/repo/pywr/solvers/cython_glpk.pyx:1072-1091`) and of edges (`:1893-1917`), and `AbstractNode.commit` (`/repo/pywr/_core.pyx:481-483`).  The flows of the columns (`glp_get_col_prim`) are any numbers;
nodes are the indices `data.id`; for one scenario.
-/

namespace Verif.Float64

/-- `node_flows[n] += q`. -/
def addFlow (a : Nat → Rat) (n : Nat) (q : Rat) : Nat → Rat := fun k => if k = n then fl (a k + q) else a k

/-- The loop over a route with a flow that is not zero (`cython_glpk.pyx:1082-1086`): the first node, the last and all links. -/
def routeLoop (isLink : Nat → Bool) (route : List Nat) (q : Rat) (a : Nat → Rat) : Nat → Rat :=
  route.zipIdx.foldl (fun a p => if p.2 = 0 ∨ p.2 = route.length - 1 ∨ isLink p.1 = true then addFlow a p.1 q else a) a

/-- `node_flows` of the route solver (`:1075-1086`) for the routes with their flows. -/
def routeFlows (isLink : Nat → Bool) (routes : List (List Nat × Rat)) : Nat → Rat :=
  routes.foldl (fun a r => if r.2 = 0 then a else routeLoop isLink r.1 r.2 a) fun _ => 0

/-- What an edge adds to one of its nodes (`:1905-1911`): half of its flow for a link. -/
def share (isLink : Nat → Bool) (n : Nat) (q : Rat) : Rat := if isLink n then fl (q / 2) else q

/-- `node_flows` of the edge solver (`:1898-1911`) for the edges with their flows. -/
def edgeFlows (isLink : Nat → Bool) (edges : List ((Nat × Nat) × Rat)) : Nat → Rat :=
  edges.foldl (fun a e => if e.2 = 0 then a
    else
      let a := addFlow a e.1.1 (share isLink e.1.1 e.2)
      addFlow a e.1.2 (share isLink e.1.2 e.2)) fun _ => 0

/-- The flow of a node after `before` (`_flow[:] = 0`, `_core.pyx:475-479`) and `commit` (`:481-483`, `_flow += value`). -/
def committed (a : Nat → Rat) (n : Nat) : Rat := fl (0 + a n)

/-- A timestep of a storage from the flows of routes: `StorageOutput.commit` adds what the nodes `inlets` receive to the flow of the storage and `StorageInput.commit` takes off what the nodes `outlets` deliver
(`_core.pyx:941-945, 975-979`; that the solver goes through the nodes in another order is not modelled). -/
def storageStep (isLink : Nat → Bool) (routes : List (List Nat × Rat)) (inlets outlets : List Nat) (days mx mn : Rat) : Storage.Step where
  days := days
  mx := mx
  mn := mn
  commits := inlets.map (fun n => .toStore (routeFlows isLink routes n)) ++ outlets.map (fun n => .fromStore (routeFlows isLink routes n))

end Verif.Float64

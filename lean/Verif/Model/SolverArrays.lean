import Verif.Model.Lp
/-!
# The flat arrays of the GLPK solvers

Models how the solvers keep and read their data in flat arrays (`/repo/pywr/solvers/cython_glpk.pyx`): node costs and route costs (`:421-422, 500-512, 708-726, 879-897`), the cached
rows of aggregated nodes with factors (`:637-673, 903-926`, `:1456-1499, 1727-1750`), the dictionaries of the virtual storage and aggregated node rows (`:608-619, 685-698`, `:1426-1438, 1512-1527`), the
edge costs (`:1689-1721`), the collection of the flows (`:1071-1088`, `:1889-1911`) and the memory allocated for a row.  In `_solve_scenario` the checks of indices are switched off
(`:833-835, 1646-1648`): an access outside an array is undefined; here it is `none`.  `Model/Lp.lean` states directly what these arrays stand for.
-/

namespace Verif.SolverArrays

open Verif Verif.Lp

/-- `a[i] = v`. -/
def put (a : List Rat) (i : Nat) (v : Rat) : Option (List Rat) := if i < a.length then some (a.set i v) else none

/-- `a[i] += v`. -/
def add (a : List Rat) (i : Nat) (v : Rat) : Option (List Rat) := a[i]?.map fun w => a.set i (w + v)

/-! ## Costs of routes -/

/-- `node_costs[data.id] = _node.get_cost(...)` (`:500-512` for those written once, `:880-883` for the others); `id` is the position in `all_nodes` (`:413-415`). -/
def writeCosts (id : Nat → Nat) (cost : Nat → Rat) : List Nat → List Rat → Option (List Rat)
  | [], a => some a
  | n :: ns, a => match put a (id n) (cost n) with
    | none => none
    | some a => writeCosts id cost ns a

/-- The loop building `routes_cost` and `routes_cost_indptr` (`:709-719`) out of one list per route; also `cols` and `ind_ptr` (`:646-652`). -/
def flat : List (List Nat) → List Nat × List Nat := fun rows => rows.foldl (fun s r => (s.1 ++ r, s.2 ++ [(s.1 ++ r).length])) ([], [0])

/-- The nodes whose costs a route adds up (`:712-717`). -/
def costNodes (d : Data) (r : List Nat) : List Nat := r.head?.toList ++ (r.tail.dropLast.filter fun n => d.kind n == .link) ++ r.getLast?.toList

/-- `for indptr in range(lo, hi): cost += node_costs[routes_cost[indptr]]` (`:888-890`), `n` steps from `k`. -/
def sumFrom (ids : List Nat) (costs : List Rat) : Nat → Nat → Rat → Option Rat
  | 0, _, acc => some acc
  | n + 1, k, acc => match ids[k]? with
    | none => none
    | some i => match costs[i]? with
      | none => none
      | some c => sumFrom ids costs n (k + 1) (acc + c)

/-- The cost of column `col` (`:886-890`). -/
def readCost (ids ptr : List Nat) (costs : List Rat) (col : Nat) : Option Rat :=
  match ptr[col]?, ptr[col + 1]? with
  | some lo, some hi => sumFrom ids costs (hi - lo) lo 0
  | _, _ => none

/-! ## Costs of edges -/

/-- `for col in cols: edge_costs[col] += cost` (`:1711-1714`). -/
def addAll (v : Rat) : List Nat → List Rat → Option (List Rat)
  | [], a => some a
  | c :: cs, a => match add a c v with
    | none => none
    | some a => addAll v cs a

/-- The loop over the nodes (`:1700-1714`). -/
def edgeCosts (d : Data) (g : Graph) : List Nat → List Rat → Option (List Rat)
  | [], a => some a
  | n :: ns, a =>
    let cost := if d.kind n = .link then d.cost n / 2 else d.cost n
    match addAll cost (inEdges g n) a with
    | none => none
    | some a => match addAll cost (outEdges g n) a with
      | none => none
      | some a => edgeCosts d g ns a

/-! ## Rows with factors -/

/-- `AggNodeFactorData` (`:125-131`) without the row number. -/
structure Cached where
  nodeInd : Nat
  indPtr : List Nat
  inds : List Nat
  vals : List Rat

/-- Setup (`:646-664`; edges `:1467-1488`), given the columns of the first and of the other members. Columns are numbered from one; every row starts with a zero which GLPK does not look at. -/
def Cached.build (first : List Nat) (others : List (List Nat)) : Cached :=
  let firstCols := 0 :: first.map (· + 1)
  let s := flat (others.map fun o => firstCols ++ o.map (· + 1))
  ⟨firstCols.length, s.2, s.1, List.replicate s.1.length 1⟩

/-- `for i in range(...): vals[i] = -factors_norm[n+1]` (`:917-918`), `k` steps from `i`. -/
def writeFactor (norm : List Rat) (n : Nat) : Nat → Nat → List Rat → Option (List Rat)
  | 0, _, vals => some vals
  | k + 1, i, vals => match norm[n + 1]? with
    | none => none
    | some v => match put vals i (-v) with
      | none => none
      | some vals => writeFactor norm n k (i + 1) vals

/-- What `set_mat_row` reads from the two pointers: entries 1 to `k`, here counted from `i` (`:321-333, 924-926`). -/
def readRow (inds : List Nat) (vals : List Rat) : Nat → Nat → Option Entries
  | 0, _ => some []
  | k + 1, i => match inds[i]?, vals[i]? with
    | some c, some v => (readRow inds vals k (i + 1)).map fun r => (c - 1, v) :: r
    | _, _ => none

/-- One row (`:912-926`): the entries handed to GLPK, and the values kept. -/
def Cached.row (f : Cached) (norm : List Rat) (n : Nat) : Option (Entries × Cached) :=
  match f.indPtr[n]?, f.indPtr[n + 1]? with
  | some ptr, some next =>
    let length := next - ptr
    match writeFactor norm n (length - f.nodeInd) (ptr + f.nodeInd) f.vals with
    | none => none
    | some vals => (readRow f.inds vals (length - 1) (ptr + 1)).map fun e => (e, { f with vals := vals })
  | _, _ => none

/-- All rows of a member list of length `k + 1` (`:912-926`), from row `n` on. -/
def Cached.rows (f : Cached) (norm : List Rat) : Nat → Nat → Option (List Entries × Cached)
  | 0, _ => some ([], f)
  | k + 1, n => match f.row norm n with
    | none => none
    | some (e, f) => (f.rows norm k (n + 1)).map fun s => (e :: s.1, s.2)

/-- Solve after solve, with the factors of the moment. -/
def Cached.solves (f : Cached) (k : Nat) : List (List Rat) → Option Cached
  | [] => some f
  | norm :: norms => match f.rows norm k 0 with
    | none => none
    | some s => s.2.solves k norms

/-! ## Dictionaries of columns -/

/-- `matrix[c] = w`: the value is replaced, or the key goes to the end. -/
def dictSet (m : Entries) (c : Nat) (w : Rat) : Entries :=
  if m.any (fun p => p.1 == c) then m.map fun p => if p.1 = c then (c, w) else p else m ++ [(c, w)]

/-- `try: cols[c] += f; except KeyError: cols[c] = f` (`:616-619`). -/
def dictAdd (m : Entries) (c : Nat) (f : Rat) : Entries :=
  if m.any (fun p => p.1 == c) then m.map fun p => if p.1 = c then (c, p.2 + f) else p else m ++ [(c, f)]

/-- The dictionary of an aggregated node's row (`:685-690`; edges `:1512-1520`), given the columns of a member. -/
def weightDict (cols : Nat → List Nat) (members : List (Nat × Rat)) : Entries :=
  members.foldl (fun m p => (cols p.1).foldl (fun m c => dictSet m c p.2) m) []

/-- Its entries in the order of `sorted(matrix)` (`:694-696`), the columns being below `ncols`. -/
def sortedEntries (ncols : Nat) (m : Entries) : Entries := (List.range ncols).filterMap fun c => (m.find? fun p => p.1 == c)

/-- The dictionary of a virtual storage's row (`:608-619`): `terms` are the pairs (column, factor) in the order they are met. -/
def factorDict (terms : List (Nat × Rat)) : Entries := terms.foldl (fun m t => dictAdd m t.1 t.2) []

/-- Terms in the route solver (`:609-619`). -/
def routeTerms (v : VirtualData) (routes : List (List Nat)) : List (Nat × Rat) := routes.zipIdx.flatMap fun q => (routeFactors v q.1).map fun f => (q.2, f)

/-- Terms in the edge solver (`:1428-1438`). -/
def edgeTerms (d : Data) (g : Graph) (v : VirtualData) : List (Nat × Rat) := (v.nodes.zip v.factors).flatMap fun p => (flowEdges d g p.1).map fun c => (c, p.2)

/-! ## Flows -/

/-- The loop over one route (`:1080-1084`), from position `m` on. -/
def addRoute (d : Data) (id : Nat → Nat) (flow : Rat) (length : Nat) : Nat → List Nat → List Rat → Option (List Rat)
  | _, [], a => some a
  | m, n :: ns, a =>
    if m = 0 ∨ m = length - 1 ∨ d.kind n = .link then
      match add a (id n) flow with
      | none => none
      | some a => addRoute d id flow length (m + 1) ns a
    else addRoute d id flow length (m + 1) ns a

/-- The loop over the routes (`:1075-1084`), from column `c` on. -/
def addRoutes (d : Data) (id : Nat → Nat) (x : List Rat) : Nat → List (List Nat) → List Rat → Option (List Rat)
  | _, [], a => some a
  | c, r :: rs, a => match x[c]? with
    | none => none
    | some flow =>
      if flow = 0 then addRoutes d id x (c + 1) rs a
      else match addRoute d id flow r.length 0 r a with
        | none => none
        | some a => addRoutes d id x (c + 1) rs a

/-- The loop over the edges (`:1897-1911`), from column `c` on. -/
def addEdges (d : Data) (id : Nat → Nat) (y : List Rat) : Nat → List (Nat × Nat) → List Rat → Option (List Rat)
  | _, [], a => some a
  | c, e :: es, a => match y[c]? with
    | none => none
    | some flow =>
      if flow = 0 then addEdges d id y (c + 1) es a
      else
        let part := fun n : Nat => if d.kind n = .link then flow / 2 else flow
        match add a (id e.1) (part e.1) with
        | none => none
        | some a => match add a (id e.2) (part e.2) with
          | none => none
          | some a => addEdges d id y (c + 1) es a

/-! ## Memory for a row -/

/-- Bytes asked for a row with `n` entries of `size` bytes (`:531-532` and most others). -/
def allocated (n size : Nat) : Nat := (1 + n) * size

/-- Bytes asked for the row of an aggregated node (`:692-693, 1523-1524`): `1+length * sizeof(...)`. -/
def allocatedAgg (n size : Nat) : Nat := 1 + n * size

/-- Bytes up to the end of entry `i` (`ind[1+i] = ...`, `:695`), for `i` below `n`. -/
def written (i size : Nat) : Nat := (1 + i + 1) * size

end Verif.SolverArrays

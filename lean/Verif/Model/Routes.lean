import Mathlib.Data.List.Lex
import Mathlib.Data.String.Basic
import Verif.Model.Digraph

/-!
# Route enumeration

Models `/repo/pywr/_model.pyx:496-582` (`Model.find_all_routes`).
-/

namespace Verif.Routes

open Verif

/-- The attributes of nodes that the function looks at. -/
structure NodeInfo where
  name : Nat → String
  /-- `fully_qualified_name`, `/repo/pywr/_core.pyx:372-383`. -/
  fqn : Nat → String
  /-- Identity of the node's domain object (`node.domain`). -/
  domain : Nat → Nat

/-- `type1` / `type2` argument: a class (modelled by its `isinstance` test) or one node instance. -/
inductive Selector
  | cls (test : Nat → Bool)
  | inst (node : Nat)

/-- `domain_match` argument. -/
inductive DomainMatch
  | strict | different | any
  /-- any other string: `ValueError` when the first path is examined, `/repo/pywr/_model.pyx:568-569`. -/
  | other
deriving DecidableEq, Repr

/-- `nodes = sorted(self.graph.nodes(), key=lambda n: n.name)` and the selection loops,
`/repo/pywr/_model.pyx:522-542`. -/
def selectNodes (g : Digraph) (info : NodeInfo) : Selector → List Nat
  | .cls test => (g.nodes.mergeSort (fun a b => decide (info.name a ≤ info.name b))).filter test
  | .inst n => [n]

/-- Check valid intermediate nodes `route[1:-1]`, `/repo/pywr/_model.pyx:550-553`. -/
def okValid (valid : Option (Nat → Bool)) (route : List Nat) : Bool :=
  match valid with
  | some test => if route.length > 2 then (route.tail.dropLast).all test else true
  | none => true

/-- Check domains, `/repo/pywr/_model.pyx:555-569`. -/
def okDomain (info : NodeInfo) (dm : DomainMatch) (route : List Nat) : Except String Bool :=
  match dm with
  | .strict => .ok (match route with
      | [] => true
      | first :: rest => rest.all (fun n => info.domain n == info.domain first))
  | .different => .ok (!((route.map info.domain).eraseDups.length < 2))
  | .any => .ok true
  | .other => .error "ValueError"

/-- Check length, `/repo/pywr/_model.pyx:571-574`. -/
def okLength (maxLength : Option Nat) (route : List Nat) : Bool :=
  match maxLength with
  | some k => !(route.length > k)
  | none => true

/-- The checks applied to one path, `/repo/pywr/_model.pyx:549-575`. -/
def routeOk (info : NodeInfo) (valid : Option (Nat → Bool)) (maxLength : Option Nat) (dm : DomainMatch)
    (route : List Nat) : Except String Bool :=
  (okDomain info dm route).map (fun d => okValid valid route && d && okLength maxLength route)

/-- Keep the paths for which the check succeeds; the first error aborts (exception). -/
def filterM (f : List Nat → Except String Bool) : List (List Nat) → Except String (List (List Nat))
  | [] => .ok []
  | r :: rs =>
    match f r with
    | .error e => .error e
    | .ok b => match filterM f rs with
      | .error e => .error e
      | .ok rest => .ok (if b then r :: rest else rest)

/-- All simple paths in the order of the loops, `/repo/pywr/_model.pyx:546-548`. -/
def candidatePaths (g : Digraph) (info : NodeInfo) (sel1 sel2 : Selector) (maxLength : Option Nat) :
    List (List Nat) :=
  (selectNodes g info sel1).flatMap fun n1 =>
    (selectNodes g info sel2).flatMap fun n2 => g.allSimplePaths n1 n2 maxLength

/-- `Model.find_all_routes`, `/repo/pywr/_model.pyx:496-582`. -/
def findAllRoutes (g : Digraph) (info : NodeInfo) (sel1 sel2 : Selector) (valid : Option (Nat → Bool))
    (maxLength : Option Nat) (dm : DomainMatch) : Except String (List (List Nat)) :=
  match filterM (routeOk info valid maxLength dm) (candidatePaths g info sel1 sel2 maxLength) with
  | .error e => .error e
  | .ok rs => .ok (rs.mergeSort (fun a b => decide (a.map info.fqn ≤ b.map info.fqn)))

end Verif.Routes

import Verif.Model.BreakLink
/-! # Specification: a break link takes the place of a link -/

namespace Verif.BreakLink

open Verif.Lp

/-- The new nodes are new, and the link is a link of the model in the default domain, with something connected to it, but
neither connected to itself nor to another domain. -/
structure Replaces (d : Data) (g : Graph) (dom : Nat) (p : Parts) : Prop where
  link : p.link ∈ d.nodes ∧ d.kind p.link = .link
  fresh : ∀ n ∈ p.fresh, n ∉ d.nodes
  distinct : p.fresh.Nodup
  ends : ∀ e ∈ g.edges, e.1 ∈ d.nodes ∧ e.2 ∈ d.nodes
  fed : inEdges g p.link ≠ []
  loop : (p.link, p.link) ∉ g.edges
  inside : ∀ e ∈ g.edges, e.1 = p.link ∨ e.2 = p.link → g.domain e.1 = g.domain e.2
  dom : g.domain p.link = dom
  storages : ∀ s ∈ d.storages, ∀ n ∈ s.inputs ++ s.outputs, n ∈ d.nodes ∧ n ≠ p.link
  virtuals : ∀ v ∈ d.virtuals, ∀ n ∈ v.nodes, n ∈ d.nodes
  aggs : ∀ a ∈ d.aggs, ∀ n ∈ a.nodes, n ∈ d.nodes
  cross : ∀ c ∈ d.cross, c.1 ∈ d.nodes ∧ ∀ i ∈ c.2, i.1 ∈ d.nodes

end Verif.BreakLink

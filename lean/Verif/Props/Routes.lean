import Verif.Proof.Routes

/-! # C26: route enumeration -/

namespace Verif.Routes

open Verif

/-- **C26.** Whenever the enumeration returns, the routes are exactly the permitted simple paths between the selected
nodes, each exactly once. -/
theorem C26_routes_exact (g : Digraph) (hg : g.WF) (info : NodeInfo) (sel1 sel2 : Selector)
    (valid : Option (Nat → Bool)) (maxLength : Option Nat) (dm : DomainMatch)
    (routes : List (List Nat))
    (h : findAllRoutes g info sel1 sel2 valid maxLength dm = .ok routes) :
    routes.Nodup ∧ ∀ r, r ∈ routes ↔ IsRoute g info sel1 sel2 valid maxLength dm r := by
  unfold findAllRoutes at h
  split at h
  · cases h
  · rename_i rs hrs
    cases h
    obtain ⟨h1, h2⟩ := filterM_ok hrs
    refine ⟨(List.mergeSort_perm _ _).nodup_iff.2 (h1.nodup (nodup_candidatePaths hg _ _ _ _)), fun r => ?_⟩
    rw [List.mem_mergeSort, h2, mem_candidatePaths]
    constructor
    · rintro ⟨⟨s, t, hs, ht, hr⟩, hok⟩
      obtain ⟨hst, hp, hlen⟩ := Digraph.mem_allSimplePaths.1 hr
      obtain ⟨k1, k2, k3⟩ := (routeOk_iff hst hp).1 hok
      exact ⟨s, t, hs, ht, hst, hp, k1, k2, k3⟩
    · rintro ⟨s, t, hs, ht, hst, hp, k1, k2, k3⟩
      refine ⟨⟨s, t, hs, ht, Digraph.mem_allSimplePaths.2 ⟨hst, hp, ?_⟩⟩, (routeOk_iff hst hp).2 ⟨k1, k2, k3⟩⟩
      cases maxLength with
      | none => have := Digraph.length_le_nodes hg hst hp; simp; omega
      | some k => have := k2 k rfl; simp; omega

/-- **C26 (never fails).** With a documented `domain_match` value the enumeration always returns. -/
theorem C26_routes_total (g : Digraph) (info : NodeInfo) (sel1 sel2 : Selector) (valid : Option (Nat → Bool))
    (maxLength : Option Nat) (dm : DomainMatch) (hdm : dm ≠ .other) :
    ∃ routes, findAllRoutes g info sel1 sel2 valid maxLength dm = .ok routes := by
  unfold findAllRoutes
  have : ¬ ∃ e, filterM (routeOk info valid maxLength dm) (candidatePaths g info sel1 sel2 maxLength) = .error e := by
    rw [filterM_error_iff]
    rintro ⟨r, _, e, he⟩
    cases dm <;> simp [routeOk, okDomain, Except.map] at he hdm
  cases h : filterM (routeOk info valid maxLength dm) (candidatePaths g info sel1 sel2 maxLength) with
  | error e => exact absurd ⟨e, h⟩ this
  | ok rs => exact ⟨_, rfl⟩

/-- **C26 (deterministic order).** The routes are ordered by the fully qualified names along the route. -/
theorem C26_routes_sorted (g : Digraph) (info : NodeInfo) (sel1 sel2 : Selector) (valid : Option (Nat → Bool))
    (maxLength : Option Nat) (dm : DomainMatch) (routes : List (List Nat))
    (h : findAllRoutes g info sel1 sel2 valid maxLength dm = .ok routes) :
    routes.Pairwise (fun a b => a.map info.fqn ≤ b.map info.fqn) := by
  unfold findAllRoutes at h
  split at h
  · cases h
  · rename_i rs hrs
    cases h
    have := List.pairwise_mergeSort (le := fun a b : List Nat => decide (a.map info.fqn ≤ b.map info.fqn))
      (by intro a b c h1 h2; simp only [decide_eq_true_eq] at h1 h2 ⊢; exact le_trans h1 h2)
      (by intro a b; simp only [Bool.or_eq_true, decide_eq_true_eq]; exact le_total _ _) rs
    simpa using this

/-- Two sources, a junction and a sink: the hypotheses are satisfiable and a route through the junction is found, while
the path that stops at the junction is not a route. -/
example : ∃ (g : Digraph) (routes : List (List Nat)), g.WF ∧
    findAllRoutes g ⟨fun n => toString n, fun n => toString n, fun _ => 0⟩
      (.cls (fun n => n == 1 || n == 2)) (.inst 4) none none .strict = .ok routes ∧
    [2, 3, 4] ∈ routes ∧ [2, 3] ∉ routes := by
  have hwf : Digraph.WF ⟨[1, 2, 3, 4], [(1, 3), (2, 3), (3, 4)]⟩ := by
    refine ⟨by decide, by decide, ?_⟩
    intro u v h; simp [Digraph.Edge] at h; rcases h with ⟨rfl, rfl⟩ | ⟨rfl, rfl⟩ | ⟨rfl, rfl⟩ <;> simp
  obtain ⟨routes, hr⟩ := C26_routes_total ⟨[1, 2, 3, 4], [(1, 3), (2, 3), (3, 4)]⟩
    ⟨fun n => toString n, fun n => toString n, fun _ => 0⟩ (.cls (fun n => n == 1 || n == 2)) (.inst 4) none none
    .strict (by decide)
  have hex := (C26_routes_exact _ hwf _ _ _ _ _ _ routes hr).2
  refine ⟨_, routes, hwf, hr, (hex _).2 ?_, fun h => ?_⟩
  · exact ⟨2, 4, by simp [Selected], by simp [Selected], by decide,
      ⟨by simp, by simp, by simp [Digraph.Edge], by decide⟩, by simp, by simp, by simp [DomainRule]⟩
  · obtain ⟨s, t, _, ht, _, ⟨_, h2, _⟩, _⟩ := (hex _).1 h
    simp [Selected] at ht h2; omega

end Verif.Routes

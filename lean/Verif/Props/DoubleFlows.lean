import Verif.Proof.DoubleFlows
import Verif.Props.Float64
/-!
C113: flows of nodes in double precision.
-/

namespace Verif.Float64

/-! ## Routes -/

/-- **C113 (flow of a node).** The flow that the route solver commits to a node differs from the exact sum of the flows of the routes through it by at most (2k+5)·2⁻⁵³ of the sum of their sizes (and a
multiple of 2⁻¹⁰⁷⁵), if k routes pass. -/
theorem C113_route (isLink : Nat → Bool) (routes : List (List Nat × Rat)) (hr : ∀ r ∈ routes, r.1.Nodup) (n : Nat) (hn : 2 * (through isLink routes n).length + 5 ≤ 2 ^ 53) :
    |committed (routeFlows isLink routes) n - (through isLink routes n).sum| ≤
      (2 * (through isLink routes n).length + 5) / 2 ^ 53 * flowSize (through isLink routes n) + 2 * (through isLink routes n).length / 2 ^ 1075 := by
  rw [routeFlows_eq isLink routes hr]
  exact rsum_err _ hn

/-- **C113 (same routes).** Two nodes on the same routes have exactly the same flow: water is neither lost nor made along a chain of links, not even by rounding. -/
theorem C113_same (isLink : Nat → Bool) (routes : List (List Nat × Rat)) (hr : ∀ r ∈ routes, r.1.Nodup) (m n : Nat) (h : ∀ r ∈ routes, r.2 ≠ 0 → (Passes isLink r.1 m ↔ Passes isLink r.1 n)) :
    committed (routeFlows isLink routes) m = committed (routeFlows isLink routes) n := by
  rw [routeFlows_eq isLink routes hr, routeFlows_eq isLink routes hr, ← rsum_zeros _ isDouble_zero, ← rsum_zeros (through isLink routes n) isDouble_zero]
  congr 1
  unfold through
  induction routes with
  | nil => rfl
  | cons r routes ih =>
    have hrec := ih (fun r' hr' => hr r' (by simp [hr'])) (fun r' hr' => h r' (by simp [hr']))
    have hh := h r (by simp)
    by_cases h0 : r.2 = 0
    · by_cases hm : Passes isLink r.1 m <;> by_cases hn : Passes isLink r.1 n <;> simpa [hm, hn, h0] using hrec
    · by_cases hm : Passes isLink r.1 m
      · simpa [hm, (hh h0).1 hm, h0] using hrec
      · have : ¬ Passes isLink r.1 n := fun hc => hm ((hh h0).2 hc)
        simpa [hm, this, h0] using hrec

/-- **C113 (more routes).** With flows that are not negative a node carries at least as much as any node all of whose routes pass it, exactly. -/
theorem C113_more (isLink : Nat → Bool) (routes : List (List Nat × Rat)) (hr : ∀ r ∈ routes, r.1.Nodup) (hq : ∀ r ∈ routes, 0 ≤ r.2) (m n : Nat)
    (h : ∀ r ∈ routes, Passes isLink r.1 m → Passes isLink r.1 n) : committed (routeFlows isLink routes) m ≤ committed (routeFlows isLink routes) n := by
  rw [routeFlows_eq isLink routes hr, routeFlows_eq isLink routes hr]
  refine rsum_sublist ?_ ?_ le_rfl isDouble_zero
  · unfold through
    apply List.Sublist.map
    clear hr hq
    induction routes with
    | nil => exact List.Sublist.refl _
    | cons r routes ih =>
      have hrec := ih fun r' hr' => h r' (by simp [hr'])
      by_cases hm : Passes isLink r.1 m
      · simpa [hm, h r (by simp) hm] using hrec
      · by_cases hn : Passes isLink r.1 n
        · simpa [hm, hn] using hrec.trans (List.sublist_cons_self _ _)
        · simpa [hm, hn] using hrec
  · intro q hq'
    obtain ⟨r, hr', rfl⟩ := List.mem_map.mp hq'
    exact hq r (List.mem_filter.1 hr').1

/-- **C113 (a route).** With flows that are not negative no node has a negative flow, and each node carries at least the flow of each route through it. -/
theorem C113_at_least (isLink : Nat → Bool) (routes : List (List Nat × Rat)) (hr : ∀ r ∈ routes, r.1.Nodup) (hq : ∀ r ∈ routes, 0 ≤ r.2) (n : Nat) :
    0 ≤ committed (routeFlows isLink routes) n ∧ ∀ r ∈ routes, IsDouble r.2 → Passes isLink r.1 n → r.2 ≤ committed (routeFlows isLink routes) n := by
  rw [routeFlows_eq isLink routes hr]
  have hnn : ∀ q ∈ through isLink routes n, 0 ≤ q := by
    intro q hq'
    obtain ⟨r, hr', rfl⟩ := List.mem_map.mp hq'
    exact hq r (List.mem_filter.1 hr').1
  refine ⟨rsum_ge _ hnn isDouble_zero, fun r hrm hd hp => ?_⟩
  have hmem : r.2 ∈ through isLink routes n := List.mem_map.2 ⟨r, List.mem_filter.2 ⟨hrm, by simpa using hp⟩, rfl⟩
  have := rsum_sublist (List.singleton_sublist.2 hmem) hnn le_rfl isDouble_zero
  rwa [show rsum 0 [r.2] = r.2 by simp [rsum, fl_self hd]] at this

/-- **C113 (one route).** A node on one route with water has exactly its flow. -/
theorem C113_single (isLink : Nat → Bool) (routes : List (List Nat × Rat)) (hr : ∀ r ∈ routes, r.1.Nodup) (n : Nat) (q : Rat) (hd : IsDouble q)
    (h : ((through isLink routes n).filter fun q => decide (q ≠ 0)) = [q]) : committed (routeFlows isLink routes) n = q := by
  rw [routeFlows_eq isLink routes hr, ← rsum_zeros _ isDouble_zero, h]
  simp [rsum, fl_self hd]

/-- **C113 (no route).** A node without a route with water has no flow. -/
theorem C113_none (isLink : Nat → Bool) (routes : List (List Nat × Rat)) (hr : ∀ r ∈ routes, r.1.Nodup) (n : Nat) (h : ∀ r ∈ routes, Passes isLink r.1 n → r.2 = 0) :
    committed (routeFlows isLink routes) n = 0 := by
  rw [routeFlows_eq isLink routes hr, ← rsum_zeros _ isDouble_zero]
  have : ((through isLink routes n).filter fun q => decide (q ≠ 0)) = [] := by
    rw [List.filter_eq_nil_iff]
    intro q hq
    obtain ⟨r, hr', rfl⟩ := List.mem_map.mp hq
    obtain ⟨h1, h2⟩ := List.mem_filter.1 hr'
    simp [h r h1 (by simpa using h2)]
  rw [this]
  rfl

/-- **C113 (whole numbers).** Flows that are whole numbers are summed exactly. -/
theorem C113_whole (isLink : Nat → Bool) (routes : List (List Nat × Rat)) (hr : ∀ r ∈ routes, r.1.Nodup) (n : Nat) (h : ∀ q ∈ through isLink routes n, ∃ k : Int, q = k)
    (hs : flowSize (through isLink routes n) ≤ 2 ^ 53) : committed (routeFlows isLink routes) n = (through isLink routes n).sum := by
  rw [routeFlows_eq isLink routes hr]
  exact rsum_whole _ h hs

private theorem flowSize_nonneg_eq {l : List Rat} (h : ∀ q ∈ l, 0 ≤ q) : flowSize l = l.sum := by
  unfold flowSize
  have : (l.map fun q => |q|) = l.map id := List.map_congr_left fun q hq => abs_of_nonneg (h q hq)
  rw [this, List.map_id]

/-- **C113 (limits), partial.** If the routes' flows are not negative and respect a limit up to the tolerance of the solver, the committed flow exceeds the limit by at most the tolerance and
(2k+5)·2⁻⁵³ of the flow.  That it does not exceed the limit itself when the solver is exact does not hold (`C113_limit_fails`). -/
theorem C113_limit_partial (isLink : Nat → Bool) (routes : List (List Nat × Rat)) (hr : ∀ r ∈ routes, r.1.Nodup) (hq : ∀ r ∈ routes, 0 ≤ r.2) (n : Nat)
    (hn : 2 * (through isLink routes n).length + 5 ≤ 2 ^ 53) (mn mx tol : Rat) (h1 : mn - tol ≤ (through isLink routes n).sum) (h2 : (through isLink routes n).sum ≤ mx + tol) :
    mn - tol - ((2 * (through isLink routes n).length + 5) / 2 ^ 53 * (mx + tol) + 2 * (through isLink routes n).length / 2 ^ 1075) ≤ committed (routeFlows isLink routes) n ∧
      committed (routeFlows isLink routes) n ≤ mx + tol + ((2 * (through isLink routes n).length + 5) / 2 ^ 53 * (mx + tol) + 2 * (through isLink routes n).length / 2 ^ 1075) := by
  have h := C113_route isLink routes hr n hn
  have hnn : ∀ q ∈ through isLink routes n, 0 ≤ q := by
    intro q hq'
    obtain ⟨r, hr', rfl⟩ := List.mem_map.mp hq'
    exact hq r (List.mem_filter.1 hr').1
  rw [flowSize_nonneg_eq hnn] at h
  have h3 : (2 * ((through isLink routes n).length : Rat) + 5) / 2 ^ 53 * (through isLink routes n).sum ≤ (2 * ((through isLink routes n).length : Rat) + 5) / 2 ^ 53 * (mx + tol) :=
    mul_le_mul_of_nonneg_left h2 (by positivity)
  generalize (2 : Rat) * (through isLink routes n).length / 2 ^ 1075 = τ at *
  rw [abs_le] at h
  constructor <;> linarith [h.1, h.2]

/-- **C113: a limit is exceeded by rounding.** Three routes with flows 2.5, 3.4 and 1.4 through a node with a maximum flow of 7.3, all as doubles: their exact sum is within the limit, the committed flow is
7.300000000000001. -/
theorem C113_limit_fails : ∃ (routes : List (List Nat × Rat)) (mx : Rat), (∀ r ∈ routes, r.1.Nodup ∧ 0 ≤ r.2 ∧ fl r.2 = r.2) ∧ fl mx = mx ∧ (through (fun n => n == 3) routes 3).sum ≤ mx ∧
    mx < committed (routeFlows (fun n => n == 3) routes) 3 := by
  refine ⟨[([0, 3, 4], fl (25 / 10)), ([1, 3, 4], fl (34 / 10)), ([2, 3, 4], fl (14 / 10))], fl (73 / 10), ?_, ?_, ?_, ?_⟩ <;> decide +kernel

private theorem sum_heads (S : List Nat) (hS : S.Nodup) (s : Nat) (hs : s ∈ S) (c : Rat) (P : Nat → Prop) [DecidablePred P] (hP : ∀ x ∈ S, P x ↔ x = s) :
    (S.map fun x => if P x then c else 0).sum = c := by
  induction S with
  | nil => simp at hs
  | cons a S ih =>
    rw [List.nodup_cons] at hS
    simp only [List.map_cons, List.sum_cons]
    by_cases e : a = s
    · rw [if_pos ((hP a (by simp)).2 e)]
      have : (S.map fun x => if P x then c else 0) = S.map fun _ => (0 : Rat) := by
        apply List.map_congr_left
        intro x hx
        rw [if_neg]
        rw [hP x (by simp [hx])]
        rintro rfl
        exact hS.1 (e ▸ hx)
      rw [this]
      simp
    · rw [if_neg (fun hc => e ((hP a (by simp)).1 hc)), zero_add]
      exact ih hS.2 (by simpa [Ne.symm e] using hs) fun x hx => hP x (by simp [hx])

/-- Every quantity of the routes is the total over nodes of which each route passes exactly one. -/
private theorem total_through (isLink : Nat → Bool) (routes : List (List Nat × Rat)) (S : List Nat) (hS : S.Nodup) (h : ∀ r ∈ routes, ∃ s ∈ S, ∀ x ∈ S, Passes isLink r.1 x ↔ x = s) (f : Rat → Rat) :
    (S.map fun s => ((through isLink routes s).map f).sum).sum = (routes.map fun r => f r.2).sum := by
  induction routes with
  | nil => simp [through]
  | cons r routes ih =>
    obtain ⟨s, hs, hP⟩ := h r (by simp)
    have e : ∀ x, ((through isLink (r :: routes) x).map f).sum = (if Passes isLink r.1 x then f r.2 else 0) + ((through isLink routes x).map f).sum := by
      intro x
      by_cases hp : Passes isLink r.1 x <;> simp [through, hp]
    simp only [e, List.map_cons, List.sum_cons]
    rw [List.sum_map_add, sum_heads S hS s hs (f r.2) _ hP, ih fun r' hr' => h r' (by simp [hr'])]

private theorem total_err (isLink : Nat → Bool) (routes : List (List Nat × Rat)) (hr : ∀ r ∈ routes, r.1.Nodup) (S : List Nat) (hS : S.Nodup)
    (h : ∀ r ∈ routes, ∃ s ∈ S, ∀ x ∈ S, Passes isLink r.1 x ↔ x = s) (hn : 2 * routes.length + 5 ≤ 2 ^ 53) :
    |(S.map fun s => committed (routeFlows isLink routes) s).sum - (routes.map (·.2)).sum| ≤ (2 * routes.length + 5) / 2 ^ 53 * flowSize (routes.map (·.2)) + 2 * routes.length / 2 ^ 1075 := by
  have t1 := total_through isLink routes S hS h id
  have t2 := total_through isLink routes S hS h fun q => |q|
  have t3 := total_through isLink routes S hS h fun _ => 1
  have e1 : flowSize (routes.map (·.2)) = (routes.map fun r => |r.2|).sum := by unfold flowSize; rw [List.map_map]; rfl
  have e3 : (routes.map fun _ : List Nat × Rat => (1 : Rat)).sum = routes.length := by simp
  rw [e1, ← t2, show (routes.map (·.2)).sum = (routes.map fun r => id r.2).sum from rfl, ← t1, show (2 : Rat) * routes.length / 2 ^ 1075 = 2 / 2 ^ 1075 * routes.length by ring]
  have eN : (routes.length : Rat) = (S.map fun s => ((through isLink routes s).map fun _ => (1 : Rat)).sum).sum := by rw [t3, e3]
  suffices hsuf : |(S.map fun s => committed (routeFlows isLink routes) s).sum - (S.map fun s => ((through isLink routes s).map id).sum).sum| ≤
      (2 * routes.length + 5) / 2 ^ 53 * (S.map fun s => ((through isLink routes s).map fun q => |q|).sum).sum +
        2 / 2 ^ 1075 * (S.map fun s => ((through isLink routes s).map fun _ => (1 : Rat)).sum).sum by rw [← eN] at hsuf; exact hsuf
  have hT : (0 : Rat) ≤ 2 / 2 ^ 1075 := by positivity
  have each : ∀ s, |committed (routeFlows isLink routes) s - ((through isLink routes s).map id).sum| ≤
      (2 * routes.length + 5) / 2 ^ 53 * ((through isLink routes s).map fun q => |q|).sum + 2 / 2 ^ 1075 * ((through isLink routes s).map fun _ => (1 : Rat)).sum := by
    intro s
    have hlen : (through isLink routes s).length ≤ routes.length := by
      unfold through
      rw [List.length_map]
      exact List.length_filter_le _ _
    have hc := C113_route isLink routes hr s (by omega)
    have hlen' : ((through isLink routes s).length : Rat) ≤ routes.length := by exact_mod_cast hlen
    rw [List.map_id]
    refine hc.trans ?_
    have e : ((through isLink routes s).map fun _ => (1 : Rat)).sum = (through isLink routes s).length := by simp
    rw [e, show (2 : Rat) * (through isLink routes s).length / 2 ^ 1075 = 2 / 2 ^ 1075 * (through isLink routes s).length by ring]
    have hA : 0 ≤ flowSize (through isLink routes s) := by
      apply List.sum_nonneg
      intro a ha
      obtain ⟨q, -, rfl⟩ := List.mem_map.mp ha
      exact abs_nonneg _
    have : (2 * ((through isLink routes s).length : Rat) + 5) / 2 ^ 53 * flowSize (through isLink routes s) ≤ (2 * routes.length + 5) / 2 ^ 53 * flowSize (through isLink routes s) := by
      apply mul_le_mul_of_nonneg_right _ hA
      apply div_le_div_of_nonneg_right _ (by positivity)
      linarith
    generalize (2 : Rat) / 2 ^ 1075 = T at *
    unfold flowSize at this
    unfold flowSize
    linarith
  clear t1 t2 t3 e1 e3 eN hn
  generalize (2 : Rat) / 2 ^ 1075 = T at *
  clear hS h
  induction S with
  | nil => simp
  | cons s S ih =>
    simp only [List.map_cons, List.sum_cons]
    have h1 := each s
    generalize committed (routeFlows isLink routes) s = c at *
    generalize ((through isLink routes s).map id).sum = X at *
    generalize (S.map fun s => committed (routeFlows isLink routes) s).sum = C at *
    generalize (S.map fun s => ((through isLink routes s).map id).sum).sum = Y at *
    have := abs_add_le (c - X) (C - Y)
    rw [show c + C - (X + Y) = (c - X) + (C - Y) by ring]
    linarith

/-- **C113 (balance), partial.** If every route starts at one of the sources and ends at one of the sinks, no route ends at a source or starts at a sink, and neither are links, what the sources deliver and what the sinks
receive, as committed, differ by at most (4N+10)·2⁻⁵³ of the sum of the sizes of the flows of the N routes (and a multiple of 2⁻¹⁰⁷⁵).  Exact equality does not hold (`C113_balance_fails`). -/
theorem C113_balance_partial (isLink : Nat → Bool) (routes : List (List Nat × Rat)) (hr : ∀ r ∈ routes, r.1.Nodup) (sources sinks : List Nat) (hS : sources.Nodup) (hT : sinks.Nodup)
    (h1 : ∀ r ∈ routes, ∃ s ∈ sources, r.1.head? = some s) (h2 : ∀ r ∈ routes, ∃ t ∈ sinks, r.1.getLast? = some t) (h3 : ∀ n ∈ sources ++ sinks, isLink n = false)
    (h4 : ∀ r ∈ routes, ∀ s ∈ sources, r.1.getLast? ≠ some s) (h5 : ∀ r ∈ routes, ∀ t ∈ sinks, r.1.head? ≠ some t) (hn : 2 * routes.length + 5 ≤ 2 ^ 53) :
    |(sources.map fun s => committed (routeFlows isLink routes) s).sum - (sinks.map fun s => committed (routeFlows isLink routes) s).sum| ≤
      (4 * routes.length + 10) / 2 ^ 53 * flowSize (routes.map (·.2)) + 4 * routes.length / 2 ^ 1075 := by
  have a := total_err isLink routes hr sources hS (by
    intro r hrm
    obtain ⟨s, hs, e⟩ := h1 r hrm
    refine ⟨s, hs, fun x hx => ?_⟩
    unfold Passes
    rw [e]
    simp [h4 r hrm x hx, h3 x (by simp [hx]), eq_comm]) hn
  have b := total_err isLink routes hr sinks hT (by
    intro r hrm
    obtain ⟨s, hs, e⟩ := h2 r hrm
    refine ⟨s, hs, fun x hx => ?_⟩
    have := h5 r hrm x hx
    unfold Passes
    rw [e]
    simp [this, h3 x (by simp [hx]), eq_comm]) hn
  rw [show (4 : Rat) * routes.length / 2 ^ 1075 = 2 * (2 * routes.length / 2 ^ 1075) by ring]
  generalize (2 : Rat) * routes.length / 2 ^ 1075 = τ at *
  generalize (sources.map fun s => committed (routeFlows isLink routes) s).sum = A at *
  generalize (sinks.map fun s => committed (routeFlows isLink routes) s).sum = B at *
  generalize (routes.map (·.2)).sum = X at *
  rw [abs_le] at a b ⊢
  have e : (4 * (routes.length : Rat) + 10) / 2 ^ 53 * flowSize (routes.map (·.2)) = 2 * ((2 * (routes.length : Rat) + 5) / 2 ^ 53 * flowSize (routes.map (·.2))) := by ring
  rw [e]
  constructor <;> linarith [a.1, a.2, b.1, b.2]

/-- **C113: the flows do not balance exactly.** Three inputs that deliver 2.5, 3.4 and 1.4 (as doubles) to an output: the output receives more than the inputs deliver. -/
theorem C113_balance_fails : ∃ routes : List (List Nat × Rat), (∀ r ∈ routes, r.1.Nodup ∧ fl r.2 = r.2) ∧
    ([0, 1, 2].map fun s => committed (routeFlows (fun n => n == 3) routes) s).sum < committed (routeFlows (fun n => n == 3) routes) 4 := by
  refine ⟨[([0, 3, 4], fl (25 / 10)), ([1, 3, 4], fl (34 / 10)), ([2, 3, 4], fl (14 / 10))], ?_, ?_⟩ <;> decide +kernel

/-! ## From routes to volumes -/

private theorem routeFlows_committed (isLink : Nat → Bool) (routes : List (List Nat × Rat)) (hr : ∀ r ∈ routes, r.1.Nodup) (n : Nat) : routeFlows isLink routes n = committed (routeFlows isLink routes) n := by
  have h := routeFlows_eq isLink routes hr n
  have hd : IsDouble (routeFlows isLink routes n) := by
    have : ∀ (l : List (List Nat × Rat)) (a : Nat → Rat), (∀ k, IsDouble (a k)) → ∀ k, IsDouble (l.foldl (fun a r => if r.2 = 0 then a else routeLoop isLink r.1 r.2 a) a k) := by
      intro l
      induction l with
      | nil => intro a ha k; exact ha k
      | cons r l ih =>
        intro a ha k
        apply ih
        intro k
        show IsDouble ((if r.2 = 0 then a else routeLoop isLink r.1 r.2 a) k)
        split
        · exact ha k
        · have : ∀ (z : List (Nat × Nat)) (a : Nat → Rat), (∀ k, IsDouble (a k)) →
              ∀ k, IsDouble (z.foldl (fun a p => if p.2 = 0 ∨ p.2 = r.1.length - 1 ∨ isLink p.1 = true then addFlow a p.1 r.2 else a) a k) := by
            intro z
            induction z with
            | nil => intro a ha k; exact ha k
            | cons p z ihz =>
              intro a ha k
              apply ihz
              intro k
              show IsDouble ((if p.2 = 0 ∨ p.2 = r.1.length - 1 ∨ isLink p.1 = true then addFlow a p.1 r.2 else a) k)
              split
              · unfold addFlow
                split
                · exact fl_double _
                · exact ha k
              · exact ha k
          exact this _ a ha k
    exact this routes _ (fun _ => isDouble_zero) n
  unfold committed
  rw [zero_add, fl_self hd]

/-- **C113 (storages).** What the nodes of a storage add to its flow differs from what the routes bring and take, exactly, by at most (2N+5)·2⁻⁵³ of their sizes. -/
theorem C113_storage (isLink : Nat → Bool) (routes : List (List Nat × Rat)) (hr : ∀ r ∈ routes, r.1.Nodup) (hn : 2 * routes.length + 5 ≤ 2 ^ 53) (inlets outlets : List Nat) (days mx mn : Rat) :
    |((storageStep isLink routes inlets outlets days mx mn).commits.map Storage.Commit.net).sum - received isLink routes inlets outlets| ≤
      (2 * routes.length + 5) / 2 ^ 53 * sizeAt isLink routes (inlets ++ outlets) + 2 * routes.length * (inlets ++ outlets).length / 2 ^ 1075 := by
  have each : ∀ s, |routeFlows isLink routes s - (through isLink routes s).sum| ≤ (2 * routes.length + 5) / 2 ^ 53 * flowSize (through isLink routes s) + 2 * routes.length / 2 ^ 1075 := by
    intro s
    have hlen : (through isLink routes s).length ≤ routes.length := by
      unfold through
      rw [List.length_map]
      exact List.length_filter_le _ _
    have hc := C113_route isLink routes hr s (by omega)
    rw [← routeFlows_committed isLink routes hr] at hc
    refine hc.trans ?_
    have hlen' : ((through isLink routes s).length : Rat) ≤ routes.length := by exact_mod_cast hlen
    have hA : 0 ≤ flowSize (through isLink routes s) := by
      apply List.sum_nonneg
      intro a ha
      obtain ⟨q, -, rfl⟩ := List.mem_map.mp ha
      exact abs_nonneg _
    apply add_le_add
    · apply mul_le_mul_of_nonneg_right _ hA
      apply div_le_div_of_nonneg_right _ (by positivity)
      linarith
    · apply div_le_div_of_nonneg_right _ (by positivity)
      linarith
  have side : ∀ (f : Rat → Rat) (hf : ∀ x y, |f x - f y| = |x - y|) (l : List Nat), |(l.map fun n => f (routeFlows isLink routes n)).sum - (l.map fun n => f (through isLink routes n).sum).sum| ≤
      (2 * routes.length + 5) / 2 ^ 53 * sizeAt isLink routes l + l.length * (2 * routes.length / 2 ^ 1075) := by
    intro f hf l
    generalize (2 : Rat) * routes.length / 2 ^ 1075 = T at *
    induction l with
    | nil => simp [sizeAt]
    | cons s l ih =>
      unfold sizeAt at ih ⊢
      simp only [List.map_cons, List.sum_cons, List.length_cons]
      push_cast
      have h1 := each s
      rw [← hf] at h1
      have := abs_add_le (f (routeFlows isLink routes s) - f (through isLink routes s).sum)
        ((l.map fun n => f (routeFlows isLink routes n)).sum - (l.map fun n => f (through isLink routes n).sum).sum)
      rw [show ∀ a b c d : Rat, a - b + (c - d) = a + c - (b + d) by intros; ring] at this
      linarith
  have s1 := side id (fun _ _ => rfl) inlets
  have s2 := side (fun x => -x) (fun x y => by rw [show -x - -y = -(x - y) by ring, abs_neg]) outlets
  have e1 : ((storageStep isLink routes inlets outlets days mx mn).commits.map Storage.Commit.net).sum =
      (inlets.map fun n => id (routeFlows isLink routes n)).sum + (outlets.map fun n => -(routeFlows isLink routes n)).sum := by
    simp [storageStep, Function.comp_def, Storage.Commit.net]
  have e2 : received isLink routes inlets outlets = (inlets.map fun n => id (through isLink routes n).sum).sum + (outlets.map fun n => -(through isLink routes n).sum).sum := by
    have : ∀ l : List Nat, (l.map fun n => -(through isLink routes n).sum).sum = -(l.map fun n => (through isLink routes n).sum).sum := by
      intro l
      induction l with
      | nil => simp
      | cons a l ih => simp only [List.map_cons, List.sum_cons, ih]; ring
    rw [this]
    simp [received, sub_eq_add_neg]
  have e3 : sizeAt isLink routes (inlets ++ outlets) = sizeAt isLink routes inlets + sizeAt isLink routes outlets := by simp [sizeAt]
  have e4 : (2 : Rat) * routes.length * (inlets ++ outlets).length / 2 ^ 1075 = (inlets.length + outlets.length) * (2 * routes.length / 2 ^ 1075) := by
    rw [List.length_append]
    push_cast
    ring
  rw [e1, e2, e3, e4]
  generalize (2 : Rat) * routes.length / 2 ^ 1075 = T at *
  have := abs_add_le ((inlets.map fun n => id (routeFlows isLink routes n)).sum - (inlets.map fun n => id (through isLink routes n).sum).sum)
    ((outlets.map fun n => -(routeFlows isLink routes n)).sum - (outlets.map fun n => -(through isLink routes n).sum).sum)
  rw [show ∀ a b c d : Rat, a - b + (c - d) = a + c - (b + d) by intros; ring] at this
  linarith

private theorem feasible_of_routes (isLink : Nat → Bool) (inlets outlets : List Nat) (tol tol' V mn mx : Rat) (s : Storage.State) (ts : List (Rat × List (List Nat × Rat)))
    (h : FeasibleRoutes isLink inlets outlets tol tol' V mn mx s ts) : FeasibleRun tol' V mn mx s (ts.map fun t => storageStep isLink t.2 inlets outlets t.1 mx mn) := by
  induction ts generalizing s with
  | nil => trivial
  | cons t ts ih =>
    obtain ⟨h1, h2, h3, h4, ⟨y, h5, h6⟩, h7⟩ := h
    refine ⟨rfl, rfl, h4, ⟨y, h5, ?_⟩, ih _ h7⟩
    have := C113_storage isLink t.2 h1 h2 inlets outlets t.1 mx mn
    have ht := abs_add_le (((storageStep isLink t.2 inlets outlets t.1 mx mn).commits.map Storage.Commit.net).sum - received isLink t.2 inlets outlets) (received isLink t.2 inlets outlets - y)
    rw [sub_add_sub_cancel] at ht
    generalize (2 : Rat) * t.2.length * (inlets ++ outlets).length / 2 ^ 1075 = T at *
    linarith

/-- **C113 (from the LP to the volumes).** If in every timestep the flows of the routes respect the storage's row up to the solver's tolerance, then the volume that results from collecting the flows of the nodes,
committing them and updating the volume, all in double precision, is between minimum and maximum volume after every timestep, and follows the net flows up to 3e-6 per timestep. -/
theorem C113_volume (isLink : Nat → Bool) (inlets outlets : List Nat) (tol tol' V mn mx : Rat) (s : Storage.State) (hs : mn ≤ s.volume ∧ s.volume ≤ mx) (ts : List (Rat × List (List Nat × Rat)))
    (h : FeasibleRoutes isLink inlets outlets tol tol' V mn mx s ts) :
    (∀ k ≤ ts.length, mn ≤ (run s ((ts.take k).map fun t => storageStep isLink t.2 inlets outlets t.1 mx mn)).volume ∧
      (run s ((ts.take k).map fun t => storageStep isLink t.2 inlets outlets t.1 mx mn)).volume ≤ mx) ∧
    |(run s (ts.map fun t => storageStep isLink t.2 inlets outlets t.1 mx mn)).volume - (s.volume + (ts.map fun t => received isLink t.2 inlets outlets * t.1).sum)| ≤
      ts.length * (3 / 1000000) + (ts.map fun t => tol' * |t.1|).sum := by
  have hf := feasible_of_routes isLink inlets outlets tol tol' V mn mx s ts h
  constructor
  · intro k hk
    have := C109_volume_partial tol' V mn mx s hs _ hf k (by simpa using hk)
    rwa [← List.map_take] at this
  · have hb := C109_balance tol' V mn mx s hs _ hf
    rw [List.length_map, List.map_map] at hb
    have hnet : |(ts.map (Storage.Step.netVolume ∘ fun t => storageStep isLink t.2 inlets outlets t.1 mx mn)).sum - (ts.map fun t => received isLink t.2 inlets outlets * t.1).sum| ≤
        (ts.map fun t => tol' * |t.1|).sum := by
      clear hb hf hs
      induction ts generalizing s with
      | nil => simp
      | cons t ts ih =>
        obtain ⟨h1, h2, h3, h4, ⟨y, h5, h6⟩, h7⟩ := h
        have ih' := ih _ h7
        have hc := C113_storage isLink t.2 h1 h2 inlets outlets t.1 mx mn
        have htol : 0 ≤ tol := (abs_nonneg _).trans h6
        simp only [List.map_cons, List.sum_cons, Function.comp_def] at *
        have e : Storage.Step.netVolume (storageStep isLink t.2 inlets outlets t.1 mx mn) = ((storageStep isLink t.2 inlets outlets t.1 mx mn).commits.map Storage.Commit.net).sum * t.1 := rfl
        rw [e]
        generalize ((storageStep isLink t.2 inlets outlets t.1 mx mn).commits.map Storage.Commit.net).sum = a at *
        generalize received isLink t.2 inlets outlets = b at *
        generalize (2 : Rat) * t.2.length * (inlets ++ outlets).length / 2 ^ 1075 = T at *
        have h8 : |a * t.1 - b * t.1| ≤ tol' * |t.1| := by
          rw [← sub_mul, abs_mul]
          exact mul_le_mul_of_nonneg_right (by linarith) (abs_nonneg _)
        have := abs_add_le (a * t.1 - b * t.1) ((ts.map fun x => Storage.Step.netVolume (storageStep isLink x.2 inlets outlets x.1 mx mn)).sum - (ts.map fun t => received isLink t.2 inlets outlets * t.1).sum)
        rw [show ∀ a b c d : Rat, a - b + (c - d) = a + c - (b + d) by intros; ring] at this
        linarith
    generalize (ts.map (Storage.Step.netVolume ∘ fun t => storageStep isLink t.2 inlets outlets t.1 mx mn)).sum = A at *
    generalize (ts.map fun t => received isLink t.2 inlets outlets * t.1).sum = B at *
    have := abs_add_le ((run s (ts.map fun t => storageStep isLink t.2 inlets outlets t.1 mx mn)).volume - (s.volume + A)) (A - B)
    rw [show ∀ v w : Rat, v - (w + A) + (A - B) = v - (w + B) by intros; ring] at this
    linarith

/-! ## Edges -/

/-- **C113 (edge solver).** The flow that the edge solver commits to a node differs from the exact one (the flows of its edges; half of them for a link) by at most (2k+5)·2⁻⁵³ of its size (and a multiple of 2⁻¹⁰⁷⁵), if
the node has k edges. -/
theorem C113_edge (isLink : Nat → Bool) (edges : List ((Nat × Nat) × Rat)) (n : Nat) (hn : 2 * ((into edges n).length + (outOf edges n).length) + 5 ≤ 2 ^ 53) :
    |committed (edgeFlows isLink edges) n - ((into edges n).sum + (outOf edges n).sum) / (if isLink n then 2 else 1)| ≤
      (2 * ((into edges n).length + (outOf edges n).length) + 5) / 2 ^ 53 * ((flowSize (into edges n) + flowSize (outOf edges n)) / (if isLink n then 2 else 1)) +
        5 * ((into edges n).length + (outOf edges n).length) / 2 ^ 1075 := by
  obtain ⟨u, τ, eu, eτ, hu, hu1, hτ, -, hfl⟩ := rounding
  have hlen := parts_length isLink edges n
  have hlen' : ((parts isLink edges n).length : Rat) = (into edges n).length + (outOf edges n).length := by rw [hlen]; push_cast; rfl
  have hn' : (2 * ((parts isLink edges n).length : Rat) + 5) * u ≤ 1 := by
    have : 2 * ((parts isLink edges n).length : Rat) + 5 ≤ 2 ^ 53 := by rw [hlen']; exact_mod_cast hn
    rw [eu, mul_one_div]
    exact (div_le_one (by positivity)).2 this
  have := sum_err hu hu1 hτ hτ.le hfl (parts isLink edges n) (parts_err isLink edges n hu hτ hfl) hn'
  rw [edgeFlows_eq, rsum, List.foldl_map]
  have s1 := parts_sum isLink edges n id (fun _ => rfl)
  have s2 := parts_sum isLink edges n (fun q => |q|) (fun q => by rw [abs_div, abs_two])
  simp only [List.map_id, id] at s1
  rw [s1, s2, hlen'] at this
  have e1 : ∀ A : Rat, A / (if isLink n = true then 2 else 1) = if isLink n = true then A / 2 else A := by intro A; split <;> simp
  rw [e1, e1]
  refine this.trans (le_of_eq ?_)
  unfold flowSize
  rw [div_eq_mul_one_div _ ((2 : Rat) ^ 53), div_eq_mul_one_div _ ((2 : Rat) ^ 1075), ← eu, ← eτ]
  ring

/-- **C113 (links of the edge solver).** The committed flow of a link differs from what flows into it by at most half of the imbalance that the solver leaves, and the rounding. -/
theorem C113_edge_link (isLink : Nat → Bool) (edges : List ((Nat × Nat) × Rat)) (n : Nat) (hl : isLink n = true) (hq : ∀ e ∈ edges, 0 ≤ e.2) (tol : Rat)
    (ht : |(into edges n).sum - (outOf edges n).sum| ≤ tol) (hn : 2 * ((into edges n).length + (outOf edges n).length) + 5 ≤ 2 ^ 53) :
    |committed (edgeFlows isLink edges) n - (into edges n).sum| ≤
      tol / 2 + ((2 * ((into edges n).length + (outOf edges n).length) + 5) / 2 ^ 53 * ((into edges n).sum + tol / 2) + 5 * ((into edges n).length + (outOf edges n).length) / 2 ^ 1075) := by
  have h := C113_edge isLink edges n hn
  have n1 : ∀ q ∈ into edges n, 0 ≤ q := by
    intro q hq'
    obtain ⟨e, he, rfl⟩ := List.mem_map.mp hq'
    exact hq e (List.mem_filter.1 he).1
  have n2 : ∀ q ∈ outOf edges n, 0 ≤ q := by
    intro q hq'
    obtain ⟨e, he, rfl⟩ := List.mem_map.mp hq'
    exact hq e (List.mem_filter.1 he).1
  rw [if_pos hl, flowSize_nonneg_eq n1, flowSize_nonneg_eq n2] at h
  generalize (5 : Rat) * ((into edges n).length + (outOf edges n).length) / 2 ^ 1075 = τ at *
  have hk : (0 : Rat) ≤ (2 * ((into edges n).length + (outOf edges n).length) + 5) / 2 ^ 53 := by positivity
  generalize (2 * (((into edges n).length : Rat) + (outOf edges n).length) + 5) / 2 ^ 53 = k at *
  rw [abs_le] at h ht ⊢
  have : k * (((into edges n).sum + (outOf edges n).sum) / 2) ≤ k * ((into edges n).sum + tol / 2) := mul_le_mul_of_nonneg_left (by linarith [ht.1]) hk
  constructor <;> linarith [h.1, h.2, ht.1, ht.2]

/-- **C113 (edges), not negative.** -/
theorem C113_edge_nonneg (isLink : Nat → Bool) (edges : List ((Nat × Nat) × Rat)) (n : Nat) (hq : ∀ e ∈ edges, 0 ≤ e.2) : 0 ≤ committed (edgeFlows isLink edges) n := by
  rw [edgeFlows_eq]
  refine rsum_ge _ ?_ isDouble_zero
  intro q hq'
  obtain ⟨p, hp, rfl⟩ := List.mem_map.mp hq'
  unfold parts at hp
  obtain ⟨e, he, hp⟩ := List.mem_flatMap.1 hp
  have hp' : p = (if isLink n then e.2 / 2 else e.2, share isLink n e.2) := by
    rcases List.mem_append.1 hp with h | h <;> · split at h <;> simp_all
  subst hp'
  have := hq e he
  show 0 ≤ share isLink n e.2
  unfold share
  split
  · exact fl_nonneg (by linarith)
  · exact this

private theorem half_double {q : Rat} (hd : IsDouble q) (hq : (2 : Rat) ^ (-1021 : Int) ≤ |q|) : IsDouble (q / 2) := by
  obtain ⟨m, e, hm, he, rfl⟩ := hd
  by_cases h : e = -1074
  · exfalso
    subst h
    rw [abs_mul, abs_of_pos (show (0 : Rat) < (2 : Rat) ^ (-1074 : Int) from zpow_pos (by norm_num) _)] at hq
    have hm' : |(m : Rat)| < 2 ^ 53 := by exact_mod_cast hm
    have e2 : (2 : Rat) ^ (-1021 : Int) = 2 ^ 53 * (2 : Rat) ^ (-1074 : Int) := by
      rw [show (-1021 : Int) = 53 + -1074 by norm_num, zpow_add₀ (by norm_num)]
      norm_cast
    rw [e2] at hq
    have h2 : (0 : Rat) < (2 : Rat) ^ (-1074 : Int) := zpow_pos (by norm_num) _
    exact absurd (le_of_mul_le_mul_right hq h2) (not_le.2 hm')
  · refine ⟨m, e - 1, hm, by omega, ?_⟩
    rw [zpow_sub₀ (by norm_num), zpow_one]
    ring

/-- **C113 (chains of the edge solver), partial.** A link between two edges with the same flow (a double of at least 2⁻¹⁰²¹) has exactly this flow.  For smaller flows this does not hold (`C113_edge_chain_fails`). -/
theorem C113_edge_chain_partial (isLink : Nat → Bool) (edges : List ((Nat × Nat) × Rat)) (n : Nat) (hl : isLink n = true) (q : Rat) (hd : IsDouble q) (hq : (2 : Rat) ^ (-1021 : Int) ≤ |q|)
    (h1 : into edges n = [q]) (h2 : outOf edges n = [q]) : committed (edgeFlows isLink edges) n = q := by
  rw [edgeFlows_eq]
  have hs : ∀ p ∈ (parts isLink edges n).map (·.2), p = q / 2 := by
    intro p hp
    obtain ⟨p', hp', rfl⟩ := List.mem_map.mp hp
    unfold parts at hp'
    obtain ⟨e, he, hp'⟩ := List.mem_flatMap.1 hp'
    have hq' : e.2 = q ∧ p' = (if isLink n then e.2 / 2 else e.2, share isLink n e.2) := by
      rcases List.mem_append.1 hp' with h | h
      · by_cases hx : e.1.1 = n
        · rw [if_pos hx] at h
          have : e.2 ∈ outOf edges n := List.mem_map.2 ⟨e, List.mem_filter.2 ⟨he, by simpa using hx⟩, rfl⟩
          rw [h2] at this
          exact ⟨by simpa using this, List.mem_singleton.1 h⟩
        · rw [if_neg hx] at h
          simp at h
      · by_cases hx : e.1.2 = n
        · rw [if_pos hx] at h
          have : e.2 ∈ into edges n := List.mem_map.2 ⟨e, List.mem_filter.2 ⟨he, by simpa using hx⟩, rfl⟩
          rw [h1] at this
          exact ⟨by simpa using this, List.mem_singleton.1 h⟩
        · rw [if_neg hx] at h
          simp at h
    rw [hq'.2]
    show share isLink n e.2 = _
    rw [hq'.1]
    unfold share
    rw [if_pos hl, fl_self (half_double hd hq)]
  have hlen : ((parts isLink edges n).map (·.2)).length = 2 := by rw [List.length_map, parts_length, h1, h2]; rfl
  obtain ⟨a, b, e⟩ := List.length_eq_two.1 hlen
  rw [e] at hs ⊢
  rw [hs a (by simp), hs b (by simp)]
  simp only [rsum, List.foldl_cons, List.foldl_nil, zero_add]
  rw [fl_self (half_double hd hq), add_halves, fl_self hd]

/-- **C113: halves of the smallest double.** A link that takes in and gives out the smallest positive double has no flow. -/
theorem C113_edge_chain_fails : ∃ q : Rat, 0 < q ∧ fl q = q ∧ committed (edgeFlows (fun n => n == 1) [((0, 1), q), ((1, 2), q)]) 1 = 0 :=
  ⟨1 / 2 ^ 1074, by decide +kernel, by decide +kernel, by decide +kernel⟩

/-- **C113 (ends).** A node that is not a link, with a single edge, has exactly the flow of the edge. -/
theorem C113_edge_end (isLink : Nat → Bool) (edges : List ((Nat × Nat) × Rat)) (n : Nat) (hl : isLink n = false) (q : Rat) (hd : IsDouble q) (h : into edges n ++ outOf edges n = [q]) :
    committed (edgeFlows isLink edges) n = q := by
  rw [edgeFlows_eq]
  have hlen : (parts isLink edges n).length = 1 := by rw [parts_length, ← List.length_append, h]; rfl
  obtain ⟨p, hp⟩ := List.length_eq_one_iff.1 hlen
  have hmem : p ∈ parts isLink edges n := by rw [hp]; simp
  have s := parts_sum isLink edges n id (fun _ => rfl)
  rw [hp] at s ⊢
  have hsum : (into edges n).sum + (outOf edges n).sum = q := by rw [← List.sum_append, h]; simp
  simp only [hl, List.map_id, hsum] at s
  have hp2 : p.2 = p.1 := by
    unfold parts at hmem
    obtain ⟨e, -, hm⟩ := List.mem_flatMap.1 hmem
    have : p = (if isLink n then e.2 / 2 else e.2, share isLink n e.2) := by
      rcases List.mem_append.1 hm with h | h <;> · split at h <;> simp_all
    rw [this]
    simp [share, hl]
  have : p.1 = q := by simpa using s
  simp [rsum, hp2, this, fl_self hd]

/-! ## Cases that meet the hypotheses -/

/-- A river (0) and a reservoir (1) supply two towns (4, 5) through a main (2) and a works (3). -/
private def supply : List (List Nat × Rat) := [([0, 2, 3, 4], fl (1 / 10)), ([0, 2, 3, 5], 0), ([1, 2, 3, 4], fl (2 / 10)), ([1, 2, 3, 5], fl (7 / 10))]

private def pipe (n : Nat) : Bool := n == 2 || n == 3

example : (∀ r ∈ supply, r.1.Nodup) ∧ (∀ r ∈ supply, 0 ≤ r.2) ∧ through pipe supply 4 = [fl (1 / 10), fl (2 / 10)] ∧ 2 * (through pipe supply 2).length + 5 ≤ 2 ^ 53 := by decide +kernel

example : committed (routeFlows pipe supply) 4 = fl (3 / 10) + 1 / 2 ^ 54 := by decide +kernel

/-- The main and the works are on the same routes; the river's routes pass the main. -/
example : (∀ r ∈ supply, r.2 ≠ 0 → (Passes pipe r.1 2 ↔ Passes pipe r.1 3)) ∧ (∀ r ∈ supply, Passes pipe r.1 0 → Passes pipe r.1 2) ∧ committed (routeFlows pipe supply) 2 ≠ 0 := by decide +kernel

example : committed (routeFlows pipe supply) 2 = committed (routeFlows pipe supply) 3 := C113_same pipe supply (by decide +kernel) 2 3 (by decide +kernel)

example : committed (routeFlows pipe supply) 0 ≤ committed (routeFlows pipe supply) 2 := C113_more pipe supply (by decide +kernel) (by decide +kernel) 0 2 (by decide +kernel)

/-- The river and the second town are each on one route with water. -/
example : committed (routeFlows pipe supply) 0 = fl (1 / 10) := C113_single pipe supply (by decide +kernel) 0 _ (fl_double _) (by decide +kernel)

/-- A node that is not on any route. -/
example : committed (routeFlows pipe supply) 6 = 0 := C113_none pipe supply (by decide +kernel) 6 (by decide +kernel)

/-- Whole numbers. -/
example : committed (routeFlows pipe [([0, 2, 4], 3), ([1, 2, 4], 4)]) 2 = 7 := by
  have := C113_whole pipe [([0, 2, 4], 3), ([1, 2, 4], 4)] (by decide) 2 (by
    have e : through pipe [([0, 2, 4], 3), ([1, 2, 4], 4)] 2 = [3, 4] := by decide +kernel
    rw [e]
    intro q hq
    simp only [List.mem_cons, List.not_mem_nil, or_false] at hq
    rcases hq with rfl | rfl
    · exact ⟨3, by norm_num⟩
    · exact ⟨4, by norm_num⟩) (by decide +kernel)
  rw [this]
  decide +kernel

/-- The hypotheses on a limit, and on sources and sinks. -/
example : (1 : Rat) - 1 / 1000 ≤ (through pipe supply 2).sum ∧ (through pipe supply 2).sum ≤ 1 + 1 / 1000 := by decide +kernel

example : |([0, 1].map fun s => committed (routeFlows pipe supply) s).sum - ([4, 5].map fun s => committed (routeFlows pipe supply) s).sum| ≤
    (4 * supply.length + 10) / 2 ^ 53 * flowSize (supply.map (·.2)) + 4 * supply.length / 2 ^ 1075 :=
  C113_balance_partial pipe supply (by decide +kernel) [0, 1] [4, 5] (by decide) (by decide) (by decide +kernel) (by decide +kernel) (by decide +kernel) (by decide +kernel) (by decide +kernel) (by decide)

/-- The same network as edges. -/
private def edgesOfSupply : List ((Nat × Nat) × Rat) := [((0, 2), fl (1 / 10)), ((1, 2), fl (9 / 10)), ((2, 3), 1), ((3, 4), fl (3 / 10)), ((3, 5), fl (7 / 10))]

example : (∀ e ∈ edgesOfSupply, 0 ≤ e.2) ∧ |(into edgesOfSupply 2).sum - (outOf edgesOfSupply 2).sum| ≤ 1 / 2 ^ 50 ∧ pipe 2 = true ∧ 2 * ((into edgesOfSupply 2).length + (outOf edgesOfSupply 2).length) + 5 ≤ 2 ^ 53 := by
  decide +kernel

example : committed (edgeFlows pipe edgesOfSupply) 0 = fl (1 / 10) := C113_edge_end pipe edgesOfSupply 0 (by decide) _ (fl_double _) (by decide +kernel)

example : committed (edgeFlows pipe [((0, 2), 5), ((2, 4), 5)]) 2 = 5 :=
  C113_edge_chain_partial pipe [((0, 2), 5), ((2, 4), 5)] 2 (by decide) 5 ⟨5, 0, by decide, by decide, by norm_num⟩ (by decide +kernel) (by decide +kernel) (by decide +kernel)

/-- The reservoir (outlet 1, inlet 7, with a volume of 50 of 100) in a day in which a pump fills it with 0.3 and towns take 0.9. -/
private def day : Rat × List (List Nat × Rat) := (1, ([8, 7], fl (3 / 10)) :: supply)

example : FeasibleRoutes pipe [7] [1] (1 / 10000000) (2 / 10000000) 100 0 100 { volume := 50, flow := 0, prevFlow := 0, pc := none } [day, day] := by
  refine ⟨by decide +kernel, by decide +kernel, by decide +kernel, ⟨by decide +kernel, by decide +kernel, by decide +kernel, by decide +kernel⟩, ⟨received pipe day.2 [7] [1], by decide +kernel, by simp⟩,
    by decide +kernel, by decide +kernel, by decide +kernel, ⟨by decide +kernel, by decide +kernel, by decide +kernel, by decide +kernel⟩, ⟨received pipe day.2 [7] [1], by decide +kernel, by simp⟩, trivial⟩

end Verif.Float64

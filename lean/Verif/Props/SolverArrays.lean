import Verif.Model.SolverArrays
import Mathlib.Algebra.BigOperators.Group.List.Lemmas
import Mathlib.Data.List.GetD
import Mathlib.Data.List.Nodup
import Mathlib.Tactic.Ring
import Mathlib.Tactic.Linarith
/-! # C96: the flat arrays of the solvers hold the problem, and are not overrun -/

namespace Verif.SolverArrays

open Verif Verif.Lp

/-! ## Lemmas on arrays -/

private theorem getD_set (a : List Rat) (i j : Nat) (v : Rat) (hi : i < a.length) : (a.set i v).getD j 0 = if j = i then v else a.getD j 0 := by
  rw [List.getD_eq_getElem?_getD, List.getElem?_set, List.getD_eq_getElem?_getD]
  by_cases h : i = j
  · subst h; simp [hi]
  · rw [if_neg h, if_neg (fun e => h e.symm)]

private theorem add_some (a : List Rat) (i : Nat) (v : Rat) (hi : i < a.length) :
    ∃ b, add a i v = some b ∧ b.length = a.length ∧ ∀ j, b.getD j 0 = a.getD j 0 + if j = i then v else 0 := by
  refine ⟨a.set i (a[i] + v), by simp [add, List.getElem?_eq_getElem hi], by simp, fun j => ?_⟩
  rw [getD_set _ _ _ _ hi]
  by_cases h : j = i
  · subst h; rw [if_pos rfl, if_pos rfl, List.getD_eq_getElem _ _ hi]
  · simp [h]

private theorem getElem?_of_getD {a : List Rat} {i : Nat} (hi : i < a.length) : a[i]? = some (a.getD i 0) := by
  rw [List.getElem?_eq_getElem hi, List.getD_eq_getElem _ _ hi]

private theorem addAll_some (v : Rat) (cs : List Nat) (a : List Rat) (h : ∀ c ∈ cs, c < a.length) :
    ∃ b, addAll v cs a = some b ∧ b.length = a.length ∧ ∀ j, b.getD j 0 = a.getD j 0 + ((cs.filter fun k => k == j).map fun _ => v).sum := by
  induction cs generalizing a with
  | nil => exact ⟨a, rfl, rfl, fun j => by simp⟩
  | cons c cs ih =>
    obtain ⟨b, hb, hl, hg⟩ := add_some a c v (h c (by simp))
    obtain ⟨b', hb', hl', hg'⟩ := ih b (fun k hk => by rw [hl]; exact h k (by simp [hk]))
    refine ⟨b', by rw [addAll, hb]; exact hb', hl'.trans hl, fun j => ?_⟩
    rw [hg' j, hg j, List.filter_cons]
    by_cases e : c = j
    · subst e; simp; ring
    · rw [if_neg (fun x => e x.symm), if_neg (by simpa using e)]; ring

private theorem inEdges_lt (g : Graph) (n c : Nat) (h : c ∈ inEdges g n) : c < g.edges.length := by
  unfold inEdges colsOf at h
  obtain ⟨q, hq, he⟩ := List.mem_filterMap.1 h
  have := (List.mem_zipIdx_iff_getElem?.1 hq)
  split at he
  · cases he
    exact (List.getElem?_eq_some_iff.1 this).1
  · cases he

private theorem outEdges_lt (g : Graph) (n c : Nat) (h : c ∈ outEdges g n) : c < g.edges.length := by
  unfold outEdges colsOf at h
  obtain ⟨q, hq, he⟩ := List.mem_filterMap.1 h
  have := (List.mem_zipIdx_iff_getElem?.1 hq)
  split at he
  · cases he
    exact (List.getElem?_eq_some_iff.1 this).1
  · cases he

/-! ## Edge costs -/

private theorem edgeCosts_some (d : Data) (g : Graph) (ns : List Nat) (a : List Rat) (h : a.length = g.edges.length) :
    ∃ b, edgeCosts d g ns a = some b ∧ b.length = a.length ∧ ∀ c, b.getD c 0 = a.getD c 0 + (ns.map fun n =>
      let cost := if d.kind n = .link then d.cost n / 2 else d.cost n
      (((inEdges g n).filter fun k => k == c).map fun _ => cost).sum + (((outEdges g n).filter fun k => k == c).map fun _ => cost).sum).sum := by
  induction ns generalizing a with
  | nil => exact ⟨a, rfl, rfl, fun c => by simp⟩
  | cons n ns ih =>
    obtain ⟨b, hb, hl, hg⟩ := addAll_some (if d.kind n = .link then d.cost n / 2 else d.cost n) (inEdges g n) a (fun c hc => h ▸ inEdges_lt g n c hc)
    obtain ⟨b', hb', hl', hg'⟩ := addAll_some (if d.kind n = .link then d.cost n / 2 else d.cost n) (outEdges g n) b (fun c hc => by rw [hl, h]; exact outEdges_lt g n c hc)
    obtain ⟨b'', hb'', hl'', hg''⟩ := ih b' (by rw [hl', hl, h])
    refine ⟨b'', ?_, by rw [hl'', hl', hl], fun c => ?_⟩
    · rw [edgeCosts]
      simp only [hb, hb']
      exact hb''
    · rw [hg'', hg', hg, List.map_cons, List.sum_cons]
      simp only
      ring

/-- The edge solver's array of costs holds, after its loop, the cost of every column; no index is outside the array. -/
theorem C96_edge_costs (d : Data) (g : Graph) :
    ∃ a, edgeCosts d g d.nodes (List.replicate g.edges.length 0) = some a ∧ a.length = g.edges.length ∧ ∀ c < g.edges.length, a[c]? = some (edgeCost d g c) := by
  obtain ⟨b, hb, hl, hg⟩ := edgeCosts_some d g d.nodes (List.replicate g.edges.length 0) (by simp)
  have hl' : b.length = g.edges.length := by simpa using hl
  refine ⟨b, hb, hl', fun c hc => ?_⟩
  rw [getElem?_of_getD (by rw [hl']; exact hc), hg c]
  have : (List.replicate g.edges.length (0 : Rat)).getD c 0 = 0 := by simp
  rw [this, zero_add]
  rfl

/-! ## Route costs -/

private theorem writeCosts_some (id : Nat → Nat) (cost : Nat → Rat) (ns : List Nat) (a : List Rat) (h : ∀ n ∈ ns, id n < a.length) (hi : ∀ n ∈ ns, ∀ m ∈ ns, id n = id m → n = m) :
    ∃ b, writeCosts id cost ns a = some b ∧ b.length = a.length ∧ (∀ n ∈ ns, b[id n]? = some (cost n)) ∧ ∀ j, (∀ n ∈ ns, id n ≠ j) → b[j]? = a[j]? := by
  induction ns generalizing a with
  | nil => exact ⟨a, rfl, rfl, fun n hn => by simp at hn, fun j _ => rfl⟩
  | cons n ns ih =>
    have hn := h n (by simp)
    obtain ⟨b, hb, hl, hg, ho⟩ := ih (a.set (id n) (cost n)) (fun m hm => by simpa using h m (by simp [hm])) (fun p hp q hq => hi p (by simp [hp]) q (by simp [hq]))
    refine ⟨b, by rw [writeCosts, put, if_pos hn]; exact hb, by simpa using hl, fun m hm => ?_, fun j hj => ?_⟩
    · by_cases hmn : m ∈ ns
      · exact hg m hmn
      · have : m = n := by rcases List.mem_cons.1 hm with e | e; exact e; exact absurd e hmn
        subst this
        rw [ho (id m) fun p hp e => hmn (hi p (by simp [hp]) m (by simp) e ▸ hp)]
        rw [List.getElem?_set, if_pos rfl, if_pos hn]
    · rw [ho j fun p hp => hj p (by simp [hp]), List.getElem?_set, if_neg (hj n (by simp))]

private theorem flat_spec (rows : List (List Nat)) :
    (flat rows).1 = rows.flatten ∧ (flat rows).2.length = rows.length + 1 ∧ ∀ k ≤ rows.length, (flat rows).2[k]? = some (rows.take k).flatten.length := by
  have key : ∀ (rows : List (List Nat)) (s : List Nat × List Nat), (rows.foldl (fun s r => (s.1 ++ r, s.2 ++ [(s.1 ++ r).length])) s) =
      (s.1 ++ rows.flatten, s.2 ++ (List.range rows.length).map fun k => s.1.length + (rows.take (k + 1)).flatten.length) := by
    intro rows
    induction rows with
    | nil => intro s; simp
    | cons r rows ih =>
      intro s
      rw [List.foldl_cons, ih]
      simp only [List.flatten_cons, List.append_assoc, List.length_cons, List.length_append, Prod.mk.injEq, true_and]
      rw [List.range_succ_eq_map]
      simp [Nat.add_assoc, Function.comp_def]
  have h := key rows ([], [0])
  unfold flat
  rw [h]
  refine ⟨by simp, by simp, fun k hk => ?_⟩
  cases k with
  | zero => simp
  | succ k =>
    simp only [List.length_nil, Nat.zero_add, List.cons_append, List.nil_append, List.getElem?_cons_succ, List.getElem?_map]
    rw [List.getElem?_range (by omega)]
    rfl

private theorem take_succ_flatten (rows : List (List Nat)) (k : Nat) (r : List Nat) (hk : rows[k]? = some r) : (rows.take (k + 1)).flatten = (rows.take k).flatten ++ r := by
  rw [List.take_add_one, hk]; simp

private theorem flatten_split (rows : List (List Nat)) (k : Nat) (r : List Nat) (hk : rows[k]? = some r) : rows.flatten = (rows.take k).flatten ++ r ++ (rows.drop (k + 1)).flatten := by
  rw [← take_succ_flatten rows k r hk, ← List.flatten_append, List.take_append_drop]

private theorem sumFrom_eq (costs : List Rat) (f : Nat → Rat) (pre mid post : List Nat) (acc : Rat) (h : ∀ i ∈ mid, costs[i]? = some (f i)) :
    sumFrom (pre ++ mid ++ post) costs mid.length pre.length acc = some (acc + (mid.map f).sum) := by
  induction mid generalizing pre acc with
  | nil => simp [sumFrom]
  | cons i mid ih =>
    rw [List.length_cons, sumFrom]
    have : (pre ++ i :: mid ++ post)[pre.length]? = some i := by simp
    rw [this]
    simp only
    rw [h i (by simp)]
    simp only
    have := ih (pre ++ [i]) (acc + f i) fun j hj => h j (by simp [hj])
    simp only [List.append_assoc, List.cons_append, List.nil_append, List.length_append, List.length_cons, List.length_nil] at this ⊢
    rw [this, List.map_cons, List.sum_cons, add_assoc]

/-- The route solver reads the cost of every route out of its arrays correctly and within their bounds: whatever was in the array of node costs before, and whichever nodes have their
costs written once (at setup) or anew in every solve. -/
theorem C96_route_costs (d : Data) (routes : List (List Nat)) (hr : ∀ r ∈ routes, ∀ n ∈ r, n ∈ d.nodes)
    (once always : List Nat) (hs : (once ++ always).Perm d.nodes) (junk : List Rat) (hj : junk.length = d.nodes.length) :
    ∃ a b, writeCosts d.nodes.idxOf d.cost once junk = some a ∧ writeCosts d.nodes.idxOf d.cost always a = some b ∧
      ∀ (c : Nat) (r : List Nat), routes[c]? = some r →
        readCost (flat (routes.map fun r => (costNodes d r).map d.nodes.idxOf)).1 (flat (routes.map fun r => (costNodes d r).map d.nodes.idxOf)).2 b c = some (routeCost d r) := by
  have hsub : ∀ n ∈ once ++ always, n ∈ d.nodes := fun n hn => hs.mem_iff.1 hn
  have hlt : ∀ n ∈ d.nodes, d.nodes.idxOf n < junk.length := fun n hn => by rw [hj]; exact List.idxOf_lt_length_iff.2 hn
  have hinj : ∀ n ∈ d.nodes, ∀ m ∈ d.nodes, d.nodes.idxOf n = d.nodes.idxOf m → n = m := fun n hn m _ e => (List.idxOf_inj hn).1 e
  obtain ⟨a, ha, hla, hga, -⟩ := writeCosts_some d.nodes.idxOf d.cost once junk (fun n hn => hlt n (hsub n (by simp [hn])))
    (fun n hn m hm => hinj n (hsub n (by simp [hn])) m (hsub m (by simp [hm])))
  obtain ⟨b, hb, hlb, hgb, hob⟩ := writeCosts_some d.nodes.idxOf d.cost always a (fun n hn => by rw [hla]; exact hlt n (hsub n (by simp [hn])))
    (fun n hn m hm => hinj n (hsub n (by simp [hn])) m (hsub m (by simp [hm])))
  have hcost : ∀ n ∈ d.nodes, b[d.nodes.idxOf n]? = some (d.cost n) := by
    intro n hn
    rcases List.mem_append.1 (hs.mem_iff.2 hn) with h | h
    · by_cases h' : n ∈ always
      · exact hgb n h'
      · rw [hob _ fun m hm e => h' (hinj m (hsub m (by simp [hm])) n hn e ▸ hm)]
        exact hga n h
    · exact hgb n h
  refine ⟨a, b, ha, hb, fun c r hc => ?_⟩
  set rows := routes.map fun r => (costNodes d r).map d.nodes.idxOf with hrows
  obtain ⟨h1, -, h3⟩ := flat_spec rows
  have hrow : rows[c]? = some ((costNodes d r).map d.nodes.idxOf) := by rw [hrows, List.getElem?_map, hc]; rfl
  have hcl : c < rows.length := (List.getElem?_eq_some_iff.1 hrow).1
  unfold readCost
  rw [h3 c (by omega), h3 (c + 1) (by omega)]
  simp only
  rw [take_succ_flatten _ _ _ hrow, List.length_append, Nat.add_sub_cancel_left, h1, flatten_split _ _ _ hrow]
  have hmem : ∀ n ∈ costNodes d r, n ∈ d.nodes := by
    intro n hn
    apply hr r (List.mem_iff_getElem?.2 ⟨c, hc⟩)
    unfold costNodes at hn
    rcases List.mem_append.1 hn with hn | hn
    · rcases List.mem_append.1 hn with hn | hn
      · rw [Option.mem_toList] at hn; exact List.mem_of_mem_head? hn
      · exact List.mem_of_mem_tail (List.mem_of_mem_dropLast (List.mem_filter.1 hn).1)
    · rw [Option.mem_toList] at hn; exact List.mem_of_getLast? hn
  rw [sumFrom_eq b (fun i => b.getD i 0) _ _ _ _ (by
    intro i hi
    obtain ⟨n, hn, rfl⟩ := List.mem_map.1 hi
    rw [List.getD_eq_getElem?_getD, hcost n (hmem n hn)]; rfl)]
  rw [zero_add, List.map_map]
  unfold routeCost
  congr 2
  apply List.map_congr_left
  intro n hn
  show b.getD (d.nodes.idxOf n) 0 = d.cost n
  rw [List.getD_eq_getElem?_getD, hcost n (hmem n hn)]; rfl

/-! ## Rows with factors -/

private theorem writeFactor_some (norm : List Rat) (n : Nat) (v : Rat) (hv : norm[n + 1]? = some v) (w pre post : List Rat) :
    writeFactor norm n w.length pre.length (pre ++ w ++ post) = some (pre ++ List.replicate w.length (-v) ++ post) := by
  induction w generalizing pre with
  | nil => simp [writeFactor]
  | cons a w ih =>
    rw [List.length_cons, writeFactor, hv]
    simp only
    rw [put, if_pos (by simp)]
    simp only
    have h := ih (pre ++ [-v])
    have e : (pre ++ a :: w ++ post).set pre.length (-v) = pre ++ [-v] ++ w ++ post := by
      rw [List.append_assoc, List.set_append_right _ _ (Nat.le_refl _)]
      simp
    rw [e]
    rw [List.length_append, List.length_cons, List.length_nil] at h
    rw [h]
    simp [List.replicate_succ]

private theorem readRow_some (pre mid post : List Nat) (pre' mid' post' : List Rat) (h : pre.length = pre'.length) (h' : mid.length = mid'.length) :
    readRow (pre ++ mid ++ post) (pre' ++ mid' ++ post') mid.length pre.length = some ((mid.map (· - 1)).zip mid') := by
  induction mid generalizing pre pre' mid' with
  | nil => simp [readRow]
  | cons c mid ih =>
    cases mid' with
    | nil => simp at h'
    | cons v mid' =>
      rw [List.length_cons, readRow]
      have e1 : (pre ++ c :: mid ++ post)[pre.length]? = some c := by simp
      have e2 : (pre' ++ v :: mid' ++ post')[pre.length]? = some v := by rw [h]; simp
      rw [e1, e2]
      simp only
      have := ih (pre ++ [c]) (pre' ++ [v]) mid' (by simp [h]) (by simpa using h')
      simp only [List.append_assoc, List.cons_append, List.nil_append, List.length_append, List.length_cons, List.length_nil] at this ⊢
      rw [this]
      rfl

/-- The rows of the cached data. -/
private def blocks (first : List Nat) (others : List (List Nat)) : List (List Nat) := others.map fun o => (0 :: first.map (· + 1)) ++ o.map (· + 1)

/-- What stays true of the kept values: the entries of the first member are one. -/
private def Good (first : List Nat) (others : List (List Nat)) (f : Cached) : Prop :=
  f.nodeInd = first.length + 1 ∧ f.indPtr = (flat (blocks first others)).2 ∧ f.inds = (blocks first others).flatten ∧
  ∃ ws : List (List Rat), ws.map List.length = others.map List.length ∧ f.vals = (ws.map fun w => List.replicate (first.length + 1) 1 ++ w).flatten

private theorem build_good (first : List Nat) (others : List (List Nat)) : Good first others (Cached.build first others) := by
  refine ⟨by simp [Cached.build], rfl, (flat_spec _).1, others.map fun o => List.replicate o.length 1, by simp [Function.comp_def], ?_⟩
  show List.replicate (flat (blocks first others)).1.length 1 = _
  rw [(flat_spec _).1]
  unfold blocks
  induction others with
  | nil => rfl
  | cons o os ih =>
    simp only [List.map_cons, List.flatten_cons, List.length_append, List.length_cons, List.length_map]
    rw [List.replicate_add, ih, ← List.replicate_add]

private theorem flatten_length_congr (a : List (List Nat)) (b : List (List Rat)) (h : a.map List.length = b.map List.length) : a.flatten.length = b.flatten.length := by
  rw [List.length_flatten, List.length_flatten, h]

private theorem row_good (first : List Nat) (others : List (List Nat)) (f : Cached) (h : Good first others f) (norm : List Rat) (n : Nat) (o : List Nat) (v : Rat)
    (ho : others[n]? = some o) (hv : norm[n + 1]? = some v) :
    ∃ f', f.row norm n = some (const 1 first ++ const (-v) o, f') ∧ Good first others f' := by
  obtain ⟨h1, h2, h3, ws, hw, h4⟩ := h
  obtain ⟨-, -, hp⟩ := flat_spec (blocks first others)
  have hnl : n < others.length := (List.getElem?_eq_some_iff.1 ho).1
  have hbl : (blocks first others).length = others.length := by simp [blocks]
  have hb : (blocks first others)[n]? = some ((0 :: first.map (· + 1)) ++ o.map (· + 1)) := by unfold blocks; rw [List.getElem?_map, ho]; rfl
  have hwl : ws.length = others.length := by have := congrArg List.length hw; simpa using this
  obtain ⟨w, hwn⟩ : ∃ w, ws[n]? = some w := ⟨ws[n]'(by omega), List.getElem?_eq_getElem (by omega)⟩
  have hwlen : w.length = o.length := by
    have := congrArg (fun l => l[n]?) hw
    simp only [List.getElem?_map, hwn, ho, Option.map_some, Option.some.injEq] at this
    exact this
  set bws := ws.map fun w => List.replicate (first.length + 1) (1 : Rat) ++ w with hbws
  have hbw : bws[n]? = some (List.replicate (first.length + 1) 1 ++ w) := by rw [hbws, List.getElem?_map, hwn]; rfl
  have hlens : (blocks first others).map List.length = bws.map List.length := by
    have e1 : (blocks first others).map List.length = (others.map List.length).map fun k => first.length + 1 + k := by
      unfold blocks; rw [List.map_map, List.map_map]; apply List.map_congr_left; intro a _; simp; omega
    have e2 : bws.map List.length = (ws.map List.length).map fun k => first.length + 1 + k := by simp [hbws, Function.comp_def]
    rw [e1, e2, hw]
  have hpre : ((blocks first others).take n).flatten.length = (bws.take n).flatten.length := flatten_length_congr _ _ (by rw [List.map_take, List.map_take, hlens])
  have hsplit : bws.flatten = (bws.take n).flatten ++ (List.replicate (first.length + 1) 1 ++ w) ++ (bws.drop (n + 1)).flatten := by
    conv_lhs => rw [← List.take_append_drop (n + 1) bws]
    rw [List.flatten_append, List.take_add_one, hbw]; simp
  have hnew : ((ws.set n (List.replicate w.length (-v))).map fun w => List.replicate (first.length + 1) (1 : Rat) ++ w).flatten =
      (bws.take n).flatten ++ (List.replicate (first.length + 1) 1 ++ List.replicate w.length (-v)) ++ (bws.drop (n + 1)).flatten := by
    rw [List.map_set]
    conv_lhs => rw [← List.take_append_drop (n + 1) (List.set _ _ _)]
    rw [List.flatten_append, List.take_add_one, List.getElem?_set_self (by simpa using (by omega : n < ws.length)), List.take_set_of_le (Nat.le_refl _), List.drop_set_of_lt (by omega)]
    simp [hbws]
  refine ⟨{ f with vals := (bws.take n).flatten ++ (List.replicate (first.length + 1) 1 ++ List.replicate w.length (-v)) ++ (bws.drop (n + 1)).flatten }, ?_,
    h1, h2, h3, ws.set n (List.replicate w.length (-v)), ?_, hnew.symm⟩
  · unfold Cached.row
    rw [h2, hp n (by omega), hp (n + 1) (by omega)]
    simp only
    rw [take_succ_flatten _ _ _ hb, List.length_append, Nat.add_sub_cancel_left, h1, h4, hsplit]
    have e1 : ((0 :: first.map (· + 1)) ++ o.map (· + 1)).length - (first.length + 1) = w.length := by simp [hwlen]
    have e2 : ((blocks first others).take n).flatten.length + (first.length + 1) = ((bws.take n).flatten ++ List.replicate (first.length + 1) 1).length := by
      rw [hpre]; simp
    have e3 : (bws.take n).flatten ++ (List.replicate (first.length + 1) 1 ++ w) ++ (bws.drop (n + 1)).flatten =
        (bws.take n).flatten ++ List.replicate (first.length + 1) 1 ++ w ++ (bws.drop (n + 1)).flatten := by simp
    rw [e1, e2, e3, writeFactor_some norm n v hv]
    simp only
    rw [h3, flatten_split _ _ _ hb]
    have e4 : ((0 :: first.map (· + 1)) ++ o.map (· + 1)).length - 1 = (first.map (· + 1) ++ o.map (· + 1)).length := by simp
    have e5 : ((blocks first others).take n).flatten ++ ((0 :: first.map (· + 1)) ++ o.map (· + 1)) ++ ((blocks first others).drop (n + 1)).flatten =
        (((blocks first others).take n).flatten ++ [0]) ++ (first.map (· + 1) ++ o.map (· + 1)) ++ ((blocks first others).drop (n + 1)).flatten := by simp
    have e6 : (bws.take n).flatten ++ List.replicate (first.length + 1) 1 ++ List.replicate w.length (-v) ++ (bws.drop (n + 1)).flatten =
        ((bws.take n).flatten ++ [1]) ++ (List.replicate first.length 1 ++ List.replicate w.length (-v)) ++ (bws.drop (n + 1)).flatten := by
      simp [List.replicate_succ]
    have e7 : ((blocks first others).take n).flatten.length + 1 = (((blocks first others).take n).flatten ++ [0]).length := by simp
    rw [e4, e5, e6, e7, readRow_some _ _ _ _ _ _ (by simp [hpre]) (by simp [hwlen])]
    simp only [Option.map_some, Option.some.injEq, Prod.mk.injEq]
    refine ⟨?_, ?_⟩
    · rw [List.map_append, List.zip_append (by simp), List.map_map, List.map_map, hwlen]
      have hc : ∀ (x : Rat) (l : List Nat), (l.map ((· - 1) ∘ (· + 1))).zip (List.replicate l.length x) = const x l := by
        intro x l
        induction l with
        | nil => rfl
        | cons c l ih =>
          rw [List.map_cons, List.length_cons, List.replicate_succ, List.zip_cons_cons, ih]
          simp [const]
      rw [hc, hc]
    · congr 1
      rw [← e6]; simp
  · rw [List.map_set, hw, List.length_replicate, hwlen]
    apply List.ext_getElem?
    intro i
    rw [List.getElem?_set]
    by_cases e : n = i
    · subst e; rw [if_pos rfl, if_pos (by simpa using hnl), List.getElem?_map, ho]; rfl
    · rw [if_neg e]

/-- The rows meant: the flow of the first member minus a multiple of the flow of another member. -/
private def meant (first : List Nat) (others : List (List Nat)) (norm : List Rat) : List Entries :=
  (others.zip norm.tail).map fun p => const 1 first ++ const (-p.2) p.1

private theorem rows_good (first : List Nat) (others : List (List Nat)) (norm : List Rat) (hn : others.length + 1 ≤ norm.length) (k n : Nat) (hk : n + k = others.length) (f : Cached) (h : Good first others f) :
    ∃ f', f.rows norm k n = some ((meant first others norm).drop n, f') ∧ Good first others f' := by
  induction k generalizing n f with
  | zero =>
    refine ⟨f, ?_, h⟩
    have : (meant first others norm).drop n = [] := by
      rw [List.drop_eq_nil_iff]; simp [meant]; omega
    rw [this]; rfl
  | succ k ih =>
    have hno : n < others.length := by omega
    obtain ⟨f', hf, hg⟩ := row_good first others f h norm n others[n] norm[n + 1] (List.getElem?_eq_getElem hno) (List.getElem?_eq_getElem (by omega))
    obtain ⟨f'', hf', hg'⟩ := ih (n + 1) (by omega) f' hg
    refine ⟨f'', ?_, hg'⟩
    rw [Cached.rows, hf]
    simp only
    rw [hf']
    simp only [Option.map_some]
    congr 2
    have hl : n < (meant first others norm).length := by simp [meant]; omega
    rw [List.drop_eq_getElem_cons hl]
    congr 1
    simp [meant]

/-- The rows with factors are cached in flat arrays that are partly overwritten in every solve. Whatever factors there were in earlier solves (at least as many as members), the rows handed to GLPK in the next solve are the
ones meant, and no access is outside an array. The columns are those of routes or of edges. Missing: the case of fewer factors than members, in which an array is overrun (`C96_factors_fails`). -/
theorem C96_factors_partial (first : List Nat) (others : List (List Nat)) (norms : List (List Rat)) (norm : List Rat) (hs : ∀ m ∈ norms, others.length + 1 ≤ m.length) (hn : others.length + 1 ≤ norm.length) :
    ∃ f g, (Cached.build first others).solves others.length norms = some f ∧
      f.rows norm others.length 0 = some ((others.zip norm.tail).map fun p => const 1 first ++ const (-p.2) p.1, g) := by
  have key : ∀ (norms : List (List Rat)) (f : Cached), Good first others f → (∀ m ∈ norms, others.length + 1 ≤ m.length) → ∃ f', f.solves others.length norms = some f' ∧ Good first others f' := by
    intro norms
    induction norms with
    | nil => exact fun f h _ => ⟨f, rfl, h⟩
    | cons m ms ih =>
      intro f h hm
      obtain ⟨f', hf, hg⟩ := rows_good first others m (hm m (by simp)) others.length 0 (by omega) f h
      obtain ⟨f'', hf', hg'⟩ := ih f' hg fun q hq => hm q (by simp [hq])
      exact ⟨f'', by rw [Cached.solves, hf]; exact hf', hg'⟩
  obtain ⟨f, hf, hg⟩ := key norms _ (build_good first others) hs
  obtain ⟨g, hg', -⟩ := rows_good first others norm hn others.length 0 (by omega) f hg
  exact ⟨f, g, hf, hg'⟩

private theorem collect_map {α β γ : Type} (f : β → Except Err γ) (g : α → β) (l : List α) : collect f (l.map g) = collect (fun a => f (g a)) l := by
  induction l with
  | nil => rfl
  | cons a l ih =>
    rw [List.map_cons, collect, collect, ih]

example : (∀ m ∈ [[1, 2, 3]], ([[1], [2, 3]] : List (List Nat)).length + 1 ≤ (m : List Rat).length) ∧
    ((Cached.build [0] [[1], [2, 3]]).rows [1, 2, 3] 2 0).map (·.1) = some [[(0, 1), (1, -2)], [(0, 1), (2, -3), (3, -3)]] := ⟨by simp, by decide +kernel⟩

/-- The rows out of the arrays are the factor rows of `Model/Lp.lean`, for routes and for edges, whenever there are as many factors as members, and more than one. -/
theorem C96_factor_rows (d : Data) (g : Graph) (routes : List (List Nat)) (a : AggData) (n0 : Nat) (rest : List Nat) (fs norm : List Rat) (hn : a.nodes = n0 :: rest) (hr : rest ≠ []) (hf : a.factors = some fs)
    (hl : fs.length = a.nodes.length) (hnorm : factorsNorm fs = .ok norm) :
    (∃ s, (Cached.build (colsOf (fun r => r.contains n0) routes) (rest.map fun n => colsOf (fun r => r.contains n) routes)).rows norm rest.length 0 = some s ∧ factorRowsR routes a = collect zeroRow s.1) ∧
    ∃ s, (Cached.build (flowEdges d g n0) (rest.map (flowEdges d g))).rows norm rest.length 0 = some s ∧ factorRowsE d g a = collect zeroRow s.1 := by
  have hlen : norm.length = rest.length + 1 := by
    unfold factorsNorm at hnorm
    split at hnorm
    · cases hnorm
    · cases hnorm; simp [hl, hn]
  constructor
  · obtain ⟨f, s, h1, h2⟩ := C96_factors_partial (colsOf (fun r => r.contains n0) routes) (rest.map fun n => colsOf (fun r => r.contains n) routes) [] norm (by simp) (by simp [hlen])
    cases h1
    refine ⟨_, by rw [List.length_map] at h2; exact h2, ?_⟩
    unfold factorRowsR
    simp only [hf, hnorm, hn, hr, if_false]
    rw [List.zip_map_left, List.map_map, collect_map]
    rfl
  · obtain ⟨f, s, h1, h2⟩ := C96_factors_partial (flowEdges d g n0) (rest.map (flowEdges d g)) [] norm (by simp) (by simp [hlen])
    cases h1
    refine ⟨_, by rw [List.length_map] at h2; exact h2, ?_⟩
    unfold factorRowsE
    simp only [hf, hnorm, hn, hr, if_false]
    rw [List.zip_map_left, List.map_map, collect_map]
    rfl

/-- With fewer factors than members (which nothing prevents) the solver reads beyond the end of the array of factors, unchecked: here for the first member without factor, if it has a column at all. -/
theorem C96_factors_fails (first : List Nat) (others : List (List Nat)) (norm : List Rat) (n : Nat) (o : List Nat) (ho : others[n]? = some o) (hne : o ≠ []) (hs : norm.length = n + 1) :
    (Cached.build first others).row norm n = none := by
  have hnl : n < others.length := (List.getElem?_eq_some_iff.1 ho).1
  obtain ⟨-, -, hp⟩ := flat_spec (blocks first others)
  have hb : (blocks first others)[n]? = some ((0 :: first.map (· + 1)) ++ o.map (· + 1)) := by unfold blocks; rw [List.getElem?_map, ho]; rfl
  have hbl : (blocks first others).length = others.length := by simp [blocks]
  obtain ⟨h1, h2, h3, -⟩ := build_good first others
  unfold Cached.row
  rw [h2, hp n (by omega), hp (n + 1) (by omega)]
  simp only
  rw [take_succ_flatten _ _ _ hb, List.length_append, Nat.add_sub_cancel_left, h1]
  have e1 : ((0 :: first.map (· + 1)) ++ o.map (· + 1)).length - (first.length + 1) = (o.length - 1) + 1 := by
    have : 0 < o.length := List.length_pos_of_ne_nil hne
    simp; omega
  rw [e1, writeFactor, List.getElem?_eq_none (by omega)]

example : ([[1], [2]] : List (List Nat))[1]? = some [2] ∧ ([2] : List Nat) ≠ [] ∧ ([1, 1 / 2] : List Rat).length = 1 + 1 := ⟨rfl, by decide, rfl⟩

/-! ## Flows -/

private theorem addRoute_some (d : Data) (id : Nat → Nat) (flow : Rat) (length m : Nat) (r : List Nat) (a : List Rat) (h : ∀ n ∈ r, id n < a.length) :
    ∃ b, addRoute d id flow length m r a = some b ∧ b.length = a.length ∧
      ∀ j, b.getD j 0 = a.getD j 0 + ((r.zipIdx m).map fun p => if id p.1 = j ∧ (p.2 = 0 ∨ p.2 = length - 1 ∨ d.kind p.1 = .link) then flow else 0).sum := by
  induction r generalizing m a with
  | nil => exact ⟨a, rfl, rfl, fun j => by simp⟩
  | cons n r ih =>
    rw [addRoute]
    by_cases hc : m = 0 ∨ m = length - 1 ∨ d.kind n = .link
    · rw [if_pos hc]
      obtain ⟨b, hb, hl, hg⟩ := add_some a (id n) flow (h n (by simp))
      obtain ⟨b', hb', hl', hg'⟩ := ih (m + 1) b fun k hk => by rw [hl]; exact h k (by simp [hk])
      refine ⟨b', by rw [hb]; exact hb', hl'.trans hl, fun j => ?_⟩
      rw [hg', hg, List.zipIdx_cons, List.map_cons, List.sum_cons]
      by_cases e : id n = j
      · rw [if_pos e.symm, if_pos ⟨e, hc⟩]; ring
      · rw [if_neg (fun x => e x.symm), if_neg (fun x => e x.1)]; ring
    · rw [if_neg hc]
      obtain ⟨b', hb', hl', hg'⟩ := ih (m + 1) a fun k hk => h k (by simp [hk])
      refine ⟨b', hb', hl', fun j => ?_⟩
      rw [hg', List.zipIdx_cons, List.map_cons, List.sum_cons, if_neg (fun x => hc x.2), zero_add]

private theorem addRoutes_some (d : Data) (id : Nat → Nat) (x : List Rat) (c : Nat) (rs : List (List Nat)) (a : List Rat) (hx : c + rs.length ≤ x.length) (h : ∀ r ∈ rs, ∀ n ∈ r, id n < a.length) :
    ∃ b, addRoutes d id x c rs a = some b ∧ b.length = a.length ∧
      ∀ j, b.getD j 0 = a.getD j 0 + ((rs.zipIdx c).map fun q => if x.getD q.2 0 = 0 then 0 else
        ((q.1.zipIdx).map fun p => if id p.1 = j ∧ (p.2 = 0 ∨ p.2 = q.1.length - 1 ∨ d.kind p.1 = .link) then x.getD q.2 0 else 0).sum).sum := by
  induction rs generalizing c a with
  | nil => exact ⟨a, rfl, rfl, fun j => by simp⟩
  | cons r rs ih =>
    rw [List.length_cons] at hx
    rw [addRoutes, getElem?_of_getD (by omega : c < x.length)]
    simp only
    by_cases hz : x.getD c 0 = 0
    · rw [if_pos hz]
      obtain ⟨b, hb, hl, hg⟩ := ih (c + 1) a (by omega) fun q hq => h q (by simp [hq])
      refine ⟨b, hb, hl, fun j => ?_⟩
      rw [hg, List.zipIdx_cons, List.map_cons, List.sum_cons, if_pos hz, zero_add]
    · rw [if_neg hz]
      obtain ⟨b, hb, hl, hg⟩ := addRoute_some d id (x.getD c 0) r.length 0 r a (h r (by simp))
      obtain ⟨b', hb', hl', hg'⟩ := ih (c + 1) b (by omega) fun q hq n hn => by rw [hl]; exact h q (by simp [hq]) n hn
      refine ⟨b', by rw [hb]; exact hb', hl'.trans hl, fun j => ?_⟩
      rw [hg', hg, List.zipIdx_cons, List.map_cons, List.sum_cons, if_neg hz]
      ring

/-- After a solve the route solver collects, in an array set to zero, exactly the flow of every node, all within bounds. -/
theorem C96_route_flows (d : Data) (routes : List (List Nat)) (hr : ∀ r ∈ routes, ∀ n ∈ r, n ∈ d.nodes) (x : List Rat) (hx : x.length = routes.length) :
    ∃ a, addRoutes d d.nodes.idxOf x 0 routes (List.replicate d.nodes.length 0) = some a ∧ a.length = d.nodes.length ∧ ∀ n ∈ d.nodes, a[d.nodes.idxOf n]? = some (routeNodeFlow d routes x n) := by
  obtain ⟨b, hb, hl, hg⟩ := addRoutes_some d d.nodes.idxOf x 0 routes (List.replicate d.nodes.length 0) (by omega)
    (fun r hrr n hn => by rw [List.length_replicate]; exact List.idxOf_lt_length_iff.2 (hr r hrr n hn))
  have hl' : b.length = d.nodes.length := by simpa using hl
  refine ⟨b, hb, hl', fun n hn => ?_⟩
  have hlt := List.idxOf_lt_length_iff.2 hn
  rw [getElem?_of_getD (by rw [hl']; exact hlt), hg]
  have h0 : (List.replicate d.nodes.length (0 : Rat)).getD (d.nodes.idxOf n) 0 = 0 := by simp
  rw [h0, zero_add]
  unfold routeNodeFlow
  congr 2
  apply List.map_congr_left
  intro q hq
  simp only
  split
  · rfl
  · congr 1
    apply List.map_congr_left
    intro p hp
    have hp' : p.1 ∈ q.1 := List.mem_iff_getElem?.2 ⟨p.2, List.mem_zipIdx_iff_getElem?.1 hp⟩
    have hq' : q.1 ∈ routes := List.mem_iff_getElem?.2 ⟨q.2, List.mem_zipIdx_iff_getElem?.1 hq⟩
    have : d.nodes.idxOf p.1 = d.nodes.idxOf n ↔ p.1 = n := List.idxOf_inj (hr q.1 hq' p.1 hp')
    simp only [this]

private theorem addEdges_some (d : Data) (id : Nat → Nat) (y : List Rat) (c : Nat) (es : List (Nat × Nat)) (a : List Rat) (hy : c + es.length ≤ y.length)
    (h : ∀ e ∈ es, id e.1 < a.length ∧ id e.2 < a.length) :
    ∃ b, addEdges d id y c es a = some b ∧ b.length = a.length ∧
      ∀ j, b.getD j 0 = a.getD j 0 + ((es.zipIdx c).map fun q => if y.getD q.2 0 = 0 then 0 else
        (if id q.1.1 = j then (if d.kind q.1.1 = .link then y.getD q.2 0 / 2 else y.getD q.2 0) else 0) +
        (if id q.1.2 = j then (if d.kind q.1.2 = .link then y.getD q.2 0 / 2 else y.getD q.2 0) else 0)).sum := by
  induction es generalizing c a with
  | nil => exact ⟨a, rfl, rfl, fun j => by simp⟩
  | cons e es ih =>
    rw [List.length_cons] at hy
    rw [addEdges, getElem?_of_getD (by omega : c < y.length)]
    simp only
    by_cases hz : y.getD c 0 = 0
    · rw [if_pos hz]
      obtain ⟨b, hb, hl, hg⟩ := ih (c + 1) a (by omega) fun q hq => h q (by simp [hq])
      refine ⟨b, hb, hl, fun j => ?_⟩
      rw [hg, List.zipIdx_cons, List.map_cons, List.sum_cons, if_pos hz, zero_add]
    · rw [if_neg hz]
      obtain ⟨b, hb, hl, hg⟩ := add_some a (id e.1) (if d.kind e.1 = .link then y.getD c 0 / 2 else y.getD c 0) (h e (by simp)).1
      obtain ⟨b', hb', hl', hg'⟩ := add_some b (id e.2) (if d.kind e.2 = .link then y.getD c 0 / 2 else y.getD c 0) (by rw [hl]; exact (h e (by simp)).2)
      obtain ⟨b'', hb'', hl'', hg''⟩ := ih (c + 1) b' (by omega) fun q hq => by rw [hl', hl]; exact h q (by simp [hq])
      refine ⟨b'', by rw [hb]; simp only; rw [hb']; exact hb'', by rw [hl'', hl', hl], fun j => ?_⟩
      rw [hg'', hg', hg, List.zipIdx_cons, List.map_cons, List.sum_cons, if_neg hz]
      simp only [eq_comm (a := j)]
      ring

/-- The same for the edge solver. -/
theorem C96_edge_flows (d : Data) (g : Graph) (hr : ∀ e ∈ g.edges, e.1 ∈ d.nodes ∧ e.2 ∈ d.nodes) (y : List Rat) (hy : y.length = g.edges.length) :
    ∃ a, addEdges d d.nodes.idxOf y 0 g.edges (List.replicate d.nodes.length 0) = some a ∧ a.length = d.nodes.length ∧ ∀ n ∈ d.nodes, a[d.nodes.idxOf n]? = some (edgeNodeFlow d g y n) := by
  obtain ⟨b, hb, hl, hg⟩ := addEdges_some d d.nodes.idxOf y 0 g.edges (List.replicate d.nodes.length 0) (by omega)
    (fun e he => by rw [List.length_replicate]; exact ⟨List.idxOf_lt_length_iff.2 (hr e he).1, List.idxOf_lt_length_iff.2 (hr e he).2⟩)
  have hl' : b.length = d.nodes.length := by simpa using hl
  refine ⟨b, hb, hl', fun n hn => ?_⟩
  have hlt := List.idxOf_lt_length_iff.2 hn
  rw [getElem?_of_getD (by rw [hl']; exact hlt), hg]
  have h0 : (List.replicate d.nodes.length (0 : Rat)).getD (d.nodes.idxOf n) 0 = 0 := by simp
  rw [h0, zero_add]
  unfold edgeNodeFlow
  congr 2
  apply List.map_congr_left
  intro q hq
  have hq' : q.1 ∈ g.edges := List.mem_iff_getElem?.2 ⟨q.2, List.mem_zipIdx_iff_getElem?.1 hq⟩
  have e1 : d.nodes.idxOf q.1.1 = d.nodes.idxOf n ↔ q.1.1 = n := List.idxOf_inj (hr _ hq').1
  have e2 : d.nodes.idxOf q.1.2 = d.nodes.idxOf n ↔ q.1.2 = n := List.idxOf_inj (hr _ hq').2
  simp only [e1, e2]

/-- An input, a link and an output in a row. -/
private def small : Data where
  kind n := if n = 0 then .input else if n = 1 then .link else .output
  nodes := [2, 0, 1]
  minFlow _ := .fin 0
  maxFlow _ := .posInf
  cost n := n + 1
  storages := []
  virtuals := []
  aggs := []
  cross := []
  days := 1

example : (∀ r ∈ [[0, 1, 2], [0, 2]], ∀ n ∈ r, n ∈ small.nodes) ∧ ([1] ++ [2, 0]).Perm small.nodes ∧ (∀ e ∈ [(0, 1), (1, 2)], e.1 ∈ small.nodes ∧ e.2 ∈ small.nodes) := by
  refine ⟨by decide, by decide, by decide⟩

example : (addRoutes small small.nodes.idxOf [3, 4] 0 [[0, 1, 2], [0, 2]] [0, 0, 0]) = some [7, 7, 3] := by decide +kernel

/-! ## Dictionaries -/

private theorem find_set (m : Entries) (c j : Nat) (w : Rat) : (dictSet m c w).find? (fun p => p.1 == j) = if j = c then some (c, w) else m.find? fun p => p.1 == j := by
  unfold dictSet
  by_cases ha : m.any (fun p => p.1 == c) = true
  · rw [if_pos ha]
    induction m with
    | nil => simp at ha
    | cons p m ih =>
      rw [List.map_cons, List.find?_cons]
      by_cases hp : p.1 = c
      · rw [if_pos hp]
        by_cases hj : j = c
        · subst hj; simp
        · rw [if_neg hj, List.find?_cons]
          have h1 : ((c, w).1 == j) = false := by simpa using fun e => hj e.symm
          have h2 : (p.1 == j) = false := by rw [hp]; simpa using fun e => hj e.symm
          simp only [h1, h2]
          by_cases hm : m.any (fun p => p.1 == c) = true
          · rw [ih hm, if_neg hj]
          · congr 1
            conv_rhs => rw [← List.map_id m]
            apply List.map_congr_left
            intro q hq
            rw [if_neg]; · rfl
            intro e
            exact hm (List.any_eq_true.2 ⟨q, hq, by simpa using e⟩)
      · rw [if_neg hp]
        have hm : m.any (fun p => p.1 == c) = true := by
          rw [List.any_cons] at ha
          have : (p.1 == c) = false := by simpa using hp
          rw [this, Bool.false_or] at ha
          exact ha
        rw [List.find?_cons, ih hm]
        by_cases hj : j = c
        · subst hj
          have : (p.1 == j) = false := by simpa using hp
          simp [this]
        · rw [if_neg hj, if_neg hj]
  · rw [if_neg ha, List.find?_append]
    by_cases hj : j = c
    · subst hj
      rw [if_pos rfl]
      have : m.find? (fun p => p.1 == j) = none := by
        rw [List.find?_eq_none]
        intro q hq hb
        exact ha (List.any_eq_true.2 ⟨q, hq, hb⟩)
      rw [this]; simp
    · rw [if_neg hj]
      have : [(c, w)].find? (fun p => p.1 == j) = none := by
        have h1 : (c == j) = false := by simpa using fun e => hj e.symm
        simp [h1]
      rw [this]; simp

private theorem dictAdd_eq (m : Entries) (c : Nat) (f : Rat) (h : (m.map (·.1)).Nodup) : dictAdd m c f = dictSet m c ((((m.find? fun p => p.1 == c).map (·.2)).getD 0) + f) := by
  unfold dictAdd dictSet
  by_cases ha : m.any (fun p => p.1 == c) = true
  · rw [if_pos ha, if_pos ha]
    apply List.map_congr_left
    intro q hq
    by_cases hqc : q.1 = c
    · rw [if_pos hqc, if_pos hqc]
      have : m.find? (fun p => p.1 == c) = some q := by
        cases hf : m.find? (fun p => p.1 == c) with
        | none => rw [List.find?_eq_none] at hf; exact absurd (by simpa using hqc) (hf q hq)
        | some r =>
          have h1 := List.mem_of_find?_eq_some hf
          have h2 := List.find?_some hf
          rw [beq_iff_eq] at h2
          rw [List.inj_on_of_nodup_map h h1 hq (h2.trans hqc.symm)]
      rw [this]; rfl
    · rw [if_neg hqc, if_neg hqc]
  · rw [if_neg ha, if_neg ha]
    have : m.find? (fun p => p.1 == c) = none := by
      rw [List.find?_eq_none]
      intro q hq hb
      exact ha (List.any_eq_true.2 ⟨q, hq, hb⟩)
    rw [this]
    simp

private theorem nodup_set (m : Entries) (c : Nat) (w : Rat) (h : (m.map (·.1)).Nodup) : ((dictSet m c w).map (·.1)).Nodup := by
  unfold dictSet
  split
  · have : (m.map fun p => if p.1 = c then (c, w) else p).map (·.1) = m.map (·.1) := by
      rw [List.map_map]
      apply List.map_congr_left
      intro p _
      by_cases e : p.1 = c <;> simp [e]
    rw [this]; exact h
  · rename_i ha
    rw [List.map_append, List.nodup_append]
    refine ⟨h, by simp, fun a ha' b hb => ?_⟩
    simp only [List.map_cons, List.map_nil, List.mem_cons, List.not_mem_nil, or_false] at hb
    subst hb
    rintro rfl
    obtain ⟨q, hq, e⟩ := List.mem_map.1 ha'
    exact ha (List.any_eq_true.2 ⟨q, hq, by simpa using e⟩)

private theorem colsOf_mem {α : Type} (p : α → Bool) (l : List α) (c : Nat) : c ∈ colsOf p l ↔ ∃ a, l[c]? = some a ∧ p a = true := by
  unfold colsOf
  rw [List.mem_filterMap]
  constructor
  · rintro ⟨q, hq, he⟩
    split at he
    · cases he; exact ⟨q.1, List.mem_zipIdx_iff_getElem?.1 hq, by assumption⟩
    · cases he
  · rintro ⟨a, ha, hp⟩
    exact ⟨(a, c), List.mem_zipIdx_iff_getElem?.2 ha, by simp [hp]⟩

private theorem colsOf_nodup {α : Type} (p : α → Bool) (l : List α) : (colsOf p l).Nodup := by
  have : ∀ k, ((l.zipIdx k).filterMap fun q => if p q.1 then some q.2 else none).Sublist (List.range' k l.length) := by
    induction l with
    | nil => intro k; simp
    | cons a l ih =>
      intro k
      rw [List.zipIdx_cons, List.filterMap_cons, List.length_cons, List.range'_succ]
      split
      · exact (ih (k + 1)).cons _
      · rename_i h
        simp only at h
        split at h
        · cases h; exact (ih (k + 1)).cons_cons _
        · cases h
  exact (this 0).nodup List.nodup_range'

private theorem weightDict_find (cols : Nat → List Nat) (members : List (Nat × Rat)) (c : Nat) :
    (weightDict cols members).find? (fun p => p.1 == c) = ((members.filter fun p => (cols p.1).contains c).getLast?).map fun p => (c, p.2) := by
  have inner : ∀ (w : Rat) (cs : List Nat) (m : Entries), (cs.foldl (fun m c => dictSet m c w) m).find? (fun p => p.1 == c) = if c ∈ cs then some (c, w) else m.find? fun p => p.1 == c := by
    intro w cs
    induction cs with
    | nil => intro m; simp
    | cons k cs ih =>
      intro m
      rw [List.foldl_cons, ih, find_set]
      by_cases h1 : c ∈ cs
      · simp [h1]
      · by_cases h2 : c = k <;> simp [h1, h2]
  have outer : ∀ (members : List (Nat × Rat)) (m : Entries), (members.foldl (fun m p => (cols p.1).foldl (fun m c => dictSet m c p.2) m) m).find? (fun p => p.1 == c) =
      (((members.filter fun p => (cols p.1).contains c).getLast?).map fun p => (c, p.2)).or (m.find? fun p => p.1 == c) := by
    intro members
    induction members with
    | nil => intro m; simp
    | cons p ps ih =>
      intro m
      rw [List.foldl_cons, ih, inner, List.filter_cons]
      by_cases h : (cols p.1).contains c = true
      · rw [if_pos h, if_pos (by simpa using h), List.getLast?_cons]
        cases (ps.filter fun p => (cols p.1).contains c).getLast? <;> simp
      · rw [if_neg h, if_neg (by simpa using h)]
  unfold weightDict
  rw [outer]
  simp

/-- The dictionary of weights, read in sorted order, gives the entries of the aggregated node's row as stated in `Model/Lp.lean`: of several members on a column the last one's weight. -/
theorem C96_weights (d : Data) (g : Graph) (routes : List (List Nat)) (a : AggData) :
    aggRowR routes a = limitRow (sortedEntries routes.length (weightDict (fun n => colsOf (fun r => r.contains n) routes) (a.nodes.zip a.weightList))) a.minFlow a.maxFlow ∧
    aggRowE d g a = limitRow (sortedEntries g.edges.length (weightDict (flowEdges d g) (a.nodes.zip a.weightList))) a.minFlow a.maxFlow := by
  constructor
  · unfold aggRowR
    congr 1
    unfold sortedEntries lastWeight
    have hz : routes.zipIdx = (List.range routes.length).map fun c => (routes.getD c [], c) := by
      apply List.ext_getElem?
      intro i
      rw [List.getElem?_zipIdx, List.getElem?_map]
      by_cases hi : i < routes.length
      · rw [List.getElem?_eq_getElem hi, List.getElem?_range hi]; simp [hi]
      · rw [List.getElem?_eq_none (by omega), List.getElem?_eq_none (by simpa using hi)]; rfl
    rw [hz, List.filterMap_map]
    apply List.filterMap_congr
    intro c hc
    rw [weightDict_find]
    have hc' : c < routes.length := List.mem_range.1 hc
    have : ∀ n, (colsOf (fun r => r.contains n) routes).contains c = (routes.getD c []).contains n := by
      intro n
      rw [Bool.eq_iff_iff, List.contains_iff_mem, colsOf_mem]
      rw [List.getD_eq_getElem _ _ hc', List.getElem?_eq_getElem hc']
      exact ⟨fun ⟨a, h1, h2⟩ => (by cases h1; exact h2), fun h => ⟨_, rfl, h⟩⟩
    simp only [Function.comp_apply, this, Option.map_map]
    rfl
  · unfold aggRowE
    congr 1
    unfold sortedEntries lastWeight
    apply List.filterMap_congr
    intro c hc
    rw [weightDict_find]
    simp only [Option.map_map]
    rfl

private theorem factorDict_find (c : Nat) (terms : List (Nat × Rat)) :
    ((factorDict terms).map (·.1)).Nodup ∧ (factorDict terms).find? (fun p => p.1 == c) =
      if (terms.filter fun t => t.1 == c) = [] then none else some (c, ((terms.filter fun t => t.1 == c).map (·.2)).sum) := by
  have key : ∀ (terms : List (Nat × Rat)) (m : Entries), (m.map (·.1)).Nodup →
      ((terms.foldl (fun m t => dictAdd m t.1 t.2) m).map (·.1)).Nodup ∧ (terms.foldl (fun m t => dictAdd m t.1 t.2) m).find? (fun p => p.1 == c) =
        if (terms.filter fun t => t.1 == c) = [] then m.find? (fun p => p.1 == c) else
          some (c, ((m.find? fun p => p.1 == c).map (·.2)).getD 0 + ((terms.filter fun t => t.1 == c).map (·.2)).sum) := by
    intro terms
    induction terms with
    | nil => intro m hm; exact ⟨hm, by simp⟩
    | cons t ts ih =>
      intro m hm
      rw [List.foldl_cons, dictAdd_eq m t.1 t.2 hm]
      obtain ⟨h1, h2⟩ := ih (dictSet m t.1 _) (nodup_set m t.1 (((m.find? fun p => p.1 == t.1).map (·.2)).getD 0 + t.2) hm)
      refine ⟨h1, ?_⟩
      rw [h2, find_set, List.filter_cons]
      by_cases e : c = t.1
      · subst e
        rw [if_pos rfl]
        simp only [beq_self_eq_true, if_true, Option.map_some, Option.getD_some, List.map_cons, List.sum_cons, reduceCtorEq, if_false]
        split
        · rename_i h; rw [h]; simp
        · rw [add_assoc]
      · have e' : (t.1 == c) = false := by simpa using fun x => e x.symm
        rw [if_neg e, e']
        simp only [Bool.false_eq_true, if_false]
  obtain ⟨h1, h2⟩ := key terms [] (by simp)
  refine ⟨h1, ?_⟩
  unfold factorDict
  rw [h2]
  simp

private theorem mem_iff_find {m : Entries} (h : (m.map (·.1)).Nodup) (c : Nat) (v : Rat) : (c, v) ∈ m ↔ m.find? (fun p => p.1 == c) = some (c, v) := by
  constructor
  · intro hm
    cases hf : m.find? (fun p => p.1 == c) with
    | none => rw [List.find?_eq_none] at hf; exact absurd (by simp) (hf _ hm)
    | some r =>
      have h1 := List.mem_of_find?_eq_some hf
      have h2 := List.find?_some hf
      rw [beq_iff_eq] at h2
      rw [List.inj_on_of_nodup_map h h1 hm h2]
  · exact fun hf => List.mem_of_find?_eq_some hf

private theorem perm_of_find {m : Entries} (h : (m.map (·.1)).Nodup) (ncols : Nat) (s : Nat → List Rat) (hlt : ∀ c, s c ≠ [] → c < ncols)
    (hf : ∀ c, m.find? (fun p => p.1 == c) = if s c = [] then none else some (c, (s c).sum)) :
    (m.map fun p => (p.1, -p.2)).Perm ((List.range ncols).filterMap fun c => if s c = [] then none else some (c, -(s c).sum)) := by
  have hm : m.Perm ((List.range ncols).filterMap fun c => if s c = [] then none else some (c, (s c).sum)) := by
    have hsub : ∀ l : List Nat, ((l.filterMap fun c => if s c = [] then none else some (c, (s c).sum)).map (·.1)).Sublist l := by
      intro l
      induction l with
      | nil => simp
      | cons c l ih =>
        rw [List.filterMap_cons]
        by_cases e : s c = []
        · rw [if_pos e]; exact ih.cons _
        · rw [if_neg e]; exact ih.cons_cons _
    rw [List.perm_ext_iff_of_nodup (List.Nodup.of_map _ h) (List.Nodup.of_map _ ((hsub _).nodup List.nodup_range))]
    rintro ⟨c, v⟩
    rw [mem_iff_find h, hf, List.mem_filterMap]
    constructor
    · intro e
      by_cases hs : s c = []
      · rw [if_pos hs] at e; cases e
      · exact ⟨c, List.mem_range.2 (hlt c hs), e⟩
    · rintro ⟨k, hk, e⟩
      by_cases hs : s k = []
      · rw [if_pos hs] at e; cases e
      · rw [if_neg hs] at e; cases e; rw [if_neg hs]
  have := hm.map fun p : Nat × Rat => (p.1, -p.2)
  rw [List.map_filterMap] at this
  convert this using 2
  rename_i c _
  by_cases hs : s c = [] <;> simp [hs]

private theorem virtualRowR_range (v : VirtualData) (routes : List (List Nat)) :
    (routes.zipIdx.filterMap fun q => if routeFactors v q.1 = [] then none else some (q.2, -(routeFactors v q.1).sum)) =
      (List.range routes.length).filterMap fun c => if routeFactors v (routes.getD c []) = [] then none else some (c, -(routeFactors v (routes.getD c [])).sum) := by
  have hz : routes.zipIdx = (List.range routes.length).map fun c => (routes.getD c [], c) := by
    apply List.ext_getElem?
    intro i
    rw [List.getElem?_zipIdx, List.getElem?_map]
    by_cases hi : i < routes.length
    · rw [List.getElem?_eq_getElem hi, List.getElem?_range hi]; simp [hi]
    · rw [List.getElem?_eq_none (by omega), List.getElem?_eq_none (by simpa using hi)]; rfl
  rw [hz, List.filterMap_map]
  rfl

/-- The dictionary of a virtual storage's row holds, up to the order of the columns, the entries stated in `Model/Lp.lean`: for every route (or edge) the sum of the factors met on it. -/
theorem C96_virtual (d : Data) (g : Graph) (routes : List (List Nat)) (v : VirtualData) :
    ((factorDict (routeTerms v routes)).map fun p => (p.1, -p.2)).Perm (routes.zipIdx.filterMap fun q => if routeFactors v q.1 = [] then none else some (q.2, -(routeFactors v q.1).sum)) ∧
    ((factorDict (edgeTerms d g v)).map fun p => (p.1, -p.2)).Perm ((List.range g.edges.length).filterMap fun c => if edgeFactors d g v c = [] then none else some (c, -(edgeFactors d g v c).sum)) := by
  constructor
  · rw [virtualRowR_range]
    have hfil : ∀ c, ((routeTerms v routes).filter fun t => t.1 == c) = (routeFactors v (routes.getD c [])).map fun f => (c, f) := by
      intro c
      have : ∀ (rs : List (List Nat)) (k : Nat), (((rs.zipIdx k).flatMap fun q => (routeFactors v q.1).map fun f => (q.2, f)).filter fun t => t.1 == c) =
          if c < k then [] else (routeFactors v (rs.getD (c - k) [])).map fun f => (c, f) := by
        intro rs
        induction rs with
        | nil => intro k; simp [routeFactors]
        | cons r rs ih =>
          intro k
          rw [List.zipIdx_cons, List.flatMap_cons, List.filter_append, ih]
          by_cases e : c = k
          · subst e
            rw [if_pos (by omega), if_neg (by omega), Nat.sub_self]
            simp
          · have : (((routeFactors v r).map fun f => (k, f)).filter fun t => t.1 == c) = [] := by
              rw [List.filter_eq_nil_iff]
              intro t ht
              obtain ⟨f, -, rfl⟩ := List.mem_map.1 ht
              simpa using fun x => e x.symm
            rw [this, List.nil_append]
            by_cases hk : c < k
            · rw [if_pos (by omega), if_pos hk]
            · rw [if_neg (by omega), if_neg hk]
              have : c - k = (c - (k + 1)) + 1 := by omega
              rw [this]; rfl
      have := this routes 0
      rw [if_neg (by omega), Nat.sub_zero] at this
      exact this
    refine perm_of_find (factorDict_find 0 _).1 _ (fun c => routeFactors v (routes.getD c [])) ?_ ?_
    · intro c hc
      by_contra hlt
      exact hc (by rw [List.getD_eq_default _ _ (by omega)]; rfl)
    · intro c
      rw [(factorDict_find c _).2, hfil]
      by_cases hs : routeFactors v (routes.getD c []) = []
      · rw [if_pos (by simpa using hs), if_pos hs]
      · rw [if_neg (by simpa using hs), if_neg hs]
        simp [Function.comp_def]
  · have hnd : ∀ n, (flowEdges d g n).Nodup := by
      intro n
      unfold flowEdges
      split
      · exact colsOf_nodup _ _
      · exact colsOf_nodup _ _
    have hlt : ∀ n c, c ∈ flowEdges d g n → c < g.edges.length := by
      intro n c
      unfold flowEdges
      split
      · exact inEdges_lt g n c
      · exact outEdges_lt g n c
    have hfil : ∀ c, ((edgeTerms d g v).filter fun t => t.1 == c) = (edgeFactors d g v c).map fun f => (c, f) := by
      intro c
      unfold edgeTerms edgeFactors
      generalize v.nodes.zip v.factors = l
      induction l with
      | nil => rfl
      | cons p l ih =>
        rw [List.flatMap_cons, List.filter_append, ih, List.filter_cons]
        have hone : (((flowEdges d g p.1).map fun k => (k, p.2)).filter fun t => t.1 == c) = if (flowEdges d g p.1).contains c then [(c, p.2)] else [] := by
          rw [List.filter_map]
          have hcomp : ((fun t : Nat × Rat => t.1 == c) ∘ fun k => (k, p.2)) = fun k => k == c := rfl
          rw [hcomp]
          have := hnd p.1
          generalize flowEdges d g p.1 = cs at this
          induction cs with
          | nil => rfl
          | cons k cs ih' =>
            rw [List.nodup_cons] at this
            rw [List.filter_cons]
            by_cases e : k = c
            · subst e
              have hempty : cs.filter (fun j => j == k) = [] := by
                rw [List.filter_eq_nil_iff]
                intro j hj hb
                rw [beq_iff_eq] at hb
                exact this.1 (hb ▸ hj)
              rw [if_pos (by simp), hempty, if_pos (by simp)]
              rfl
            · rw [if_neg (by simpa using e), ih' this.2]
              have : ((k :: cs).contains c) = cs.contains c := by
                rw [List.contains_cons]
                have : (c == k) = false := by simpa using fun x => e x.symm
                rw [this, Bool.false_or]
              rw [this]
        rw [hone]
        split <;> simp
    refine perm_of_find (factorDict_find 0 _).1 _ (fun c => edgeFactors d g v c) ?_ ?_
    · intro c hc
      obtain ⟨f, hf⟩ := List.exists_mem_of_ne_nil _ hc
      unfold edgeFactors at hf
      obtain ⟨p, hp, -⟩ := List.mem_map.1 hf
      exact hlt p.1 c (by simpa using (List.mem_filter.1 hp).2)
    · intro c
      rw [(factorDict_find c _).2, hfil]
      by_cases hs : edgeFactors d g v c = []
      · rw [if_pos (by simpa using hs), if_pos hs]
      · rw [if_neg (by simpa using hs), if_neg hs]
        simp [Function.comp_def]

/-! ## Memory -/

/-- Rows written with `(1 + n) * size` bytes fit: the last entry ends where the memory ends. -/
theorem C96_memory (n size i : Nat) (hi : i < n) : written i size ≤ allocated n size := by
  unfold written allocated
  exact Nat.mul_le_mul_right _ (by omega)

/-- For the row of an aggregated node too little memory is asked for, whatever the number of columns: all but one byte of the last entry (of four or eight bytes) is written beyond its end. -/
theorem C96_memory_fails (n size : Nat) (hn : 1 ≤ n) (hs : 2 ≤ size) : allocatedAgg n size < written (n - 1) size ∧ allocatedAgg n size + (size - 1) = written (n - 1) size := by
  unfold written allocatedAgg
  have : 1 + (n - 1) + 1 = n + 1 := by omega
  rw [this, Nat.add_mul]
  omega

end Verif.SolverArrays

import Verif.Spec.Coupled
import Verif.Props.MultiRun
import Verif.Props.Scenarios
import Mathlib.Data.List.Nodup
import Mathlib.Data.List.TakeWhile

/-! # C69: what coupled models see of each other -/

namespace Verif.Coupled

open Verif.Run Verif.Timestepper Verif.Scenarios

variable {W Freq Data : Type}

/-! ## The order of the calls -/

private theorem flatMap_split {α β : Type} (f : α → List β) (y : β) : ∀ (xs : List α) (pre post : List β),
    xs.flatMap f = pre ++ y :: post → ∃ xs1 x xs2 p q, xs = xs1 ++ x :: xs2 ∧ pre = xs1.flatMap f ++ p ∧
      f x = p ++ y :: q := by
  intro xs
  induction xs with
  | nil => intro pre post h; simp at h
  | cons x xs ih =>
    intro pre post h
    rw [List.flatMap_cons, List.append_eq_append_iff] at h
    rcases h with ⟨as, h1, h2⟩ | ⟨bs, h1, h2⟩
    · obtain ⟨xs1, x', xs2, p, q, rfl, rfl, h⟩ := ih as post h2
      exact ⟨x :: xs1, x', xs2, p, q, rfl, by rw [h1, List.flatMap_cons, List.append_assoc], h⟩
    · cases bs with
      | nil =>
        simp only [List.nil_append] at h2
        simp only [List.append_nil] at h1
        obtain ⟨xs1, x', xs2, p, q, rfl, hp, h⟩ := ih [] post h2.symm
        refine ⟨x :: xs1, x', xs2, p, q, rfl, ?_, h⟩
        rw [List.flatMap_cons, List.append_assoc, ← hp, List.append_nil, h1]
      | cons b bs =>
        simp only [List.cons_append, List.cons.injEq] at h2
        obtain ⟨rfl, -⟩ := h2
        exact ⟨[], x, xs, pre, bs, rfl, by simp, h1⟩

private theorem filter_tag_same (id : Nat) (cs : List Call) :
    (tag id cs).filter (fun p => p.1 = id) = tag id cs := by
  apply List.filter_eq_self.2
  intro p hp
  obtain ⟨c, -, rfl⟩ := List.mem_map.1 hp
  simp

private theorem filter_tag_other {id id' : Nat} (h : id' ≠ id) (cs : List Call) :
    (tag id' cs).filter (fun p => p.1 = id) = [] := by
  apply List.filter_eq_nil_iff.2
  intro p hp
  obtain ⟨c, -, rfl⟩ := List.mem_map.1 hp
  simpa using h

private theorem filter_none (id : Nat) (f : Run.Sub Freq → List Call) : ∀ l : List (Run.Sub Freq),
    (∀ s ∈ l, s.m.id ≠ id) → (l.flatMap fun s => tag s.m.id (f s)).filter (fun p => p.1 = id) = [] := by
  intro l
  induction l with
  | nil => intro _; rfl
  | cons s l ih =>
    intro h
    rw [List.flatMap_cons, List.filter_append, filter_tag_other (h s List.mem_cons_self),
      ih fun s hs => h s (List.mem_cons_of_mem _ hs)]
    rfl

private theorem filter_one {l1 l2 : List (Run.Sub Freq)} {s : Run.Sub Freq}
    (hn : ((l1 ++ s :: l2).map fun s => s.m.id).Nodup) (f : Run.Sub Freq → List Call) :
    ((l1 ++ s :: l2).flatMap fun s => tag s.m.id (f s)).filter (fun p => p.1 = s.m.id) = tag s.m.id (f s) := by
  rw [List.map_append, List.map_cons, List.nodup_append] at hn
  obtain ⟨-, hb, hc⟩ := hn
  rw [List.flatMap_append, List.filter_append, List.flatMap_cons, List.filter_append, filter_tag_same,
    filter_none _ f l1, filter_none _ f l2, List.append_nil, List.nil_append]
  · intro t ht he
    exact (List.nodup_cons.1 hb).1 (List.mem_map.2 ⟨t, ht, he⟩)
  · intro t ht
    exact hc _ (List.mem_map.2 ⟨t, ht, rfl⟩) _ List.mem_cons_self

private theorem filter_rounds {l1 l2 : List (Run.Sub Freq)} {s : Run.Sub Freq}
    (hn : ((l1 ++ s :: l2).map fun s => s.m.id).Nodup) (n : Nat) :
    (roundsPlan (l1 ++ s :: l2) n).filter (fun p => p.1 = s.m.id) =
      tag s.m.id ((List.range n).flatMap (stepPlan s.m.graphNodes s.comps s.m.param)) := by
  induction n with
  | zero => rfl
  | succ n ih =>
    unfold roundsPlan at *
    rw [List.range_succ, List.flatMap_append, List.flatMap_append, List.filter_append, ih, tag_append]
    congr 1
    simp only [List.flatMap_cons, List.flatMap_nil, List.append_nil]
    exact filter_one hn fun s => stepPlan s.m.graphNodes s.comps s.m.param n

private theorem stepOf_plan {nodes comps : List Nat} {param : Nat → Bool} {k : Nat} {c : Call}
    (h : c ∈ stepPlan nodes comps param k) : stepOf c = some k := by
  simp only [stepPlan, List.mem_append, List.mem_map, List.mem_singleton] at h
  rcases h with ((((⟨_, _, rfl⟩ | ⟨_, _, rfl⟩) | ⟨_, _, rfl⟩) | rfl) | ⟨_, _, rfl⟩) | ⟨_, _, rfl⟩ <;> rfl

private theorem stepOf_start {subs : List (Run.Sub Freq)} {p : Nat × Call} (h : p ∈ multiStart subs) :
    stepOf p.2 = none := by
  unfold multiStart at h
  obtain ⟨s, -, h1⟩ := List.mem_flatMap.1 h
  clear h
  obtain ⟨c, h, rfl⟩ := List.mem_map.1 h1
  clear h1
  by_cases hs : AnyStale subs
  · rw [if_pos hs] at h
    simp only [setupPlan, List.mem_append, List.mem_map, List.mem_singleton] at h
    rcases h with (((((rfl | ⟨_, _, rfl⟩) | ⟨_, _, rfl⟩) | rfl) | ⟨_, _, rfl⟩) | ⟨_, _, rfl⟩) | rfl <;> rfl
  · rw [if_neg hs] at h
    simp only [resetPlan, List.mem_append, List.mem_map, List.mem_singleton] at h
    rcases h with (⟨_, _, rfl⟩ | ⟨_, _, rfl⟩) | rfl <;> rfl

/-- Where a call of timestep `k` of sub-model `s` stands in the plan. -/
private theorem plan_split {subs : List (Run.Sub Freq)} {R k id : Nat} {c : Call} {pre post : List (Nat × Call)}
    (h : multiStart subs ++ roundsPlan subs R = pre ++ (id, c) :: post) (hc : stepOf c = some k) :
    ∃ l1 s l2 p, subs = l1 ++ s :: l2 ∧ s.m.id = id ∧ (∀ x ∈ p, x.1 = id) ∧
      pre = multiStart subs ++ roundsPlan subs k ++
        (l1.flatMap fun s => tag s.m.id (stepPlan s.m.graphNodes s.comps s.m.param k)) ++ p := by
  have hr : ∃ as, pre = multiStart subs ++ as ∧ roundsPlan subs R = as ++ (id, c) :: post := by
    rw [List.append_eq_append_iff] at h
    rcases h with ⟨as, h1, h2⟩ | ⟨bs, h1, h2⟩
    · exact ⟨as, h1, h2⟩
    · cases bs with
      | nil => exact ⟨[], by simpa using h1.symm, by simpa using h2.symm⟩
      | cons b bs =>
        simp only [List.cons_append, List.cons.injEq] at h2
        obtain ⟨rfl, -⟩ := h2
        have := stepOf_start (subs := subs) (p := (id, c)) (by rw [h1]; simp)
        rw [this] at hc
        cases hc
  clear h
  obtain ⟨as, rfl, h⟩ := hr
  unfold roundsPlan at h
  obtain ⟨xs1, x, xs2, p, q, hx, rfl, hf⟩ := flatMap_split _ _ _ _ _ h
  unfold roundPlan at hf
  obtain ⟨l1, s, l2, p', q', rfl, rfl, hg⟩ := flatMap_split _ _ _ _ _ hf
  have hmem : ∀ y ∈ p' ++ (id, c) :: q', y.1 = s.m.id ∧ stepOf y.2 = some x := by
    intro y hy
    rw [← hg] at hy
    obtain ⟨d, hd, rfl⟩ := List.mem_map.1 hy
    exact ⟨rfl, stepOf_plan hd⟩
  obtain ⟨rfl, h2⟩ := hmem (id, c) (by simp)
  obtain rfl : x = k := by rw [hc] at h2; exact (Option.some.inj h2).symm
  have hx1 : xs1 = List.range x := by
    have hl : xs1.length < R := by
      have := congrArg List.length hx
      simp at this
      omega
    have h0 : (List.range R)[xs1.length]? = some x := by rw [hx]; simp
    rw [List.getElem?_range hl] at h0
    obtain rfl := Option.some.inj h0
    have ht := congrArg (List.take xs1.length) hx
    rw [List.take_left, List.take_range, Nat.min_eq_left hl.le] at ht
    exact ht.symm
  subst hx1
  refine ⟨l1, s, l2, p', rfl, rfl, fun y hy => (hmem y (List.mem_append_left _ hy)).1, ?_⟩
  rw [← List.append_assoc, ← List.append_assoc]
  rfl

private theorem followed_prefix {plan : List (Nat × Call)} {es : List Entry} {r : Bool} (h : Followed plan es r) :
    ∃ rest, plan = (es.map fun e => (e.model, e.call)) ++ rest := by
  induction h with
  | nil => exact ⟨[], rfl⟩
  | ok _ ih =>
    obtain ⟨rest, rfl⟩ := ih
    exact ⟨rest, rfl⟩
  | @raised i c cs => exact ⟨cs, rfl⟩

private theorem callsOf_eq (id : Nat) (es : List Entry) (cs : List Call)
    (h : (es.map fun e => (e.model, e.call)).filter (fun p => p.1 = id) = tag id cs) : callsOf id es = cs := by
  unfold callsOf
  rw [List.filter_map] at h
  have h2 := congrArg (List.map Prod.snd) h
  rw [List.map_map] at h2
  unfold tag at h2
  rw [List.map_map] at h2
  have e1 : (Prod.snd ∘ fun e : Entry => (e.model, e.call)) = Entry.call := rfl
  have e2 : (Prod.snd ∘ fun c : Call => (id, c)) = fun c => c := rfl
  rw [e1, e2, List.map_id'] at h2
  exact h2

private theorem own_tag (subs : List (Run.Sub Freq)) (s : Run.Sub Freq) (n : Nat) :
    tag s.m.id (ownCalls subs s n) =
      tag s.m.id (open Classical in if AnyStale subs then setupPlan s.m.graphNodes s.m.topNodes s.comps
        else resetPlan s.m.topNodes s.comps) ++
      tag s.m.id ((List.range n).flatMap (stepPlan s.m.graphNodes s.comps s.m.param)) := by
  unfold ownCalls
  rw [tag_append]

private theorem own_succ (subs : List (Run.Sub Freq)) (s : Run.Sub Freq) (n : Nat) :
    ownCalls subs s (n + 1) = ownCalls subs s n ++ stepPlan s.m.graphNodes s.comps s.m.param n := by
  unfold ownCalls
  rw [List.range_succ, List.flatMap_append, List.append_assoc]
  simp

/-- The entries logged during `MultiModel.run` before the models are finished follow the plan of `C49_run`. -/
private theorem seen {subs : List (Run.Sub Freq)} (hid : (subs.map fun s => s.m.id).Nodup) {R : Nat} {es : List Entry}
    {r : Bool} (hf : Followed (multiStart subs ++ roundsPlan subs R) es r) {a b : List Entry} {e : Entry}
    (he : es = a ++ e :: b) {k : Nat} (hk : stepOf e.call = some k) {x y : Run.Sub Freq} {i j : Nat}
    (hi : subs[i]? = some x) (hj : subs[j]? = some y) (hy : e.model = y.m.id) (hij : i ≠ j) :
    callsOf x.m.id a = ownCalls subs x (if i < j then k + 1 else k) := by
  obtain ⟨rest, hp⟩ := followed_prefix hf
  rw [he, List.map_append, List.map_cons, List.append_assoc, List.cons_append] at hp
  obtain ⟨l1, s, l2, p, hs, hsid, hpid, hpre⟩ := plan_split hp hk
  have hsj : l1.length = j := by
    obtain ⟨hj', hjv⟩ := List.getElem?_eq_some_iff.1 hj
    have hl : l1.length < subs.length := by rw [hs]; simp
    have hv : subs[l1.length] = s := by simp [hs]
    have := (List.Nodup.getElem_inj_iff hid (i := l1.length) (j := j) (hi := by simpa using hl)
      (hj := by simpa using hj')).1 (by
        rw [List.getElem_map, List.getElem_map, hv, hjv, hsid, hy])
    exact this
  have hne : x.m.id ≠ e.model := by
    intro hc
    obtain ⟨hi', hiv⟩ := List.getElem?_eq_some_iff.1 hi
    obtain ⟨hj', hjv⟩ := List.getElem?_eq_some_iff.1 hj
    exact hij ((List.Nodup.getElem_inj_iff hid (i := i) (j := j) (hi := by simpa using hi')
      (hj := by simpa using hj')).1 (by rw [List.getElem_map, List.getElem_map, hiv, hjv, hc, hy]))
  obtain ⟨m1, m2, hm, hml⟩ : ∃ m1 m2, subs = m1 ++ x :: m2 ∧ m1.length = i := by
    obtain ⟨hi', hiv⟩ := List.getElem?_eq_some_iff.1 hi
    refine ⟨subs.take i, subs.drop (i + 1), ?_, by rw [List.length_take]; omega⟩
    rw [← hiv, List.cons_getElem_drop_succ, List.take_append_drop]
  have hhid := hid
  rw [hm] at hid
  apply callsOf_eq
  rw [hpre, List.filter_append, List.filter_append, List.filter_append]
  have hpf : p.filter (fun q => q.1 = x.m.id) = [] := by
    apply List.filter_eq_nil_iff.2
    intro q hq
    rw [hpid q hq]
    simpa using fun h => hne h.symm
  have hstart : (multiStart subs).filter (fun q => q.1 = x.m.id) =
      tag x.m.id (open Classical in if AnyStale subs then setupPlan x.m.graphNodes x.m.topNodes x.comps
        else resetPlan x.m.topNodes x.comps) := by
    unfold multiStart
    have := filter_one hid fun s => open Classical in
      if AnyStale subs then setupPlan s.m.graphNodes s.m.topNodes s.comps else resetPlan s.m.topNodes s.comps
    rw [← hm] at this
    exact this
  have hround : (roundsPlan subs k).filter (fun q => q.1 = x.m.id) =
      tag x.m.id ((List.range k).flatMap (stepPlan x.m.graphNodes x.comps x.m.param)) := by
    have := filter_rounds hid k
    rw [← hm] at this
    exact this
  rw [hpf, hstart, hround, List.append_nil, ← own_tag]
  by_cases hlt : i < j
  · rw [if_pos hlt, own_succ, tag_append]
    congr 1
    obtain ⟨t1, t2, ht⟩ : ∃ t1 t2, l1 = t1 ++ x :: t2 := by
      have hx : l1[i]? = some x := by
        rw [hs, List.getElem?_append_left (by omega)] at hi
        exact hi
      obtain ⟨hi', hiv⟩ := List.getElem?_eq_some_iff.1 hx
      exact ⟨l1.take i, l1.drop (i + 1), by rw [← hiv, List.cons_getElem_drop_succ, List.take_append_drop]⟩
    rw [ht]
    apply filter_one (f := fun s => stepPlan s.m.graphNodes s.comps s.m.param k)
    rw [← ht]
    rw [hs, List.map_append, List.nodup_append] at hhid
    exact hhid.1
  · rw [if_neg hlt, filter_none _ (fun s => stepPlan s.m.graphNodes s.comps s.m.param k), List.append_nil]
    intro t ht hc
    obtain ⟨n, hn, hv⟩ := List.getElem_of_mem ht
    have hi' := (List.getElem?_eq_some_iff.1 hi)
    have hnv : subs[n]? = some t := by
      rw [hs, List.getElem?_append_left hn, List.getElem?_eq_getElem hn, hv]
    obtain ⟨hn', hnv⟩ := List.getElem?_eq_some_iff.1 hnv
    have := (List.Nodup.getElem_inj_iff hhid (i := n) (j := i) (hi := by simpa using hn')
      (hj := by simpa using hi'.1)).1 (by rw [List.getElem_map, List.getElem_map, hnv, hi'.2, hc])
    omega

private theorem upto_append (id : Nat) : ∀ es : List Entry, ∃ rest, es = upto id es ++ rest ∧ ∀ e ∈ rest, e.model ≠ id := by
  intro es
  refine ⟨(es.reverse.takeWhile fun e => e.model ≠ id).reverse, ?_, ?_⟩
  · unfold upto
    rw [← List.reverse_append, List.takeWhile_append_dropWhile, List.reverse_reverse]
  · intro e he
    have := List.mem_takeWhile_imp (List.mem_reverse.1 he)
    simpa using this

private theorem view_rest {env : Env W Freq} {id : Nat} {V : Type} {view : W → V} (hv : Private env id view) :
    ∀ (es : List Entry) (w : W), (∀ e ∈ es, e.model ≠ id) → view (worldAfter env w es) = view w := by
  intro es
  induction es with
  | nil => intro w _; rfl
  | cons e es ih =>
    intro w h
    have h1 : worldAfter env w (e :: es) = worldAfter env (env.behave e.model e.call w).2 es := rfl
    rw [h1, ih _ fun x hx => h x (List.mem_cons_of_mem _ hx), hv _ (h e List.mem_cons_self)]

private theorem ran_at {env : Env W Freq} {e : Entry} {b : List Entry} {w' : W} : ∀ (a : List Entry) (w : W),
    Ran env w (a ++ e :: b) w' → (env.behave e.model e.call (worldAfter env w a)).1.isSome = e.raised := by
  intro a
  induction a with
  | nil =>
    intro w h
    cases h with
    | cons h1 _ => exact h1
  | cons x a ih =>
    intro w h
    cases h with
    | cons _ h2 => exact ih _ h2

private theorem finish_steps (subs : List (Run.Sub Freq)) : ∀ (curs : List (Option Nat)) (p : Nat × Call),
    p ∈ multiFinish subs curs → stepOf p.2 = none := by
  induction subs with
  | nil => intro curs p h; simp [multiFinish] at h
  | cons s subs ih =>
    intro curs p h
    cases curs with
    | nil => simp [multiFinish] at h
    | cons c curs =>
      simp only [multiFinish, List.mem_append] at h
      rcases h with h | h
      · obtain ⟨d, hd, rfl⟩ := List.mem_map.1 h
        simp only [finishPlan, List.mem_append, List.mem_map] at hd
        rcases hd with ⟨_, _, rfl⟩ | ⟨_, _, rfl⟩ <;> rfl
      · exact ih curs p h

/-- **C69 (what has happened in the other model).** Consider any call a model `y` makes in its timestep `k` during
`MultiModel.run` (the before-hook of a shadow node, the evaluation of a parameter, …), and any other model `x` of the
coupled model.  If `x` comes before `y`, then at that moment `x` has made exactly the calls of its start and of its complete
timesteps `0 … k`; if `x` comes after `y`, exactly those of its start and of its complete timesteps `0 … k - 1`.  So the
values read are those at the end of the same timestep, or of the previous one: nothing that belongs to model `x` alone
changes from its last such call until the moment of reading. -/
theorem C69_seen (env : Env W Freq) (subs : List (Run.Sub Freq)) (h : MultiReady env subs)
    (hid : (subs.map fun s => s.m.id).Nodup) (R : Nat) (hR : ∀ k < R, SameDate subs k) (hend : ¬ SameDate subs R)
    (g : Global W) :
    ∃ es fs : List Entry, (multiRun env true (subs.map Run.Sub.m) g).2.2.log = g.log ++ es ++ fs ∧
      (∀ e ∈ fs, stepOf e.call = none) ∧
      ∀ (a : List Entry) (e : Entry) (b : List Entry), es = a ++ e :: b → ∀ k, stepOf e.call = some k →
      ∀ (i j : Nat) (x y : Run.Sub Freq), subs[i]? = some x → subs[j]? = some y → e.model = y.m.id →
        (i < j → callsOf x.m.id a = ownCalls subs x (k + 1)) ∧ (j < i → callsOf x.m.id a = ownCalls subs x k) ∧
        (env.behave e.model e.call (worldAfter env g.world a)).1.isSome = e.raised ∧
        ∀ (V : Type) (view : W → V), Private env x.m.id view →
          view (worldAfter env g.world a) = view (worldAfter env g.world (upto x.m.id a)) := by
  obtain ⟨es, fs, r, r', curs, hlog, hfol, hfin, -, hran, -⟩ := C49_run env subs h R hR hend g
  refine ⟨es, fs, hlog, ?_, ?_⟩
  · intro e he
    obtain ⟨rest, hp⟩ := followed_prefix hfin
    exact finish_steps subs curs (e.model, e.call) (by
      rw [hp]; exact List.mem_append_left _ (List.mem_map.2 ⟨e, he, rfl⟩))
  · intro a e b he k hk i j x y hi hj hy
    refine ⟨fun hlt => ?_, fun hlt => ?_, ?_, ?_⟩
    · have := seen hid hfol he hk hi hj hy hlt.ne
      rwa [if_pos hlt] at this
    · have := seen hid hfol he hk hi hj hy hlt.ne'
      rwa [if_neg hlt.le.not_gt] at this
    · rw [he, List.append_assoc, List.cons_append] at hran
      exact ran_at a _ hran
    · intro V view hv
      obtain ⟨rest, hrest, hne⟩ := upto_append x.m.id a
      conv_lhs => rw [hrest]
      unfold worldAfter
      rw [List.foldl_append]
      exact view_rest hv rest _ hne

/-- **C69 (the value of a parameter of another model).** Let component `c` of model `y` be a parameter which takes its value
from parameter `p` of an earlier model `x`.  Whenever it has been evaluated in timestep `k` without an exception, its entry
for every scenario combination is the entry of `p` for that combination as `x` left it at the end of its timestep `k`
(after the calls `C69_seen` describes); if `x` is a later model, of its timestep `k - 1`. -/
theorem C69_value (env : Env Values Freq) (subs : List (Run.Sub Freq)) (h : MultiReady env subs)
    (hid : (subs.map fun s => s.m.id).Nodup) (R : Nat) (hR : ∀ k < R, SameDate subs k) (hend : ¬ SameDate subs R)
    (g : Global Values) (i j : Nat) (x y : Run.Sub Freq) (hi : subs[i]? = some x) (hj : subs[j]? = some y) (hij : i ≠ j)
    (n c p : Nat) (hlink : ∀ k v, env.behave y.m.id (.calcValues c k) v = calcOther n x.m.id p y.m.id c v)
    (hown : ∀ id' ≠ x.m.id, ∀ call v, (env.behave id' call v).2 x.m.id p = v x.m.id p) :
    ∃ es fs : List Entry, (multiRun env true (subs.map Run.Sub.m) g).2.2.log = g.log ++ es ++ fs ∧
      ∀ (a b : List Entry) (k : Nat), es = a ++ ⟨y.m.id, .calcValues c k, false⟩ :: b →
        callsOf x.m.id (upto x.m.id a) = ownCalls subs x (if i < j then k + 1 else k) ∧
        ∀ s < n, ((worldAfter env g.world (a ++ [⟨y.m.id, .calcValues c k, false⟩])) y.m.id c)[s]? =
          ((worldAfter env g.world (upto x.m.id a)) x.m.id p)[s]? := by
  obtain ⟨es, fs, hlog, -, hall⟩ := C69_seen env subs h hid R hR hend g
  refine ⟨es, fs, hlog, fun a b k he => ?_⟩
  obtain ⟨h1, h2, h3, h4⟩ := hall a _ b he k rfl i j x y hi hj rfl
  constructor
  · have hc : callsOf x.m.id (upto x.m.id a) = callsOf x.m.id a := by
      obtain ⟨rest, hrest, hne⟩ := upto_append x.m.id a
      conv_rhs => rw [hrest]
      unfold callsOf
      rw [List.filter_append, List.map_append, (List.filter_eq_nil_iff (l := rest)).2, List.map_nil, List.append_nil]
      intro e he
      simpa using hne e he
    rw [hc]
    by_cases hlt : i < j
    · rw [if_pos hlt]; exact h1 hlt
    · rw [if_neg hlt]; exact h2 (by omega)
  · intro s hs
    have hv := h4 _ (fun v : Values => v x.m.id p) hown
    simp only at hv h3
    have e1 : worldAfter env g.world (a ++ [⟨y.m.id, .calcValues c k, false⟩]) =
        (env.behave y.m.id (.calcValues c k) (worldAfter env g.world a)).2 := by
      unfold worldAfter; rw [List.foldl_append]; rfl
    rw [e1]
    rw [hlink] at h3 ⊢
    unfold calcOther at h3 ⊢
    by_cases hn : n ≤ (worldAfter env g.world a x.m.id p).length
    · rw [if_pos hn, ← hv]
      unfold Values.set
      simp only [and_self, if_true]
      rw [List.getElem?_take_of_lt hs]
    · rw [if_neg hn] at h3
      cases h3

/-! ## Consistent scenarios -/

private theorem extractAll_ok : ∀ (ms : List Named), (∃ es, extractAll ms = .ok es) ↔
    ∀ m ∈ ms, ∃ l, m.coll.getCombinations = .ok l := by
  intro ms
  induction ms with
  | nil => simp [extractAll]
  | cons m ms ih =>
    unfold extractAll
    rcases hm : m.coll.getCombinations with e | l
    · simp only [List.mem_cons, forall_eq_or_imp, hm]
      simp
    · simp only [List.mem_cons, forall_eq_or_imp, hm]
      rw [← ih]
      rcases hx : extractAll ms with e | es <;> simp

private theorem extractAll_eq : ∀ (ms : List Named) (es : List Extract), extractAll ms = .ok es →
    List.Forall₂ (fun m x => x.sizes = m.coll.scenarios.map Scenario.size ∧ x.names = m.names ∧
      ∃ l, m.coll.getCombinations = .ok l ∧ x.combinations = l.map Prod.snd) ms es := by
  intro ms
  induction ms with
  | nil => intro es h; cases h; exact .nil
  | cons m ms ih =>
    intro es h
    unfold extractAll at h
    rcases hm : m.coll.getCombinations with e | l
    · rw [hm] at h; cases h
    · rw [hm] at h
      rcases hx : extractAll ms with e | es'
      · simp only [hx] at h; cases h
      · simp only [hx] at h
        cases h
        exact .cons ⟨rfl, rfl, l, hm, rfl⟩ (ih es' hx)

private theorem combos_fst (c : Collection) (l : List Index) (h : c.getCombinations = .ok l) :
    l.map Prod.fst = List.range l.length := by
  have henum : ∀ rows : List (List Int), (enumerate rows).map Prod.fst = List.range (enumerate rows).length := by
    intro rows
    unfold enumerate
    rw [List.map_map, List.length_map, List.length_zipIdx]
    have : (Prod.fst ∘ fun p : List Int × Nat => (p.2, p.1)) = Prod.snd := rfl
    rw [this, List.zipIdx_map_snd, List.range_eq_range']
  unfold Collection.getCombinations at h
  by_cases h0 : c.scenarios.length = 0
  · rw [if_pos h0] at h
    simp only [List.isEmpty_cons, Bool.false_eq_true, if_false] at h
    cases h; rfl
  · rw [if_neg h0] at h
    rcases hu : c.user with _ | rows
    · simp only [hu] at h
      rcases hs : selections c.scenarios with e | ls
      · simp only [hs] at h; cases h
      · simp only [hs] at h
        by_cases he : (enumerate (product ls)).isEmpty = true
        · rw [if_pos he] at h; cases h
        · rw [if_neg he] at h; cases h; exact henum _
    · simp only [hu] at h
      by_cases he : (enumerate rows).isEmpty = true
      · rw [if_pos he] at h; cases h
      · rw [if_neg he] at h; cases h; exact henum _

private theorem combos_eq {c c' : Collection} {l l' : List Index} (h : c.getCombinations = .ok l)
    (h' : c'.getCombinations = .ok l') (he : l.map Prod.snd = l'.map Prod.snd) : l = l' := by
  have hlen : l.length = l'.length := by
    have := congrArg List.length he
    simpa using this
  have h1 := combos_fst c l h
  have h2 := combos_fst c' l' h'
  rw [hlen, ← h2] at h1
  apply List.ext_getElem hlen
  intro i hi hi'
  have a1 : (l.map Prod.fst)[i]'(by simpa using hi) = (l'.map Prod.fst)[i]'(by simpa using hi') := by simp only [h1]
  have a2 : (l.map Prod.snd)[i]'(by simpa using hi) = (l'.map Prod.snd)[i]'(by simpa using hi') := by simp only [he]
  simp only [List.getElem_map] at a1 a2
  exact Prod.ext a1 a2

/-- **C69 (same combinations).** A coupled model is accepted exactly when every sub-model selects some scenario combinations
and all sub-models have scenarios of the same sizes and exactly the same scenario combinations, with the same numbers: entry
`s` of an array of one model and entry `s` of an array of another belong to the same combination. -/
theorem C69_check (ms : List Named) :
    (∃ n, checkScenarios ms = .ok n) ↔ (∀ m ∈ ms, ∃ l, m.coll.getCombinations = .ok l) ∧
      ∀ m ∈ ms, ∀ m' ∈ ms, m.coll.scenarios.map Scenario.size = m'.coll.scenarios.map Scenario.size ∧
        m.coll.getCombinations = m'.coll.getCombinations := by
  unfold checkScenarios
  rcases hx : extractAll ms with e | es
  · constructor
    · rintro ⟨n, hn⟩; cases hn
    · rintro ⟨h, -⟩
      obtain ⟨es, he⟩ := (extractAll_ok ms).2 h
      rw [hx] at he; cases he
  · have hsel := (extractAll_ok ms).1 ⟨es, hx⟩
    have hfa := extractAll_eq ms es hx
    cases hfa with
    | nil => simp
    | @cons m x ms es hmx hfa =>
      simp only
      obtain ⟨hms, hmn, l, hl, hmc⟩ := hmx
      constructor
      · rintro ⟨n, hn⟩
        refine ⟨hsel, ?_⟩
        by_cases hs : ((x :: es).any fun y => y.sizes != x.sizes) = true
        · rw [if_pos hs] at hn; cases hn
        · rw [if_neg hs] at hn
          by_cases hc : ((x :: es).any fun y => y.combinations != x.combinations) = true
          · rw [if_pos hc] at hn; cases hn
          · have key : ∀ m' ∈ m :: ms, m'.coll.scenarios.map Scenario.size = x.sizes ∧
                m'.coll.getCombinations = .ok l := by
              have hfa' : List.Forall₂ _ (m :: ms) (x :: es) :=
                List.Forall₂.cons (⟨hms, hmn, l, hl, hmc⟩ : x.sizes = m.coll.scenarios.map Scenario.size ∧
                  x.names = m.names ∧ ∃ l, m.coll.getCombinations = .ok l ∧ x.combinations = l.map Prod.snd) hfa
              intro m' hm'
              obtain ⟨k, hk, rfl⟩ := List.getElem_of_mem hm'
              have hk' : k < (x :: es).length := by rw [← hfa'.length_eq]; exact hk
              obtain ⟨h1, -, l', h2, h3⟩ := hfa'.get hk hk'
              simp only [List.get_eq_getElem] at h1 h2 h3
              have hmem : (x :: es)[k] ∈ x :: es := List.getElem_mem hk'
              have hsz : (x :: es)[k].sizes = x.sizes := by
                by_contra hne
                exact hs (List.any_eq_true.2 ⟨_, hmem, by simpa using hne⟩)
              have hcb : (x :: es)[k].combinations = x.combinations := by
                by_contra hne
                exact hc (List.any_eq_true.2 ⟨_, hmem, by simpa using hne⟩)
              refine ⟨by rw [← h1, hsz], ?_⟩
              rw [h2]
              congr 1
              exact combos_eq h2 hl (by rw [← h3, hcb, hmc])
            intro a ha b hb
            exact ⟨by rw [(key a ha).1, (key b hb).1], by rw [(key a ha).2, (key b hb).2]⟩
      · rintro ⟨-, hall⟩
        have hfa' : List.Forall₂ _ (m :: ms) (x :: es) :=
          List.Forall₂.cons (⟨hms, hmn, l, hl, hmc⟩ : x.sizes = m.coll.scenarios.map Scenario.size ∧
            x.names = m.names ∧ ∃ l, m.coll.getCombinations = .ok l ∧ x.combinations = l.map Prod.snd) hfa
        have key : ∀ y ∈ x :: es, y.sizes = x.sizes ∧ y.combinations = x.combinations := by
          intro y hy
          obtain ⟨k, hk, rfl⟩ := List.getElem_of_mem hy
          have hk' : k < (m :: ms).length := by rw [hfa'.length_eq]; exact hk
          obtain ⟨h1, -, l', h2, h3⟩ := hfa'.get hk' hk
          simp only [List.get_eq_getElem] at h1 h2 h3
          obtain ⟨e1, e2⟩ := hall ((m :: ms)[k]) (List.getElem_mem hk') m List.mem_cons_self
          rw [h2, hl] at e2
          cases e2
          exact ⟨by rw [h1, e1, hms], by rw [h3, hmc]⟩
        rw [if_neg, if_neg]
        · exact ⟨_, rfl⟩
        · intro hc
          obtain ⟨y, hy, hne⟩ := List.any_eq_true.1 hc
          exact absurd (key y hy).2 (by simpa using hne)
        · intro hc
          obtain ⟨y, hy, hne⟩ := List.any_eq_true.1 hc
          exact absurd (key y hy).1 (by simpa using hne)

/-! ## Loading -/

private theorem loadSub_ok (f : Files Data) (dir solver : Option String) (d : Definition Data) :
    (∃ m, loadSub f dir solver d = .ok m) ↔ d.Good f dir := by
  unfold loadSub Definition.Good Files.load
  rcases hf : d.filename with _ | n <;> rcases hd : d.data with _ | x
  · simp
  · rcases ho : f.own (.data x) with _ | t <;> simp [ho]
  · cases dir with
    | none => rcases ho : f.own (.file n) with _ | t <;> simp [ho]
    | some q => rcases ho : f.own (.file (f.join q n)) with _ | t <;> simp [ho]
  · simp

private theorem loadSub_eq (f : Files Data) (dir solver : Option String) (d : Definition Data) (m : SubModel Data)
    (h : loadSub f dir solver d = .ok m) : d.Names f dir m.source ∧ m.solver = d.solver.or solver ∧
      (m.path = if d.filename = none then d.path.or dir else d.path) ∧
      ∃ t, f.own m.source = some t ∧ m.delta = t.timestep := by
  have hpo : (d.path.orElse fun _ => dir) = d.path.or dir := by cases d.path <;> rfl
  have hor : (d.solver.orElse fun _ => solver) = d.solver.or solver := by cases d.solver <;> rfl
  unfold loadSub Files.load at h
  unfold Definition.Names
  rcases hf : d.filename with _ | n <;> rcases hd : d.data with _ | x
  · simp [hf, hd] at h
  · simp only [hf, hd] at h
    rcases ho : f.own (.data x) with _ | t
    · simp [ho] at h
    · simp only [ho] at h
      cases h
      exact ⟨Or.inr ⟨x, rfl, rfl, rfl⟩, hor, by rw [if_pos rfl]; exact hpo, t, ho, rfl⟩
  · cases dir with
    | none =>
      simp only [hf, hd] at h
      rcases ho : f.own (.file n) with _ | t
      · simp [ho] at h
      · simp only [ho] at h
        cases h
        exact ⟨Or.inl ⟨n, rfl, rfl, rfl⟩, hor, by simp, t, ho, rfl⟩
    | some q =>
      simp only [hf, hd] at h
      rcases ho : f.own (.file (f.join q n)) with _ | t
      · simp [ho] at h
      · simp only [ho] at h
        cases h
        exact ⟨Or.inl ⟨n, rfl, rfl, rfl⟩, hor, by simp, t, ho, rfl⟩
  · simp [hf, hd] at h

/-- **C69 (which documents are accepted).** The document of a coupled model is accepted exactly when every sub-model is
given by either a file or its data, not both, and can itself be loaded. -/
theorem C69_load_iff (f : Files Data) (doc : Document Data) (dir solver : Option String) :
    (∃ ms, loadFromDict f doc dir solver = .ok ms) ↔ ∀ d ∈ doc.models, d.Good f dir := by
  unfold loadFromDict
  generalize ([] : List (String × SubModel Data)) = acc
  generalize doc.models = ds
  induction ds generalizing acc with
  | nil => simp [loadSubs]
  | cons d ds ih =>
    unfold loadSubs
    simp only [List.mem_cons, forall_eq_or_imp]
    rw [← loadSub_ok f dir solver d]
    rcases hx : loadSub f dir solver d with e | m
    · simp
    · simp only [ih]; simp

private theorem put_new (ms : List (String × SubModel Data)) (n : String) (m : SubModel Data)
    (h : n ∉ ms.map Prod.fst) : put ms n m = ms ++ [(n, m)] := by
  unfold put
  rw [if_neg]
  intro hc
  obtain ⟨p, hp, he⟩ := List.any_eq_true.1 hc
  exact h (List.mem_map.2 ⟨p, hp, by simpa using he⟩)

private theorem loadSubs_eq (f : Files Data) (dir solver : Option String) (t : Times) :
    ∀ (ds : List (Definition Data)) (acc ms : List (String × SubModel Data)),
      (acc.map Prod.fst ++ ds.map Definition.name).Nodup → loadSubs f dir solver t ds acc = .ok ms →
      ∃ new, ms = acc ++ new ∧ List.Forall₂ (fun d p => p.1 = d.name ∧ ∃ m, loadSub f dir solver d = .ok m ∧
        p.2 = m.apply t) ds new := by
  intro ds
  induction ds with
  | nil => intro acc ms _ h; cases h; exact ⟨[], by simp, .nil⟩
  | cons d ds ih =>
    intro acc ms hn h
    unfold loadSubs at h
    rcases hx : loadSub f dir solver d with e | m
    · rw [hx] at h; cases h
    · rw [hx] at h
      simp only at h
      rw [put_new] at h
      · obtain ⟨new, rfl, hf⟩ := ih _ ms (by
          rw [List.map_append, List.append_assoc]
          simpa using hn) h
        exact ⟨_ :: new, by rw [List.append_assoc]; rfl, .cons ⟨rfl, m, hx, rfl⟩ hf⟩
      · rw [List.map_cons, List.nodup_append] at hn
        intro hc
        exact hn.2.2 _ hc _ List.mem_cons_self rfl

/-- **C69 (what is loaded, partial).** When the sub-models have different names, the coupled model holds exactly the
sub-models of the document, in its order and under their names, each loaded from the file or data given for it, with its own
solver or else the one passed to `load_from_dict`, with its own directory for relative paths (for data without one, the
directory of the coupled document), and beginning and ending on the dates of the coupled document.  The length
of the timesteps is the one of the sub-model's own document (see `C69_timestep_fails`). -/
theorem C69_load_partial (f : Files Data) (doc : Document Data) (dir solver : Option String)
    (hn : (doc.models.map Definition.name).Nodup) (ms : List (String × SubModel Data))
    (h : loadFromDict f doc dir solver = .ok ms) :
    ms.map Prod.fst = doc.models.map Definition.name ∧
    ∀ (i : Nat) (d : Definition Data) (p : String × SubModel Data), doc.models[i]? = some d → ms[i]? = some p →
      d.Names f dir p.2.source ∧ p.2.solver = d.solver.or solver ∧
      (p.2.path = if d.filename = none then d.path.or dir else d.path) ∧ p.2.start = doc.times.start ∧
      p.2.stop = doc.times.stop ∧ ∃ t, f.own p.2.source = some t ∧ p.2.delta = t.timestep := by
  obtain ⟨new, rfl, hf⟩ := loadSubs_eq f dir solver doc.times doc.models [] ms (by simpa using hn) h
  constructor
  · apply List.ext_getElem
    · simp [hf.length_eq]
    · intro i hi hi'
      simp only [List.getElem_map]
      exact (hf.get (by simpa using hi') (by simpa using hi)).1
  · intro i d p hd hp
    obtain ⟨hi, rfl⟩ := List.getElem?_eq_some_iff.1 hd
    obtain ⟨hi', rfl⟩ := List.getElem?_eq_some_iff.1 hp
    obtain ⟨-, m, hm, he⟩ := hf.get hi hi'
    simp only [List.get_eq_getElem] at hm he
    obtain ⟨h1, h2, h4, h3⟩ := loadSub_eq f dir solver _ m hm
    rw [he]
    exact ⟨h1, h2, h4, rfl, rfl, h3⟩

/-- Every definition loads; the own settings of the documents are dates 0 to 9 and timesteps of one day. -/
private def files : Files Nat := ⟨fun _ => some ⟨0, 9, 1⟩, fun a b => a ++ "/" ++ b⟩

example : ∃ ms, loadFromDict files ⟨⟨5, 30, 7⟩, [⟨"a", some "a.json", none, none, none⟩, ⟨"b", none, some 3, none, none⟩]⟩
    (some "dir") (some "glpk") = .ok ms ∧ ms.map Prod.fst = ["a", "b"] := ⟨_, rfl, rfl⟩

/-- **C69 (length of the timesteps).** The `timestep` given for the coupled model has no effect: a coupled document asks for
timesteps of seven days, and its sub-model runs with the one day of its own document.  (The loader assigns to
`timestepper.timestep`; the setting is called `delta`.) -/
theorem C69_timestep_fails : ¬ ∀ (f : Files Nat) (doc : Document Nat) (dir solver : Option String)
    (ms : List (String × SubModel Nat)), loadFromDict f doc dir solver = .ok ms →
      ∀ p ∈ ms, p.2.delta = doc.times.timestep := by
  intro h
  have := h files ⟨⟨5, 30, 7⟩, [⟨"a", none, some 3, none, none⟩]⟩ none none _ rfl _ List.mem_cons_self
  revert this
  decide +kernel

/-- **C69 (solver).** The `solver` given to `MultiModel.load` has no effect, although `load_from_dict` would use it. -/
theorem C69_solver_fails : (∀ (f : Files Nat) (doc : Document Nat) (dir s s' : Option String), load f doc dir s = load f doc dir s') ∧
    ∃ (f : Files Nat) (doc : Document Nat), loadFromDict f doc none (some "lpsolve") ≠ load f doc none (some "lpsolve") := by
  refine ⟨fun _ _ _ _ _ => rfl, files, ⟨⟨5, 30, 7⟩, [⟨"a", none, some 3, none, none⟩]⟩, ?_⟩
  intro h
  have h2 : (loadFromDict files ⟨⟨5, 30, 7⟩, [⟨"a", none, some 3, none, none⟩]⟩ none (some "lpsolve")).toOption.map
      (fun l => l.map fun p => p.2.solver) = (load files ⟨⟨5, 30, 7⟩, [⟨"a", none, some 3, none, none⟩]⟩ none
        (some "lpsolve")).toOption.map (fun l => l.map fun p => p.2.solver) := by rw [h]
  revert h2
  decide +kernel

/-- **C69 (duplicate names).** Two sub-models of the same name are not refused: the second silently takes the place of the
first. -/
theorem C69_duplicate_fails : ∃ (f : Files Nat) (doc : Document Nat) (ms : List (String × SubModel Nat)),
    loadFromDict f doc none none = .ok ms ∧ doc.models.map Definition.name = ["a", "b", "a"] ∧
      ms.map (fun p => (p.1, p.2.source)) = [("a", .data 3), ("b", .data 2)] :=
  ⟨files, ⟨⟨5, 30, 1⟩, [⟨"a", none, some 1, none, none⟩, ⟨"b", none, some 2, none, none⟩, ⟨"a", none, some 3, none, none⟩]⟩,
    _, rfl, rfl, by decide +kernel⟩

/-! ## Running again -/

/-- What the two models of the example do: parameter 0 of the first model takes its value from parameter 0 of the second,
whose value in timestep `k` is `k + 1`.  `setup` allocates the array without writing it, `reset` does not touch it
(`_parameters.pyx:58-65`).  The list collects what the first model has read. -/
private def twoBehave (id : Nat) (c : Call) (w : Option ℚ × List (Option ℚ)) : Option Nat × Option ℚ × List (Option ℚ) :=
  match id, c with
  | 1, .compSetup _ => (none, none, w.2)
  | 1, .calcValues _ k => (none, some (k + 1), w.2)
  | 0, .calcValues _ _ => (none, w.1, w.2 ++ [w.1])
  | _, _ => (none, w)

private def twoModel (id : Nat) : Mdl Nat := { Run.Example.newModel id 2 with param := fun _ => true }

private def twoEnv : Env (Option ℚ × List (Option ℚ)) Nat := ⟨Run.Example.daysPd, twoBehave⟩

/-- **C69 (running again).** A coupled model in which an earlier model reads a parameter of a later one does not repeat
itself: in the first timestep of the first run it reads memory which was never written, in the first timestep of the second
run the last value of the first run. -/
theorem C69_again_fails :
    let r1 := multiRun twoEnv true [twoModel 0, twoModel 1] ⟨(none, []), []⟩
    let r2 := multiRun twoEnv true r1.2.1 ⟨(r1.2.2.world.1, []), []⟩
    r1.1 = none ∧ r2.1 = none ∧ r1.2.2.world.2 = [none, some 1] ∧ r2.2.2.world.2 = [some 2, some 1] := by
  decide +kernel

/-- Parameter 0 of model 1 takes its value from parameter 0 of model 0, whose value in timestep `k` is `k`. -/
private def linkEnv : Env Values Nat := ⟨Run.Example.daysPd, fun id c v =>
  match id, c with
  | 0, .calcValues _ k => (none, v.set 0 0 [some k])
  | 1, .calcValues 0 _ => calcOther 1 0 0 1 0 v
  | _, _ => (none, v)⟩

private def linkSub (id : Nat) : Run.Sub Nat := ⟨twoModel id, (List.range 2).map Run.Example.day, [0]⟩

/-- The hypotheses of `C69_seen` and `C69_value` can be met. -/
example : MultiReady linkEnv [linkSub 0, linkSub 1] ∧ ([linkSub 0, linkSub 1].map fun s => s.m.id).Nodup ∧
    (∀ k < 2, SameDate [linkSub 0, linkSub 1] k) ∧ ¬ SameDate [linkSub 0, linkSub 1] 2 ∧
    (∀ k v, linkEnv.behave 1 (.calcValues 0 k) v = calcOther 1 0 0 1 0 v) ∧
    ∀ id' ≠ 0, ∀ call v, (linkEnv.behave id' call v).2 0 0 = v 0 0 := by
  have hst : AnyStale [linkSub 0, linkSub 1] := ⟨_, List.mem_cons_self, Or.inl rfl⟩
  refine ⟨⟨by simp, ?_, ?_, ?_, ?_, ?_, ?_, fun h => absurd hst h⟩, by decide, ?_, ?_, fun _ _ => rfl, ?_⟩
  · intro s hs; fin_cases hs <;> rfl
  · intro s hs; fin_cases hs <;> exact Or.inl rfl
  · intro s hs; fin_cases hs <;> simp [linkSub]
  · intro s hs p hp
    have hp' : p ∈ (List.range 2).map Run.Example.day := by fin_cases hs <;> exact hp
    obtain ⟨i, -, rfl⟩ := List.mem_map.1 hp'
    unfold GoodPeriod Run.Example.day
    simp only
    omega
  · intro s _ p hp
    unfold GoodPeriod at *
    simp only [linkEnv, Run.Example.daysPd]
    omega
  · intro _ s hs; fin_cases hs <;> rfl
  · intro k hk
    refine ⟨(Run.Example.day k).start, fun s hs => ⟨Run.Example.day k, ?_, rfl⟩⟩
    have hP : s.P = (List.range 2).map Run.Example.day := by fin_cases hs <;> rfl
    rw [hP, List.getElem?_map, List.getElem?_range hk]
    rfl
  · rintro ⟨d, hd⟩
    obtain ⟨p, hp, -⟩ := hd _ List.mem_cons_self
    simp [linkSub] at hp
  · intro id' h0 call v
    unfold linkEnv
    simp only
    split
    · exact absurd rfl h0
    · unfold calcOther
      by_cases h1 : 1 ≤ (v 0 0).length
      · rw [if_pos h1]; simp [Values.set]
      · rw [if_neg h1]
    · rfl

example : checkScenarios [⟨⟨[⟨2, none⟩], none⟩, ["x"]⟩, ⟨⟨[⟨2, some ⟨some 0, none, none⟩⟩], none⟩, ["y"]⟩] = .ok 1 := by decide +kernel

example : checkScenarios [⟨⟨[⟨2, none⟩], none⟩, ["x"]⟩, ⟨⟨[⟨2, some ⟨some 1, none, none⟩⟩], none⟩, ["x"]⟩] =
    .error .combinations := by decide +kernel

end Verif.Coupled

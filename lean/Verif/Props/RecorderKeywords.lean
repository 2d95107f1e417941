import Verif.Spec.RecorderKeywords
import Verif.Proof.Keywords
/-! # C138: what is said about a recorder when it is made is what it has -/

namespace Verif.RecorderKeywords
open Verif.Keywords

private def common : List String := ["agg_func", "ignore_nan", "is_objective", "epsilon", "constraint_lower_bounds", "constraint_upper_bounds", "comment", "tags"]

private def level (l : Level) (room : Nat) : Bool :=
  l.ctor.varKw && l.ctor.passKw && !l.ctor.passKeys && common.all (fun k => !l.ctor.known.contains k) && common.all (fun k => !(l.also.map (·.1)).contains k) && !(l.also.map (·.1)).contains "name" &&
    decide (l.ctor.passes.length ≤ room) &&
    (match l.names with
      | none => !l.ctor.known.contains "name"
      | some _ => (l.ctor.formals.any fun f => f.1 == "name") && (l.ctor.formals ++ l.ctor.kwOnly).all fun f => f.1 != "name" || f.2 == none || f.2 == some Val.none)

private def faithful : List Level → Bool
  | [] => true
  | l :: ls => level l (places ls) && faithful ls

private theorem general_faithful : ∀ cls ∈ general, faithful cls.2 = true := by
  have h : (general.all fun cls => faithful cls.2) = true := by decide +kernel
  exact List.all_eq_true.mp h

private theorem about_faithful : ∀ cls ∈ about, faithful cls.2 = true := by
  have h : (about.all fun cls => faithful cls.2) = true := by decide +kernel
  exact List.all_eq_true.mp h

private theorem all_faithful {cls : String × List Level} (h : cls ∈ general ∨ cls ∈ about) : faithful cls.2 = true := h.elim (general_faithful cls) (about_faithful cls)

private def defaults (c : Ctor) : Kw := (c.formals ++ c.kwOnly).filterMap fun f => f.2.map fun v => (f.1, v)

private theorem get_of_bind {c : Ctor} {pos : List Val} {kw : Kw} {e : Env} (h : bind c pos kw = some e) {k : String} (hf : ((c.formals.map (·.1)).zip pos).lookup k = none)
    (hk : c.known.contains k = true) : e.get k = ((kw.lookup k).or ((defaults c).lookup k)).getD .none := by
  obtain ⟨-, -, -, -, hv⟩ := bind_some h
  unfold Env.get
  rw [hv, List.lookup_append, List.lookup_append, hf, lookup_filter _ (fun k => c.known.contains k) k hk, Option.none_or]
  rfl

private theorem zip_none (l : List (String × Option Val)) (pos : List Val) (h : pos.length ≤ (l.takeWhile fun f => f.1 != "name").length) : ((l.map (·.1)).zip pos).lookup "name" = none := by
  induction l generalizing pos with
  | nil => rfl
  | cons f l ih =>
    cases pos with
    | nil => rfl
    | cons v pos =>
      by_cases hf : f.1 = "name"
      · rw [List.takeWhile_cons_of_neg (by simpa using hf)] at h
        simp at h
      · rw [List.takeWhile_cons_of_pos (by simpa using hf)] at h
        simp only [List.length_cons, Nat.add_le_add_iff_right] at h
        have : ("name" == f.1) = false := by simpa using fun e => hf (Eq.symm e)
        simp only [List.map_cons, List.zip_cons_cons, List.lookup_cons, this]
        exact ih pos h

private theorem default_name (l : List (String × Option Val)) (h : (l.all fun f => f.1 != "name" || f.2 == none || f.2 == some Val.none) = true) :
    ((l.filterMap fun f => f.2.map fun v => (f.1, v)).lookup "name").getD .none = .none := by
  induction l with
  | nil => rfl
  | cons f l ih =>
    simp only [List.all_cons, Bool.and_eq_true] at h
    obtain ⟨a, o⟩ := f
    cases o with
    | none => simpa using ih h.2
    | some v =>
      simp only [List.filterMap_cons, Option.map_some, List.lookup_cons]
      by_cases ha : a = "name"
      · subst ha
        have : v = .none := by simpa using h.1
        subst this
        simp
      · have : ("name" == a) = false := by simpa using fun e => ha (Eq.symm e)
        rw [this]
        exact ih h.2

private theorem lookup_none {l : Kw} {k : String} (h : ((l.map (·.1)).contains k) = false) : l.lookup k = none := by
  induction l with
  | nil => rfl
  | cons p l ih =>
    obtain ⟨a, v⟩ := p
    simp only [List.map_cons, List.contains_cons, Bool.or_eq_false_iff] at h
    rw [List.lookup_cons, h.1]
    exact ih h.2

/-- What a constructor passes on. -/
private theorem step {self : String} {nameOf : Val → String} {l : Level} {ls : List Level} {pos pos' : List Val} {kw kw' : Kw} {e : Env} (hl : level l (places ls) = true) (hp : pos.length ≤ places (l :: ls))
    (h : bind l.ctor pos kw = some e) (hn : l.next self nameOf e = some (pos', kw')) :
    (∀ k ∈ common, kw'.lookup k = kw.lookup k) ∧ pos'.length ≤ places ls ∧ (l.names = none → kw'.lookup "name" = kw.lookup "name") ∧
      (∀ d, l.names = some d → kw'.lookup "name" = some (match (kw.lookup "name").getD .none, d with
        | .none, some a => .str (self ++ "." ++ nameOf (e.get a))
        | v, _ => v)) := by
  simp only [level, Bool.and_eq_true, List.all_eq_true, decide_eq_true_eq, Bool.not_eq_true'] at hl
  obtain ⟨⟨⟨⟨⟨⟨⟨-, h2⟩, h3⟩, h4⟩, h5⟩, h6⟩, h7⟩, h8⟩ := hl
  obtain ⟨hv, ha, hk, -, -⟩ := bind_some h
  unfold Level.next at hn
  split at hn
  · cases hn
  · simp only [Option.some.injEq, Prod.mk.injEq] at hn
    obtain ⟨rfl, rfl⟩ := hn
    have hs : (superCall l.ctor e).2 = kw.filter fun p => !l.ctor.known.contains p.1 := by simp [superCall, h2, hk]
    rw [hs]
    refine ⟨?_, ?_, ?_, ?_⟩
    · intro k hk
      rw [List.lookup_append, List.lookup_append, lookup_none (h5 k hk), lookup_filter _ (fun k => !l.ctor.known.contains k) k (by simpa using h4 k hk)]
      have : (l.name self nameOf e).lookup k = none := by
        unfold Level.name
        split
        · rfl
        · have : (k == "name") = false := by
            simp only [common, List.mem_cons, List.not_mem_nil, or_false] at hk
            rcases hk with rfl | rfl | rfl | rfl | rfl | rfl | rfl | rfl <;> rfl
          simp [List.lookup_cons, this]
      rw [this]
      simp
    · have htw : (l.ctor.formals.takeWhile fun f => f.1 != "name").length ≤ l.ctor.formals.length := (List.takeWhile_prefix _).length_le
      unfold places at hp
      simp only [superCall, h3, Bool.false_eq_true, if_false, List.append_nil, List.length_append, List.length_map]
      cases hA : l.ctor.passArgs
      · simpa using h7
      · simp only [if_true, ha, List.length_drop]
        split at hp
        · omega
        · omega
    · intro hnm
      rw [hnm] at h8
      simp only [Bool.not_eq_true'] at h8
      rw [List.lookup_append, List.lookup_append, lookup_none h6, lookup_filter _ (fun k => !l.ctor.known.contains k) _ (by simpa using h8)]
      simp [Level.name, hnm]
    · intro d hnm
      rw [hnm] at h8
      simp only [Bool.and_eq_true] at h8
      have hkn : l.ctor.known.contains "name" = true := by
        obtain ⟨f, hf, hfn⟩ := List.any_eq_true.mp h8.1
        have : f.1 = "name" := by simpa using hfn
        have : "name" ∈ l.ctor.known := by
          unfold Ctor.known
          rw [← this]
          exact List.mem_map_of_mem (List.mem_append_left _ hf)
        simpa using this
      have hp' : pos.length ≤ (l.ctor.formals.takeWhile fun f => f.1 != "name").length := by
        unfold places at hp
        rw [h8.1] at hp
        simpa using hp
      have hget : e.get "name" = (kw.lookup "name").getD .none := by
        rw [get_of_bind h (zip_none _ _ hp') hkn]
        cases kw.lookup "name" with
        | some v => rfl
        | none => exact default_name _ h8.2
      rw [List.lookup_append, List.lookup_append]
      simp only [Level.name, hnm, List.lookup_cons, beq_self_eq_true, Option.some_or, hget]
      cases (kw.lookup "name").getD .none <;> cases d <;> rfl

private theorem base_said {self : String} {pos : List Val} {kw : Kw} {a : Attrs} (hp : pos.length ≤ 1) (h : base self pos kw = some a) :
    a = ⟨if given kw "name" .none = .none then .str self else given kw "name" .none, given kw "comment" .none, given kw "tags" .none, given kw "agg_func" (.str "mean"), given kw "ignore_nan" (.flag false),
      given kw "is_objective" .none, given kw "epsilon" (.num 1), given kw "constraint_lower_bounds" .none, given kw "constraint_upper_bounds" .none⟩ := by
  unfold base at h
  split at h
  · cases h
  · rename_i e he
    split at h
    · cases h
    · rename_i e' he'
      cases h
      obtain ⟨-, -, hk, -, -⟩ := bind_some he
      have hget : ∀ k d, k ≠ "model" → recorderInit.known.contains k = true → (defaults recorderInit).lookup k = some d → e.get k = given kw k d := by
        intro k d h1 h2 h3
        rw [get_of_bind he _ h2, h3]
        · unfold given
          cases kw.lookup k <;> rfl
        · match pos, hp with
          | [], _ => simp
          | [x], _ =>
            have : (k == "model") = false := by simpa using h1
            simp [recorderInit, req, opt, List.lookup_cons, this]
      have hname := hget "name" .none (by decide) (by decide +kernel) rfl
      have hget' : ∀ k, k ≠ "model" → component.known.contains k = true → ((defaults component).lookup k).getD .none = .none →
          e'.get k = ((("name", if e.get "name" = .none then Val.str self else e.get "name") :: e.kwargs).lookup k).getD .none := by
        intro k h1 h2 h3
        rw [get_of_bind he' _ h2]
        · cases hl : ((("name", if e.get "name" = .none then Val.str self else e.get "name") :: e.kwargs).lookup k) with
          | some v => rfl
          | none => simpa using h3
        · have : (k == "model") = false := by simpa using h1
          simp [component, req, opt, List.lookup_cons, this]
      have hrest : ∀ k, k ≠ "name" → k ≠ "model" → component.known.contains k = true → recorderInit.known.contains k = false → ((defaults component).lookup k).getD .none = .none →
          e'.get k = given kw k .none := by
        intro k h0 h1 h2 h3 h4
        rw [hget' k h1 h2 h4]
        have : (k == "name") = false := by simpa using h0
        rw [List.lookup_cons, this, hk, lookup_filter _ (fun k => !recorderInit.known.contains k) k (by simpa using h3)]
        rfl
      congr 1
      · rw [hget' "name" (by decide) (by decide +kernel) rfl, List.lookup_cons]
        simp only [beq_self_eq_true, Option.getD_some, hname]
      · exact hrest "comment" (by decide) (by decide) (by decide +kernel) (by decide +kernel) rfl
      · exact hrest "tags" (by decide) (by decide) (by decide +kernel) (by decide +kernel) rfl
      · exact hget _ _ (by decide) (by decide +kernel) rfl
      · exact hget _ _ (by decide) (by decide +kernel) rfl
      · exact hget _ _ (by decide) (by decide +kernel) rfl
      · exact hget _ _ (by decide) (by decide +kernel) rfl
      · exact hget _ _ (by decide) (by decide +kernel) rfl
      · exact hget _ _ (by decide) (by decide +kernel) rfl

private theorem call_cons {self : String} {nameOf : Val → String} {l : Level} {ls : List Level} {pos : List Val} {kw : Kw} {a : Attrs} (h : call self nameOf (l :: ls) pos kw = some a) :
    ∃ e pos' kw', bind l.ctor pos kw = some e ∧ l.next self nameOf e = some (pos', kw') ∧ call self nameOf ls pos' kw' = some a := by
  unfold call at h
  split at h
  · cases h
  · rename_i e he
    split at h
    · cases h
    · rename_i p q hn
      exact ⟨e, p, q, he, hn, h⟩

private theorem call_kept {self : String} {nameOf : Val → String} {ls : List Level} (hf : faithful ls = true) {pos : List Val} {kw : Kw} {a : Attrs} (hp : pos.length ≤ places ls)
    (h : call self nameOf ls pos kw = some a) :
    a = ⟨a.name, given kw "comment" .none, given kw "tags" .none, given kw "agg_func" (.str "mean"), given kw "ignore_nan" (.flag false),
      given kw "is_objective" .none, given kw "epsilon" (.num 1), given kw "constraint_lower_bounds" .none, given kw "constraint_upper_bounds" .none⟩ := by
  induction ls generalizing pos kw with
  | nil => have := base_said hp h; rw [this]
  | cons l ls ih =>
    simp only [faithful, Bool.and_eq_true] at hf
    obtain ⟨e, pos', kw', h1, h2, h3⟩ := call_cons h
    obtain ⟨hc, hl, -⟩ := step hf.1 hp h1 h2
    have := ih hf.2 hl h3
    have hg : ∀ k ∈ common, ∀ d, given kw' k d = given kw k d := fun k hk d => by unfold given; rw [hc k hk]
    rw [hg "comment" (by decide), hg "tags" (by decide), hg "agg_func" (by decide), hg "ignore_nan" (by decide), hg "is_objective" (by decide), hg "epsilon" (by decide),
      hg "constraint_lower_bounds" (by decide), hg "constraint_upper_bounds" (by decide)] at this
    exact this

private theorem call_named {self : String} {nameOf : Val → String} {ls : List Level} (hf : faithful ls = true) {pos : List Val} {kw : Kw} {a : Attrs} (hp : pos.length ≤ places ls)
    (h : call self nameOf ls pos kw = some a) {v : Val} (hv : v ≠ .none) (hk : kw.lookup "name" = some v) : a.name = v := by
  induction ls generalizing pos kw with
  | nil =>
    have := base_said hp h
    rw [this]
    simp [given, hk, hv]
  | cons l ls ih =>
    simp only [faithful, Bool.and_eq_true] at hf
    obtain ⟨e, pos', kw', h1, h2, h3⟩ := call_cons h
    obtain ⟨-, hl, hn0, hn1⟩ := step hf.1 hp h1 h2
    refine ih hf.2 hl h3 ?_
    cases hn : l.names with
    | none => rw [hn0 hn, hk]
    | some d =>
      rw [hn1 d hn, hk]
      cases v with
      | none => exact absurd rfl hv
      | _ => rfl

private def plain (ls : List Level) : Bool := ls.all fun l => match l.names with
  | some (some _) => false
  | _ => true

private theorem call_plain {self : String} {nameOf : Val → String} {ls : List Level} (hf : faithful ls = true) (hpl : plain ls = true) {pos : List Val} {kw : Kw} {a : Attrs} (hp : pos.length ≤ places ls)
    (h : call self nameOf ls pos kw = some a) (hk : given kw "name" .none = .none) : a.name = .str self := by
  induction ls generalizing pos kw with
  | nil =>
    have := base_said hp h
    rw [this]
    simp [hk]
  | cons l ls ih =>
    simp only [faithful, Bool.and_eq_true] at hf
    simp only [plain, List.all_cons, Bool.and_eq_true] at hpl
    obtain ⟨e, pos', kw', h1, h2, h3⟩ := call_cons h
    obtain ⟨-, hl, hn0, hn1⟩ := step hf.1 hp h1 h2
    refine ih hf.2 hpl.2 hl h3 ?_
    unfold given at hk ⊢
    cases hn : l.names with
    | none => rw [hn0 hn, hk]
    | some d =>
      cases d with
      | none => rw [hn1 _ hn, hk]; rfl
      | some s => rw [hn] at hpl; cases hpl.1

private def carries : List Level → Bool
  | [] => false
  | l :: ls => match l.names with
    | some (some a) => (match l.ctor.formals with
      | f0 :: f1 :: _ => f0.1 != a && f1.1 == a
      | _ => false)
    | _ => (match l.ctor.formals, l.ctor.passes with
      | f0 :: f1 :: _, _ :: p1 :: _ => f0.1 != p1 && f1.1 == p1
      | [], [] => l.ctor.passArgs
      | _, _ => false) && carries ls

private theorem get_second {c : Ctor} {pos : List Val} {kw : Kw} {e : Env} (h : bind c pos kw = some e) {f0 f1 : String × Option Val} {fs : List (String × Option Val)} (hc : c.formals = f0 :: f1 :: fs)
    {m n : Val} {rest : List Val} (hp : pos = m :: n :: rest) (hne : f0.1 ≠ f1.1) : e.get f1.1 = n := by
  obtain ⟨-, -, -, -, hv⟩ := bind_some h
  unfold Env.get
  have : (f1.1 == f0.1) = false := by simpa using fun e => hne (Eq.symm e)
  rw [hv, hc, hp]
  simp [List.lookup_cons, this]

private theorem call_about {self : String} {nameOf : Val → String} {ls : List Level} (hf : faithful ls = true) (hca : carries ls = true) {m n : Val} {rest : List Val} {kw : Kw} {a : Attrs}
    (hp : (m :: n :: rest).length ≤ places ls) (h : call self nameOf ls (m :: n :: rest) kw = some a) (hk : given kw "name" .none = .none) : a.name = .str (self ++ "." ++ nameOf n) := by
  induction ls generalizing m rest kw with
  | nil => cases hca
  | cons l ls ih =>
    simp only [faithful, Bool.and_eq_true] at hf
    obtain ⟨e, pos', kw', h1, h2, h3⟩ := call_cons h
    obtain ⟨-, hl, hn0, hn1⟩ := step hf.1 hp h1 h2
    have hpos : pos' = (superCall l.ctor e).1 := by
      unfold Level.next at h2
      split at h2
      · cases h2
      · simp only [Option.some.injEq, Prod.mk.injEq] at h2
        exact h2.1.symm
    unfold carries at hca
    unfold given at hk
    by_cases hd : ∃ s, l.names = some (some s)
    · obtain ⟨s, hd⟩ := hd
      rw [hd] at hca
      simp only at hca
      split at hca
      · rename_i f0 f1 fs hfs
        simp only [Bool.and_eq_true, bne_iff_ne, beq_iff_eq] at hca
        have hg := get_second h1 hfs rfl (by rw [hca.2]; exact hca.1)
        rw [hca.2] at hg
        refine call_named hf.2 hl h3 (by simp) ?_
        rw [hn1 _ hd, hk]
        simp only [hg]
      · cases hca
    · have hca' : ((match l.ctor.formals, l.ctor.passes with
          | f0 :: f1 :: _, _ :: p1 :: _ => f0.1 != p1 && f1.1 == p1
          | [], [] => l.ctor.passArgs
          | _, _ => false) && carries ls) = true := by
        split at hca
        · rename_i s hs
          exact absurd ⟨s, hs⟩ hd
        · exact hca
      simp only [Bool.and_eq_true] at hca'
      have hk' : given kw' "name" .none = .none := by
        unfold given
        cases hn : l.names with
        | none => rw [hn0 hn, hk]
        | some d =>
          cases d with
          | none => rw [hn1 _ hn, hk]; rfl
          | some s => exact absurd ⟨s, hn⟩ hd
      have hshape : ∃ m' rest', pos' = m' :: n :: rest' := by
        have h1' := hca'.1
        split at h1'
        · rename_i f0 f1 fs p0 p1 ps hfs hps
          simp only [Bool.and_eq_true, bne_iff_ne, beq_iff_eq] at h1'
          have hg := get_second h1 hfs rfl (by rw [h1'.2]; exact h1'.1)
          rw [h1'.2] at hg
          rw [hpos]
          simp only [superCall, hps, List.map_cons, List.cons_append, hg]
          exact ⟨_, _, rfl⟩
        · rename_i hfs hps
          obtain ⟨-, ha, -⟩ := bind_some h1
          have h3' : l.ctor.passKeys = false := by
            have := hf.1
            simp only [level, Bool.and_eq_true, Bool.not_eq_true'] at this
            exact this.1.1.1.1.1.2
          rw [hpos]
          simp only [superCall, hps, h1', ha, hfs, List.map_nil, List.nil_append, if_true, List.length_nil, List.drop_zero, h3', Bool.false_eq_true, if_false, List.append_nil]
          exact ⟨_, _, rfl⟩
        · cases h1'
      obtain ⟨m', rest', rfl⟩ := hshape
      exact ih hf.2 hca'.2 hl h3 hk'

private theorem construct_ok {self : String} {nameOf : Val → String} {cls : List Level} {taken pos : List Val} {kw : Kw} {a : Attrs} (h : construct self nameOf cls taken pos kw = .ok a) :
    call self nameOf cls pos kw = some a ∧ ¬ (a.name ≠ .none ∧ a.name ∈ taken) := by
  unfold construct at h
  split at h
  · cases h
  · rename_i b hb
    split at h
    · cases h
    · rename_i hn
      cases h
      exact ⟨hb, hn⟩

/-- A recorder of any class has the comment, the tags, the aggregation over scenarios, the treatment of NaN, the direction of optimisation, the epsilon and the bounds that the keywords say, and the default values of `Recorder` where they say nothing. -/
theorem C138_kept {cls : String × List Level} (hc : cls ∈ general ∨ cls ∈ about) (self : String) (nameOf : Val → String) {taken pos : List Val} {kw : Kw} {a : Attrs} (hp : pos.length ≤ places cls.2)
    (h : construct self nameOf cls.2 taken pos kw = .ok a) :
    a.comment = given kw "comment" .none ∧ a.tags = given kw "tags" .none ∧ a.aggFunc = given kw "agg_func" (.str "mean") ∧ a.ignoreNan = given kw "ignore_nan" (.flag false) ∧
      a.isObjective = given kw "is_objective" .none ∧ a.epsilon = given kw "epsilon" (.num 1) ∧ a.lower = given kw "constraint_lower_bounds" .none ∧ a.upper = given kw "constraint_upper_bounds" .none := by
  have := call_kept (all_faithful hc) hp (construct_ok h).1
  rw [this]
  exact ⟨rfl, rfl, rfl, rfl, rfl, rfl, rfl, rfl⟩

/-- It has the name that is given; which no other component has. -/
theorem C138_named {cls : String × List Level} (hc : cls ∈ general ∨ cls ∈ about) (self : String) (nameOf : Val → String) {taken pos : List Val} {kw : Kw} {a : Attrs} (hp : pos.length ≤ places cls.2)
    (h : construct self nameOf cls.2 taken pos kw = .ok a) {v : Val} (hv : v ≠ .none) (hk : kw.lookup "name" = some v) : a.name = v ∧ v ∉ taken := by
  obtain ⟨h1, h2⟩ := construct_ok h
  have := call_named (all_faithful hc) hp h1 hv hk
  exact ⟨this, fun ht => h2 ⟨by rw [this]; exact hv, by rw [this]; exact ht⟩⟩

/-- Arguments by position end somewhere before `Recorder`, and pass by constructors that know nothing of names. -/
private def limited : List Level → Bool
  | [] => false
  | l :: ls => if l.ctor.passArgs then l.names.isNone && !(l.ctor.formals.any fun f => f.1 == "name") && limited ls && (match namePlace ls with
      | some j => decide (l.ctor.passes.length ≤ j)
      | none => true)
    else true

private theorem about_limited : ∀ cls ∈ about, limited cls.2 = true := by
  have h : (about.all fun cls => limited cls.2) = true := by decide +kernel
  exact List.all_eq_true.mp h

private theorem next_parts {self : String} {nameOf : Val → String} {l : Level} {ls : List Level} {pos pos' : List Val} {kw kw' : Kw} {e : Env} (hl : level l (places ls) = true)
    (h : bind l.ctor pos kw = some e) (hn : l.next self nameOf e = some (pos', kw')) :
    (∀ k ∈ common, kw'.lookup k = kw.lookup k) ∧ (l.ctor.passArgs = false → pos'.length ≤ places ls) ∧ (pos' = l.ctor.passes.map e.get ++ if l.ctor.passArgs then pos.drop l.ctor.formals.length else []) ∧
      (l.names = none → kw'.lookup "name" = kw.lookup "name") ∧ (∀ d, l.names = some d → e.get "name" ≠ .none → kw'.lookup "name" = some (e.get "name")) := by
  simp only [level, Bool.and_eq_true, List.all_eq_true, decide_eq_true_eq, Bool.not_eq_true'] at hl
  obtain ⟨⟨⟨⟨⟨⟨⟨-, h2⟩, h3⟩, h4⟩, h5⟩, h6⟩, h7⟩, h8⟩ := hl
  obtain ⟨hv, ha, hk, -, -⟩ := bind_some h
  unfold Level.next at hn
  split at hn
  · cases hn
  · simp only [Option.some.injEq, Prod.mk.injEq] at hn
    obtain ⟨rfl, rfl⟩ := hn
    have hs : (superCall l.ctor e).2 = kw.filter fun p => !l.ctor.known.contains p.1 := by simp [superCall, h2, hk]
    rw [hs]
    refine ⟨?_, ?_, ?_, ?_, ?_⟩
    · intro k hk
      rw [List.lookup_append, List.lookup_append, lookup_none (h5 k hk), lookup_filter _ (fun k => !l.ctor.known.contains k) k (by simpa using h4 k hk)]
      have : (l.name self nameOf e).lookup k = none := by
        unfold Level.name
        split
        · rfl
        · have : (k == "name") = false := by
            simp only [common, List.mem_cons, List.not_mem_nil, or_false] at hk
            rcases hk with rfl | rfl | rfl | rfl | rfl | rfl | rfl | rfl <;> rfl
          simp [List.lookup_cons, this]
      rw [this]
      simp
    · intro hA
      simp only [superCall, h3, hA, Bool.false_eq_true, if_false, List.append_nil, List.length_map]
      exact h7
    · simp [superCall, h3, ha]
    · intro hnm
      rw [hnm] at h8
      simp only [Bool.not_eq_true'] at h8
      rw [List.lookup_append, List.lookup_append, lookup_none h6, lookup_filter _ (fun k => !l.ctor.known.contains k) _ (by simpa using h8)]
      simp [Level.name, hnm]
    · intro d hnm hne
      rw [List.lookup_append, List.lookup_append]
      simp only [Level.name, hnm, List.lookup_cons, beq_self_eq_true, Option.some_or]
      cases hg : e.get "name" with
      | none => exact absurd hg hne
      | _ => cases d <;> rfl

private theorem call_kept_of {self : String} {nameOf : Val → String} {ls : List Level} (hf : faithful ls = true) (hli : limited ls = true) {pos : List Val} {kw : Kw} {a : Attrs}
    (h : call self nameOf ls pos kw = some a) :
    a = ⟨a.name, given kw "comment" .none, given kw "tags" .none, given kw "agg_func" (.str "mean"), given kw "ignore_nan" (.flag false),
      given kw "is_objective" .none, given kw "epsilon" (.num 1), given kw "constraint_lower_bounds" .none, given kw "constraint_upper_bounds" .none⟩ := by
  induction ls generalizing pos kw with
  | nil => cases hli
  | cons l ls ih =>
    simp only [faithful, Bool.and_eq_true] at hf
    obtain ⟨e, pos', kw', h1, h2, h3⟩ := call_cons h
    obtain ⟨hc, hl, -⟩ := next_parts hf.1 h1 h2
    have hrec : a = ⟨a.name, given kw' "comment" .none, given kw' "tags" .none, given kw' "agg_func" (.str "mean"), given kw' "ignore_nan" (.flag false),
        given kw' "is_objective" .none, given kw' "epsilon" (.num 1), given kw' "constraint_lower_bounds" .none, given kw' "constraint_upper_bounds" .none⟩ := by
      cases hA : l.ctor.passArgs
      · exact call_kept hf.2 (hl hA) h3
      · unfold limited at hli
        rw [hA] at hli
        simp only [if_true, Bool.and_eq_true] at hli
        exact ih hf.2 hli.1.2 h3
    have hg : ∀ k ∈ common, ∀ d, given kw' k d = given kw k d := fun k hk d => by unfold given; rw [hc k hk]
    rw [hg "comment" (by decide), hg "tags" (by decide), hg "agg_func" (by decide), hg "ignore_nan" (by decide), hg "is_objective" (by decide), hg "epsilon" (by decide),
      hg "constraint_lower_bounds" (by decide), hg "constraint_upper_bounds" (by decide)] at hrec
    exact hrec

private theorem call_place {self : String} {nameOf : Val → String} {ls : List Level} (hf : faithful ls = true) (hli : limited ls = true) {pos : List Val} {kw : Kw} {a : Attrs} {i : Nat} {v : Val} (hi : namePlace ls = some i)
    (hp : pos[i]? = some v) (hv : v ≠ .none) (h : call self nameOf ls pos kw = some a) : a.name = v ∧ kw.lookup "name" = none := by
  induction ls generalizing pos kw i with
  | nil => cases hli
  | cons l ls ih =>
    simp only [faithful, Bool.and_eq_true] at hf
    obtain ⟨e, pos', kw', h1, h2, h3⟩ := call_cons h
    obtain ⟨-, hl, hpos, hn0, hn1⟩ := next_parts hf.1 h1 h2
    have hlev := hf.1
    simp only [level, Bool.and_eq_true] at hlev
    have h8 := hlev.2
    unfold namePlace at hi
    by_cases hany : (l.ctor.formals.any fun f => f.1 == "name") = true
    · rw [if_pos hany] at hi
      have hA : l.ctor.passArgs = false := by
        cases hA : l.ctor.passArgs
        · rfl
        · unfold limited at hli
          rw [hA, hany] at hli
          simp at hli
      have hz : ((l.ctor.formals.map (·.1)).zip pos).lookup "name" = some v := by
        rw [lookup_zip, hi]
        exact hp
      obtain ⟨-, -, -, -, hvars⟩ := bind_some h1
      have hget : e.get "name" = v := by
        unfold Env.get
        rw [hvars, List.lookup_append, List.lookup_append, hz]
        rfl
      have hkw : kw.lookup "name" = none := by
        cases hk : kw.lookup "name" with
        | none => rfl
        | some w =>
          exfalso
          have := bind_given_once h1
          rw [List.any_eq_false] at this
          have h4 := this _ (mem_of_lookup_eq hk)
          apply h4
          have := List.mem_map_of_mem (f := (·.1)) (mem_of_lookup_eq hz)
          simpa using this
      refine ⟨?_, hkw⟩
      cases hn : l.names with
      | none =>
        rw [hn] at h8
        exfalso
        obtain ⟨f, hf', hfn⟩ := List.any_eq_true.mp hany
        have hfn : f.1 = "name" := by simpa using hfn
        have : "name" ∈ l.ctor.known := by
          unfold Ctor.known
          rw [← hfn]
          exact List.mem_map_of_mem (List.mem_append_left _ hf')
        simp [this] at h8
      | some d =>
        refine call_named hf.2 (hl hA) h3 hv ?_
        rw [hn1 d hn (by rw [hget]; exact hv), hget]
    · rw [if_neg hany] at hi
      split at hi
      · rename_i hA
        obtain ⟨j, hj, rfl⟩ := Option.map_eq_some_iff.mp hi
        unfold limited at hli
        rw [if_pos hA, hj] at hli
        simp only [Bool.and_eq_true, decide_eq_true_eq, Option.isNone_iff_eq_none] at hli
        have hp' : pos'[j]? = some v := by
          rw [hpos, if_pos hA, List.getElem?_append_right (by simpa using hli.2), List.getElem?_drop, List.length_map]
          exact hp
        obtain ⟨r1, r2⟩ := ih hf.2 hli.1.2 hj hp' h3
        exact ⟨r1, by rw [← hn0 hli.1.1.1]; exact r2⟩
      · cases hi

/-- For recorders of a node, storage or parameter all this is so whatever is given by position. -/
theorem C138_kept_of {cls : String × List Level} (hc : cls ∈ about) (self : String) (nameOf : Val → String) {taken pos : List Val} {kw : Kw} {a : Attrs} (h : construct self nameOf cls.2 taken pos kw = .ok a) :
    a.comment = given kw "comment" .none ∧ a.tags = given kw "tags" .none ∧ a.aggFunc = given kw "agg_func" (.str "mean") ∧ a.ignoreNan = given kw "ignore_nan" (.flag false) ∧
      a.isObjective = given kw "is_objective" .none ∧ a.epsilon = given kw "epsilon" (.num 1) ∧ a.lower = given kw "constraint_lower_bounds" .none ∧ a.upper = given kw "constraint_upper_bounds" .none := by
  have := call_kept_of (about_faithful cls hc) (about_limited cls hc) (construct_ok h).1
  rw [this]
  exact ⟨rfl, rfl, rfl, rfl, rfl, rfl, rfl, rfl⟩

/-- And the name may be given by position, where there is a place for it, and then not as a keyword too. -/
theorem C138_named_place {cls : String × List Level} (hc : cls ∈ about) (self : String) (nameOf : Val → String) {taken pos : List Val} {kw : Kw} {a : Attrs} {i : Nat} {v : Val} (hi : namePlace cls.2 = some i)
    (hp : pos[i]? = some v) (hv : v ≠ .none) (h : construct self nameOf cls.2 taken pos kw = .ok a) : a.name = v ∧ v ∉ taken ∧ kw.lookup "name" = none := by
  obtain ⟨h1, h2⟩ := construct_ok h
  obtain ⟨r1, r2⟩ := call_place (about_faithful cls hc) (about_limited cls hc) hi hp hv h1
  exact ⟨r1, fun ht => h2 ⟨by rw [r1]; exact hv, by rw [r1]; exact ht⟩, r2⟩

example : namePlace nodeRecorder = some 2 ∧ namePlace rollingMeanFlowNodeRecorder = some 4 ∧ namePlace minimumThresholdVolumeStorageRecorder = some 3 ∧ namePlace numpyArrayNodeRecorder = none := by decide +kernel

example : construct "minimumthresholdvolumestoragerecorder" (fun _ => "reservoir") minimumThresholdVolumeStorageRecorder [] [.other 0, .other 1, .num 10, .str "low"] [] =
    .ok ⟨.str "low", .none, .none, .str "mean", .flag false, .none, .num 1, .none, .none⟩ := rfl

/-- Without a name it has the name of its class in lower case, so that there is at most one such recorder in a model. -/
theorem C138_unnamed {cls : String × List Level} (hc : cls ∈ general) (self : String) (nameOf : Val → String) {taken pos : List Val} {kw : Kw} {a : Attrs} (hp : pos.length ≤ places cls.2)
    (h : construct self nameOf cls.2 taken pos kw = .ok a) (hk : given kw "name" .none = .none) : a.name = .str self ∧ Val.str self ∉ taken := by
  obtain ⟨h1, h2⟩ := construct_ok h
  have hpl : plain cls.2 = true := by
    have h : (general.all fun cls => plain cls.2) = true := by decide +kernel
    exact List.all_eq_true.mp h cls hc
  have := call_plain (general_faithful cls hc) hpl hp h1 hk
  exact ⟨this, fun ht => h2 ⟨by rw [this]; simp, by rw [this]; exact ht⟩⟩

/-- A recorder of a node, storage or parameter `n` has in this case the name of its class and that of `n`. -/
theorem C138_unnamed_of {cls : String × List Level} (hc : cls ∈ about) (self : String) (nameOf : Val → String) {taken rest : List Val} {m n : Val} {kw : Kw} {a : Attrs}
    (hp : (m :: n :: rest).length ≤ places cls.2) (h : construct self nameOf cls.2 taken (m :: n :: rest) kw = .ok a) (hk : given kw "name" .none = .none) :
    a.name = .str (self ++ "." ++ nameOf n) ∧ Val.str (self ++ "." ++ nameOf n) ∉ taken := by
  obtain ⟨h1, h2⟩ := construct_ok h
  have hca : carries cls.2 = true := by
    have h : (about.all fun cls => carries cls.2) = true := by decide +kernel
    exact List.all_eq_true.mp h cls hc
  have := call_about (about_faithful cls hc) hca hp h1 hk
  exact ⟨this, fun ht => h2 ⟨by rw [this]; simp, by rw [this]; exact ht⟩⟩

private theorem call_unknown {self : String} {nameOf : Val → String} {ls : List Level} (hf : faithful ls = true) {pos : List Val} {kw : Kw} {k : String} {v : Val} (hm : (k, v) ∈ kw) (hk : k ∉ keywords ls) :
    call self nameOf ls pos kw = none := by
  cases hcall : call self nameOf ls pos kw with
  | none => rfl
  | some a =>
    exfalso
    induction ls generalizing pos kw with
    | nil =>
      simp only [keywords, List.mem_cons, List.not_mem_nil, or_false, not_or] at hk
      unfold call base at hcall
      split at hcall
      · cases hcall
      · rename_i e he
        obtain ⟨-, -, hkw, -, -⟩ := bind_some he
        have hm' : (k, v) ∈ e.kwargs := by
          rw [hkw, List.mem_filter]
          exact ⟨hm, by simp [recorderInit, Ctor.known, req, opt, hk]⟩
        split at hcall
        · cases hcall
        · rename_i e' he'
          obtain ⟨-, -, -, hz, -⟩ := bind_some he'
          have hz := hz rfl
          have : (k, v) ∈ (("name", if e.get "name" = .none then Val.str self else e.get "name") :: e.kwargs).filter fun p => !component.known.contains p.1 := by
            rw [List.mem_filter]
            exact ⟨List.mem_cons_of_mem _ hm', by simp [component, Ctor.known, req, opt, hk]⟩
          rw [hz] at this
          cases this
    | cons l ls ih =>
      simp only [faithful, Bool.and_eq_true] at hf
      simp only [keywords, List.mem_append, not_or] at hk
      obtain ⟨e, pos', kw', h1, h2, h3⟩ := call_cons hcall
      refine ih hf.2 ?_ hk.2 h3
      obtain ⟨-, -, hkw, -, -⟩ := bind_some h1
      have hl := hf.1
      simp only [level, Bool.and_eq_true] at hl
      have hpk : l.ctor.passKw = true := hl.1.1.1.1.1.1.2
      unfold Level.next at h2
      split at h2
      · cases h2
      · simp only [Option.some.injEq, Prod.mk.injEq] at h2
        rw [← h2.2]
        refine List.mem_append_right _ ?_
        simp only [superCall, hpk, if_true, hkw, List.mem_filter]
        exact ⟨hm, by simpa using hk.1⟩

/-- A keyword that nothing a class is derived from knows is refused with `TypeError`. -/
theorem C138_unknown {cls : String × List Level} (hc : cls ∈ general ∨ cls ∈ about) (self : String) (nameOf : Val → String) (taken pos : List Val) {kw : Kw} {k : String} {v : Val} (hm : (k, v) ∈ kw)
    (hk : k ∉ keywords cls.2) : construct self nameOf cls.2 taken pos kw = .error .type := by
  unfold construct
  rw [call_unknown (all_faithful hc) hm hk]

/-- The kernel density estimate of a storage is of its proportional volume: this cannot be changed, and `NumpyArrayStorageRecorder` is told so. -/
theorem C138_proportional (self : String) (nameOf : Val → String) (taken pos : List Val) (kw : Kw) :
    (∀ v, ("proportional", v) ∈ kw → construct self nameOf gaussianKDEStorageRecorder taken pos kw = .error .type) ∧
    ∃ l ls, gaussianKDEStorageRecorder = l :: ls ∧ ls = numpyArrayStorageRecorder ∧ ∀ e pos' kw', l.next self nameOf e = some (pos', kw') → kw'.lookup "proportional" = some (.flag true) := by
  constructor
  · intro v hv
    cases h : construct self nameOf gaussianKDEStorageRecorder taken pos kw with
    | error e =>
      unfold construct at h
      split at h
      · cases h; rfl
      · rename_i a ha
        exfalso
        unfold gaussianKDEStorageRecorder at ha
        obtain ⟨e, pos', kw', h1, h2, -⟩ := call_cons ha
        obtain ⟨-, -, hkw, -, -⟩ := bind_some h1
        unfold Level.next at h2
        rw [if_pos] at h2
        · cases h2
        · rw [List.any_eq_true]
          refine ⟨("proportional", v), ?_, by simp [Level.name]⟩
          simp only [superCall, if_true, hkw, List.mem_filter]
          exact ⟨hv, by decide +kernel⟩
    | ok a =>
      exfalso
      have ha := (construct_ok h).1
      unfold gaussianKDEStorageRecorder at ha
      obtain ⟨e, pos', kw', h1, h2, -⟩ := call_cons ha
      obtain ⟨-, -, hkw, -, -⟩ := bind_some h1
      unfold Level.next at h2
      rw [if_pos] at h2
      · cases h2
      · rw [List.any_eq_true]
        refine ⟨("proportional", v), ?_, by simp [Level.name]⟩
        simp only [superCall, if_true, hkw, List.mem_filter]
        exact ⟨hv, by decide +kernel⟩
  · refine ⟨_, _, rfl, rfl, ?_⟩
    intro e pos' kw' h
    unfold Level.next at h
    split at h
    · cases h
    · simp only [Option.some.injEq, Prod.mk.injEq] at h
      rw [← h.2]
      simp [Level.name]

/-- The recorders of two parameters without names cannot both be without names: they would have the same. -/
theorem C138_two_fails (nameOf : Val → String) (h : ∀ i, nameOf (.other i) = "None") : ∃ a, construct "numpyarrayparameterrecorder" nameOf numpyArrayParameterRecorder [] [.other 0, .other 1] [] = .ok a ∧
    construct "numpyarrayparameterrecorder" nameOf numpyArrayParameterRecorder [a.name] [.other 0, .other 2] [] = .error .value ∧ Val.other 1 ≠ Val.other 2 := by
  refine ⟨⟨.str ("numpyarrayparameterrecorder" ++ "." ++ "None"), .none, .none, .str "mean", .flag false, .none, .num 1, .none, .none⟩, ?_, ?_, by decide⟩
  · have : construct "numpyarrayparameterrecorder" nameOf numpyArrayParameterRecorder [] [.other 0, .other 1] [] =
        .ok ⟨.str ("numpyarrayparameterrecorder" ++ "." ++ nameOf (.other 1)), .none, .none, .str "mean", .flag false, .none, .num 1, .none, .none⟩ := rfl
    rw [this, h]
  · have : call "numpyarrayparameterrecorder" nameOf numpyArrayParameterRecorder [.other 0, .other 2] [] =
        some ⟨.str ("numpyarrayparameterrecorder" ++ "." ++ nameOf (.other 2)), .none, .none, .str "mean", .flag false, .none, .num 1, .none, .none⟩ := rfl
    unfold construct
    rw [this, h]
    simp

example : general.length = 12 ∧ about.length = 49 ∧ places hydropowerRecorder = 8 ∧ places annualTotalFlowRecorder = 1 ∧ places gaussianKDEStorageRecorder = 2 ∧ places storageThresholdRecorder = 3 ∧
    (about.all fun cls => 2 ≤ places cls.2) = true := by decide +kernel

example : construct "storagethresholdrecorder" (fun _ => "reservoir") storageThresholdRecorder [.str "reservoir"] [.other 0, .other 1, .num 10] [("predicate", .str "<"), ("agg_func", .str "max"), ("is_objective", .str "min")] =
    .ok ⟨.str "storagethresholdrecorder.reservoir", .none, .none, .str "max", .flag false, .str "min", .num 1, .none, .none⟩ := rfl

example : ("GaussianKDEStorageRecorder", gaussianKDEStorageRecorder) ∈ about ∧ "factor" ∉ keywords gaussianKDEStorageRecorder := by
  refine ⟨by simp [about], by decide +kernel⟩

end Verif.RecorderKeywords

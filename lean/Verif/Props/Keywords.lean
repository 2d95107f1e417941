import Verif.Spec.Keywords
import Verif.Proof.Keywords
import Mathlib.Tactic.Tauto
/-! # C137: what is said about a parameter when it is made is what it has -/

namespace Verif.Keywords

/-- A constructor that leaves the common keywords alone and hands them on. -/
private def level (c : Ctor) (room : Nat) : Bool :=
  c.varKw && c.passKw && !c.passKeys && common.all (fun k => !c.known.contains k) && decide (c.passes.length ≤ room)

private def faithful : List Ctor → Bool
  | [] => true
  | c :: cs => level c (places cs) && faithful cs

private theorem classes_faithful : ∀ cls ∈ classes, faithful cls.2 = true := by
  have h : (classes.all fun cls => faithful cls.2) = true := by decide +kernel
  exact List.all_eq_true.mp h

/-- One more common keyword at a level that does not know it. -/
private theorem bind_added {c : Ctor} {pos : List Val} {kw : Kw} {e : Env} (h : bind c pos kw = some e) {k : String} (v : Val) (hk : c.known.contains k = false) (hv : c.varKw = true) :
    bind c pos (kw ++ [(k, v)]) = some ⟨e.vars, e.args, e.kwargs ++ [(k, v)]⟩ := by
  have hn : ((((c.formals.map (·.1)).zip pos).map (·.1)).contains k) = false := by
    by_contra hc
    have hc' : k ∈ (((c.formals.map (·.1)).zip pos).map (·.1)) := by simpa using hc
    obtain ⟨p, hp, rfl⟩ := List.mem_map.mp hc'
    have := zip_keys _ _ p hp
    have : p.1 ∈ c.known := by
      unfold Ctor.known
      rw [List.map_append]
      exact List.mem_append_left _ this
    have : c.known.contains p.1 = true := by simpa using this
    rw [this] at hk; cases hk
  unfold bind at h ⊢
  simp only [hv, List.filter_append, List.any_append, List.any_cons, List.any_nil, hn, Bool.or_false, Bool.not_true, Bool.false_and, List.filter_cons, hk, List.filter_nil, List.append_nil,
    Bool.not_false, if_true, Bool.false_eq_true, if_false] at h ⊢
  split at h
  · cases h
  · rename_i h1
    rw [if_neg h1]
    split at h
    · cases h
    · rename_i h2
      rw [if_neg h2]
      split at h
      · cases h
      · rename_i h3
        rw [if_neg h3]
        cases h
        rfl

private theorem base_kept {pos : List Val} {kw : Kw} {a : Attrs} (hp : pos.length ≤ 1) (h : base pos kw = some a) : a = said kw := by
  unfold base at h
  split at h
  · cases h
  · rename_i e he
    split at h
    · cases h
    · rename_i e' he'
      cases h
      obtain ⟨-, ha, hk, -, hv⟩ := bind_some he
      obtain ⟨-, -, -, hz, hv'⟩ := bind_some he'
      have hs : superCall parameterInit e = (pos, kw.filter fun p => !parameterInit.known.contains p.1) := by
        simp [superCall, parameterInit, ha, hk]
      rw [hs] at hv'
      have hfix : ∀ k : String, k ≠ "model" → k ≠ "is_variable" → component.known.contains k = true → (e'.vars.lookup k).getD .none = given kw k .none := by
        intro k h1 h2 h3
        rw [hv', List.lookup_append, List.lookup_append]
        have hz : ((component.formals.map (·.1)).zip pos).lookup k = none := by
          match pos, hp with
          | [], _ => simp
          | [x], _ =>
            have : (k == "model") = false := by simpa using h1
            simp [component, req, opt, List.lookup_cons, this]
        rw [hz, lookup_filter _ (fun k => component.known.contains k) k h3, lookup_filter _ (fun k => !parameterInit.known.contains k) k (by
          simpa [parameterInit, Ctor.known] using h2)]
        unfold given
        have h5 : (k == "model") = false := by simpa using h1
        cases hl : kw.lookup k with
        | some v => simp
        | none =>
          simp only [Option.none_or, Option.getD_none]
          simp only [component, req, opt, List.append_nil, List.filterMap_cons, Option.map_none, Option.map_some, List.filterMap_nil, List.lookup_cons]
          cases (k == "name") <;> cases (k == "comment") <;> cases (k == "tags") <;> simp
      unfold said
      congr 1
      · exact hfix "name" (by decide) (by decide) (by decide +kernel)
      · exact hfix "comment" (by decide) (by decide) (by decide +kernel)
      · exact hfix "tags" (by decide) (by decide) (by decide +kernel)
      · unfold Env.get given
        rw [hv, List.lookup_append, List.lookup_append, lookup_filter _ (fun k => parameterInit.known.contains k) _ (by decide +kernel)]
        cases hl : kw.lookup "is_variable" with
        | some v => simp [parameterInit]
        | none => simp [parameterInit, List.lookup_cons]

private theorem level_said {c : Ctor} {pos : List Val} {kw : Kw} {e : Env} {room : Nat} (hl : level c room = true) (h : bind c pos kw = some e) : said (superCall c e).2 = said kw := by
  simp only [level, Bool.and_eq_true, List.all_eq_true, decide_eq_true_eq] at hl
  obtain ⟨⟨⟨⟨-, h2⟩, -⟩, h4⟩, -⟩ := hl
  obtain ⟨-, -, hk, -⟩ := bind_some h
  have : (superCall c e).2 = kw.filter fun p => !c.known.contains p.1 := by simp [superCall, h2, hk]
  rw [this]
  unfold said given
  rw [lookup_filter _ (fun k => !c.known.contains k) _ (h4 "name" (by decide)), lookup_filter _ (fun k => !c.known.contains k) _ (h4 "comment" (by decide)),
    lookup_filter _ (fun k => !c.known.contains k) _ (h4 "tags" (by decide)), lookup_filter _ (fun k => !c.known.contains k) _ (h4 "is_variable" (by decide))]

private theorem level_room {c : Ctor} {cs : List Ctor} {pos : List Val} {kw : Kw} {e : Env} (hl : level c (places cs) = true) (h : bind c pos kw = some e) (hp : pos.length ≤ places (c :: cs)) :
    (superCall c e).1.length ≤ places cs := by
  simp only [level, Bool.and_eq_true, List.all_eq_true, decide_eq_true_eq, Bool.not_eq_true'] at hl
  obtain ⟨⟨⟨⟨-, -⟩, h3⟩, -⟩, h5⟩ := hl
  obtain ⟨hv, ha, -⟩ := bind_some h
  unfold places at hp
  simp only [superCall, h3, Bool.false_eq_true, if_false, List.append_nil, List.length_append, List.length_map]
  cases hA : c.passArgs
  · simpa using h5
  · simp only [if_true, ha, List.length_drop]
    cases hV : c.varArgs
    · have := hv hV
      omega
    · simp only [hV, hA, Bool.and_self, if_true] at hp
      omega

private theorem call_kept {cs : List Ctor} (hf : faithful cs = true) {pos : List Val} {kw : Kw} {a : Attrs} (hp : pos.length ≤ places cs) (h : call cs pos kw = some a) : a = said kw := by
  induction cs generalizing pos kw with
  | nil => exact base_kept hp h
  | cons c cs ih =>
    simp only [faithful, Bool.and_eq_true] at hf
    unfold call at h
    split at h
    · cases h
    · rename_i e he
      rw [ih hf.2 (level_room hf.1 he hp) h, level_said hf.1 he]

private theorem construct_ok {cls : List Ctor} {taken pos : List Val} {kw : Kw} {a : Attrs} (h : construct cls taken pos kw = .ok a) : call cls pos kw = some a ∧ ¬ (a.name ≠ .none ∧ a.name ∈ taken) := by
  unfold construct at h
  split at h
  · cases h
  · rename_i b hb
    split at h
    · cases h
    · rename_i hn
      cases h
      exact ⟨hb, hn⟩

/-- A parameter of any class but `DataFrameParameter` that is made has the name, the comment, the tags and the `is_variable` that the keywords say, and without them none, and is not variable. -/
theorem C137_kept {cls : String × List Ctor} (hc : cls ∈ classes) {taken pos : List Val} {kw : Kw} {a : Attrs} (hp : pos.length ≤ places cls.2)
    (h : construct cls.2 taken pos kw = .ok a) :
    a.name = given kw "name" .none ∧ a.comment = given kw "comment" .none ∧ a.tags = given kw "tags" .none ∧ a.isVariable = given kw "is_variable" (.flag false) ∧ (a.name = .none ∨ a.name ∉ taken) := by
  obtain ⟨h1, h2⟩ := construct_ok h
  have := call_kept (classes_faithful cls hc) hp h1
  subst this
  refine ⟨rfl, rfl, rfl, rfl, ?_⟩
  by_cases hn : (said kw).name = .none
  · exact .inl hn
  · exact .inr fun hm => h2 ⟨hn, hm⟩

private theorem base_added {pos : List Val} {kw : Kw} {a : Attrs} (hp : pos.length ≤ 1) (h : base pos kw = some a) {k : String} (v : Val) (hk : k ∈ common) : ∃ a', base pos (kw ++ [(k, v)]) = some a' := by
  unfold base at h
  split at h
  · cases h
  · rename_i e he
    split at h
    · cases h
    · rename_i e' he'
      obtain ⟨-, ha, hkw, -, -⟩ := bind_some he
      have hs : superCall parameterInit e = (pos, kw.filter fun p => !parameterInit.known.contains p.1) := by
        simp [superCall, parameterInit, ha, hkw]
      rw [hs] at he'
      have hb1 : bind parameterInit pos (kw ++ [(k, v)]) = some ⟨((kw ++ [(k, v)]).filter fun p => parameterInit.known.contains p.1) ++ [("is_variable", .flag false)], pos,
          (kw ++ [(k, v)]).filter fun p => !parameterInit.known.contains p.1⟩ := by
        simp [bind, parameterInit]
      unfold base
      rw [hb1]
      simp only
      have hs' : (superCall parameterInit ⟨((kw ++ [(k, v)]).filter fun p => parameterInit.known.contains p.1) ++ [("is_variable", .flag false)], pos,
          (kw ++ [(k, v)]).filter fun p => !parameterInit.known.contains p.1⟩) = (pos, (kw.filter fun p => !parameterInit.known.contains p.1) ++ ([(k, v)].filter fun p => !parameterInit.known.contains p.1)) := by
        simp [superCall, parameterInit]
      rw [hs']
      simp only
      by_cases hi : k = "is_variable"
      · subst hi
        have : ([("is_variable", v)].filter fun p => !parameterInit.known.contains p.1) = [] := by
          have : parameterInit.known.contains "is_variable" = true := by decide +kernel
          simp only [List.filter_cons, this, List.filter_nil]; rfl
        rw [this, List.append_nil, he']
        exact ⟨_, rfl⟩
      · have h0 : parameterInit.known.contains k = false := by simpa [parameterInit, Ctor.known] using hi
        have h1 : ([(k, v)].filter fun p => !parameterInit.known.contains p.1) = [(k, v)] := by
          simp only [List.filter_cons, h0, List.filter_nil]; rfl
        rw [h1]
        have h2 : component.known.contains k = true := by
          simp only [common, List.mem_cons, List.not_mem_nil, or_false] at hk
          rcases hk with rfl | rfl | rfl | rfl
          · decide +kernel
          · decide +kernel
          · decide +kernel
          · exact absurd rfl hi
        have h3 : k ≠ "model" := by
          rintro rfl
          revert hk; decide
        have hn : ((((component.formals.map (·.1)).zip pos).map (·.1)).contains k) = false := by
          match pos, hp with
          | [], _ => simp
          | [x], _ => simpa [component, req, opt] using h3
        generalize hkw' : (kw.filter fun p => !parameterInit.known.contains p.1) = kw' at he'
        unfold bind at he' ⊢
        simp only [List.filter_append, List.any_append, List.any_cons, List.any_nil, hn, Bool.or_false, List.filter_cons, h2, List.filter_nil, List.append_nil, Bool.not_true, if_true, Bool.false_eq_true,
          if_false] at he' ⊢
        split at he'
        · cases he'
        · rename_i g1
          rw [if_neg g1]
          split at he'
          · cases he'
          · rename_i g2
            rw [if_neg g2]
            split at he'
            · cases he'
            · rename_i g3
              rw [if_neg g3]
              split at he'
              · cases he'
              · rename_i g4
                rw [if_neg]
                · exact ⟨_, rfl⟩
                · intro hc
                  apply g4
                  rw [← List.any_append, List.any_eq_true] at hc ⊢
                  obtain ⟨f, hf, hf'⟩ := hc
                  refine ⟨f, hf, ?_⟩
                  simp only [Bool.and_eq_true, Bool.not_eq_true', List.map_append, List.contains_append, Bool.or_eq_false_iff] at hf' ⊢
                  tauto

private theorem call_added {cs : List Ctor} (hf : faithful cs = true) {pos : List Val} {kw : Kw} {a : Attrs} (hp : pos.length ≤ places cs) (h : call cs pos kw = some a) {k : String} (v : Val)
    (hk : k ∈ common) : ∃ a', call cs pos (kw ++ [(k, v)]) = some a' := by
  induction cs generalizing pos kw with
  | nil => exact base_added hp h v hk
  | cons c cs ih =>
    simp only [faithful, Bool.and_eq_true] at hf
    unfold call at h
    split at h
    · cases h
    · rename_i e he
      have hr := level_room hf.1 he hp
      have hl := hf.1
      simp only [level, Bool.and_eq_true, List.all_eq_true, decide_eq_true_eq, Bool.not_eq_true'] at hl
      obtain ⟨⟨⟨⟨h1, h2⟩, h3⟩, h4⟩, -⟩ := hl
      obtain ⟨a', ha'⟩ := ih hf.2 hr h
      refine ⟨a', ?_⟩
      unfold call
      rw [bind_added he v (h4 k hk) h1]
      simp only
      have : superCall c ⟨e.vars, e.args, e.kwargs ++ [(k, v)]⟩ = ((superCall c e).1, (superCall c e).2 ++ [(k, v)]) := by
        simp [superCall, h2, h3, Env.get]
      rw [this]
      exact ha'

/-- Saying something more about a parameter does not keep it from being made, unless the name is taken. -/
theorem C137_added {cls : String × List Ctor} (hc : cls ∈ classes) {taken pos : List Val} {kw : Kw} {a : Attrs} (hp : pos.length ≤ places cls.2) (h : construct cls.2 taken pos kw = .ok a)
    {k : String} (hk : k ∈ common) (hnew : kw.lookup k = none) (v : Val) :
    (k = "name" ∧ v ≠ .none ∧ v ∈ taken ∧ construct cls.2 taken pos (kw ++ [(k, v)]) = .error .value) ∨
      (¬ (k = "name" ∧ v ≠ .none ∧ v ∈ taken) ∧ construct cls.2 taken pos (kw ++ [(k, v)]) =
        .ok (if k = "name" then { a with name := v } else if k = "comment" then { a with comment := v } else if k = "tags" then { a with tags := v } else { a with isVariable := v })) := by
  obtain ⟨h1, h2⟩ := construct_ok h
  obtain ⟨a', ha'⟩ := call_added (classes_faithful cls hc) hp h1 v hk
  have e1 := call_kept (classes_faithful cls hc) hp h1
  have e2 := call_kept (classes_faithful cls hc) hp ha'
  have e3 : a' = (if k = "name" then { a with name := v } else if k = "comment" then { a with comment := v } else if k = "tags" then { a with tags := v } else { a with isVariable := v }) := by
    rw [e2, e1]
    simp only [common, List.mem_cons, List.not_mem_nil, or_false] at hk
    rcases hk with rfl | rfl | rfl | rfl <;> simp [said, given, List.lookup_append, hnew, List.lookup_cons]
  unfold construct
  rw [ha']
  simp only
  by_cases hn : k = "name"
  · have : a'.name = v := by rw [e3, if_pos hn]
    rw [this]
    by_cases ht : v ≠ .none ∧ v ∈ taken
    · left
      exact ⟨hn, ht.1, ht.2, if_pos ht⟩
    · right
      exact ⟨fun hc => ht hc.2, by rw [if_neg ht, e3]⟩
  · have : a'.name = a.name := by
      rw [e3, if_neg hn]
      split
      · rfl
      · split <;> rfl
    rw [this]
    right
    exact ⟨fun hc => hn hc.1, by rw [if_neg h2, e3]⟩

private theorem bind_filter {c : Ctor} {pos : List Val} {kw : Kw} {e : Env} (h : bind c pos kw = some e) {k : String} {v : Val} (hm : (k, v) ∈ kw) (hk : k ∉ c.known) : (k, v) ∈ e.kwargs := by
  obtain ⟨-, -, hkw, -⟩ := bind_some h
  rw [hkw]
  simpa [List.mem_filter] using ⟨hm, hk⟩

private theorem call_unknown {cs : List Ctor} (hf : faithful cs = true) {pos : List Val} {kw : Kw} {k : String} {v : Val} (hm : (k, v) ∈ kw) (hk : k ∉ keywords cs) : call cs pos kw = none := by
  induction cs generalizing pos kw with
  | nil =>
    simp only [keywords, common, List.mem_cons, List.not_mem_nil, or_false, not_or] at hk
    unfold call base
    split
    · rfl
    · rename_i e he
      have hm' := bind_filter he hm (by simpa [parameterInit, Ctor.known] using hk.2.2.2.2)
      split
      · rfl
      · rename_i e' he'
        obtain ⟨-, -, -, hz, -⟩ := bind_some he'
        have hz := hz rfl
        have : (k, v) ∈ (superCall parameterInit e).2.filter fun p => !component.known.contains p.1 := by
          rw [List.mem_filter]
          refine ⟨by simpa [superCall, parameterInit] using hm', ?_⟩
          simp [component, Ctor.known, req, opt, hk]
        rw [hz] at this
        cases this
  | cons c cs ih =>
    simp only [faithful, Bool.and_eq_true] at hf
    simp only [keywords, List.mem_append, not_or] at hk
    unfold call
    split
    · rfl
    · rename_i e he
      have hl := hf.1
      simp only [level, Bool.and_eq_true] at hl
      refine ih hf.2 ?_ hk.2
      simpa [superCall, hl.1.1.1.2] using bind_filter he hm hk.1

/-- A keyword that nothing a class is derived from knows, a misspelt one, is refused with `TypeError`. -/
theorem C137_unknown {cls : String × List Ctor} (hc : cls ∈ classes) (taken pos : List Val) {kw : Kw} {k : String} {v : Val} (hm : (k, v) ∈ kw) (hk : k ∉ keywords cls.2) :
    construct cls.2 taken pos kw = .error .type := by
  unfold construct
  rw [call_unknown (classes_faithful cls hc) hm hk]

private theorem zip_take (l : List String) (pos : List Val) : (l.zip pos).map (·.1) = l.take pos.length := by
  induction l generalizing pos with
  | nil => simp
  | cons a l ih =>
    cases pos with
    | nil => rfl
    | cons p pos => simpa using ih pos

private theorem bind_twice {c : Ctor} {pos : List Val} {kw : Kw} {k : String} {v : Val} (hm : (k, v) ∈ kw) (hk : k ∈ (c.formals.map (·.1)).take pos.length) : bind c pos kw = none := by
  have hk' : k ∈ ((c.formals.map (·.1)).zip pos).map (·.1) := by
    rw [zip_take]; exact hk
  have : (kw.any fun p => (((c.formals.map (·.1)).zip pos).map (·.1)).contains p.1) = true := by
    rw [List.any_eq_true]
    exact ⟨(k, v), hm, by simpa using hk'⟩
  unfold bind
  simp only [this, if_true]
  split <;> rfl

private theorem bind_missing {c : Ctor} {pos : List Val} {kw : Kw} {k : String} (hr : (k, none) ∈ c.formals ++ c.kwOnly) (hp : k ∉ (c.formals.map (·.1)).take pos.length) (hk : ∀ v, (k, v) ∉ kw) :
    bind c pos kw = none := by
  have hk' : k ∉ (((c.formals.map (·.1)).zip pos) ++ (kw.filter fun p => c.known.contains p.1)).map (·.1) := by
    rw [List.map_append, List.mem_append]
    rintro (h | h)
    · rw [zip_take] at h
      exact hp h
    · obtain ⟨p, h1, rfl⟩ := List.mem_map.mp h
      exact hk p.2 (List.mem_of_mem_filter h1)
  have : ((c.formals ++ c.kwOnly).any fun f => f.2.isNone && !((((c.formals.map (·.1)).zip pos) ++ (kw.filter fun p => c.known.contains p.1)).map (·.1)).contains f.1) = true := by
    rw [List.any_eq_true]
    exact ⟨(k, none), hr, by simpa using hk'⟩
  unfold bind
  simp only [this, if_true]
  split
  · rfl
  · split
    · rfl
    · split <;> rfl

/-- An argument that is given by position and again by keyword, or one that has to be given and is not, is refused with `TypeError`; also by `DataFrameParameter`. -/
theorem C137_twice_missing (c : Ctor) (cs : List Ctor) (taken pos : List Val) (kw : Kw) (k : String) :
    (∀ v, (k, v) ∈ kw → k ∈ (c.formals.map (·.1)).take pos.length → construct (c :: cs) taken pos kw = .error .type) ∧
    (req k ∈ c.formals ++ c.kwOnly → k ∉ (c.formals.map (·.1)).take pos.length → (∀ v, (k, v) ∉ kw) → construct (c :: cs) taken pos kw = .error .type) := by
  constructor
  · intro v hm hk
    unfold construct call
    rw [bind_twice hm hk]
  · intro hr hp hk
    unfold construct call
    rw [bind_missing hr hp hk]

private theorem frame_call (m df : Val) (kw : Kw) (h : ∀ p ∈ kw, p.1 ∉ ["model", "dataframe", "scenario", "timestep_offset"]) :
    call dataFrameParameter [m, df] kw = base (m :: kw.map fun p => Val.str p.1) [] := by
  have hb : ∃ vars, bind (⟨[req "model", req "dataframe", opt "scenario", opt "timestep_offset"], false, [], true, ["model"], false, true, false⟩ : Ctor) [m, df] kw =
      some ⟨("model", m) :: ("dataframe", df) :: vars, [], kw⟩ := by
    have h1 : (kw.filter fun p => !(["model", "dataframe", "scenario", "timestep_offset"].contains p.1)) = kw := by
      rw [List.filter_eq_self]
      intro p hp
      have := h p hp
      simpa using this
    have h2 : (kw.any fun p => (["model", "dataframe"].contains p.1)) = false := by
      rw [List.any_eq_false]
      intro p hp
      have := h p hp
      simp only [List.mem_cons, List.not_mem_nil, or_false, not_or] at this
      simp [this.1, this.2.1]
    refine ⟨(kw.filter fun p => ["model", "dataframe", "scenario", "timestep_offset"].contains p.1) ++ [("scenario", .none), ("timestep_offset", .none)], ?_⟩
    unfold bind
    refine (if_neg ?_).trans ((if_neg ?_).trans ((if_neg ?_).trans ((if_neg ?_).trans ?_)))
    · exact Bool.false_ne_true
    · exact fun hc => Bool.false_ne_true (h2.symm.trans hc)
    · exact Bool.false_ne_true
    · simp [req, opt]
    · exact congrArg (fun l => some (Env.mk _ _ l)) h1
  obtain ⟨vars, hb⟩ := hb
  unfold dataFrameParameter call parameter
  rw [hb]
  simp [superCall, call, Env.get]

private theorem base_keys (m : Val) (ks : List Val) :
    base (m :: ks) [] = match ks with
      | [] => some ⟨.none, .none, .none, .flag false⟩
      | [a] => some ⟨a, .none, .none, .flag false⟩
      | [a, b] => some ⟨a, b, .none, .flag false⟩
      | [a, b, c] => some ⟨a, b, c, .flag false⟩
      | _ => none := by
  match ks with
  | [] => rfl
  | [a] => rfl
  | [a, b] => rfl
  | [a, b, c] => rfl
  | a :: b :: c :: d :: l => simp [base, bind, parameterInit, component, superCall, req, opt]

/-- A data frame parameter made without further keywords is fine. -/
theorem C137_dataframe_partial (taken : List Val) (m df : Val) : construct dataFrameParameter taken [m, df] [] = .ok ⟨.none, .none, .none, .flag false⟩ := by
  unfold construct
  rw [frame_call m df [] (by simp), List.map_nil, base_keys]
  simp

/-- But the constructor passes `*kwargs` for `**kwargs` (`_parameters.pyx:207`): the first further keyword itself is the name of a data frame parameter, the second its comment, the third its tags, whatever is said with them; it is never
variable; with more than three it cannot be made; and a second one with the same first keyword in a model is refused. -/
theorem C137_dataframe_fails (taken : List Val) (m df : Val) {k : String} {v : Val} {kw : Kw} (h : ∀ p ∈ (k, v) :: kw, p.1 ∉ ["model", "dataframe", "scenario", "timestep_offset"]) :
    (Val.str k ∈ taken → kw.length ≤ 2 → construct dataFrameParameter taken [m, df] ((k, v) :: kw) = .error .value) ∧
      (Val.str k ∉ taken → kw.length ≤ 2 → construct dataFrameParameter taken [m, df] ((k, v) :: kw) =
        .ok ⟨.str k, ((kw.map fun p => Val.str p.1)[0]?).getD .none, ((kw.map fun p => Val.str p.1)[1]?).getD .none, .flag false⟩) ∧
      (2 < kw.length → construct dataFrameParameter taken [m, df] ((k, v) :: kw) = .error .type) := by
  unfold construct
  rw [frame_call m df _ h, List.map_cons, base_keys]
  match kw with
  | [] => simp
  | [a] => simp
  | [a, b] => simp
  | a :: b :: c :: l => simp

example : construct dataFrameParameter [] [.other 0, .other 1] [("name", .str "inflow")] = .ok ⟨.str "name", .none, .none, .flag false⟩ ∧
    construct dataFrameParameter [.str "name"] [.other 0, .other 2] [("name", .str "demand")] = .error .value := ⟨rfl, rfl⟩

/-- 74 classes; the places of some of them. -/
example : classes.length = 74 ∧ places constantParameter = 6 ∧ places controlCurveParameter = 8 ∧ places abstractThresholdParameter = 2 ∧ places interpolatedVolumeParameter = 5 := by decide +kernel

example : construct controlCurveParameter [.str "curve"] [.other 0, .other 1, .other 2] [("name", .str "release"), ("values", .other 3), ("is_variable", .flag true)] =
    .ok ⟨.str "release", .none, .none, .flag true⟩ := rfl

example : construct interpolatedVolumeParameter [.str "curve"] [.other 0, .other 1, .other 2, .other 3] [("interp_kwargs", .other 4), ("comment", .str "of 2020")] =
    .ok ⟨.none, .str "of 2020", .none, .flag false⟩ := rfl

/-- The table of a data frame parameter is given twice; the control curves are missing. -/
example : construct dataFrameParameter [] [.other 0, .other 1] [("dataframe", .other 2)] = .error .type ∧ construct controlCurveParameter [] [.other 0, .other 1] [("values", .other 3)] = .error .type :=
  ⟨(C137_twice_missing _ _ _ _ _ "dataframe").1 (.other 2) (by simp) (by decide +kernel), (C137_twice_missing _ _ _ _ _ "control_curves").2 (by simp [req]) (by decide +kernel) (by simp)⟩

/-- Misspelt: `is_variabel`. -/
example : "is_variabel" ∉ keywords controlCurveParameter ∧ ("ControlCurveParameter", controlCurveParameter) ∈ classes := by
  refine ⟨by decide +kernel, by simp [classes]⟩

end Verif.Keywords

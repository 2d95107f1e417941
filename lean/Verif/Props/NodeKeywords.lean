import Verif.Spec.NodeKeywords
import Verif.Proof.Keywords
/-! # C139: what is said about a node when it is made is what it has -/

namespace Verif.NodeKeywords
open Verif.Keywords

private def defaults (c : Ctor) : Kw := (c.formals ++ c.kwOnly).filterMap fun f => f.2.map fun v => (f.1, v)

private def filled (c : Ctor) (pos : List Val) : Kw := (c.formals.map (·.1)).zip pos

private theorem get_of_bind {c : Ctor} {pos : List Val} {kw : Kw} {e : Env} (h : bind c pos kw = some e) {k : String} (hk : c.known.contains k = true) :
    e.get k = (((filled c pos).lookup k).or ((kw.lookup k).or ((defaults c).lookup k))).getD .none := by
  obtain ⟨-, -, -, -, hv⟩ := bind_some h
  unfold Env.get
  rw [hv, List.lookup_append, List.lookup_append, lookup_filter _ (fun k => c.known.contains k) k hk, Option.or_assoc]
  rfl

private theorem bind_once {c : Ctor} {pos : List Val} {kw : Kw} {e : Env} (h : bind c pos kw = some e) : (kw.any fun p => ((filled c pos).map (·.1)).contains p.1) = false := by
  unfold Keywords.bind at h
  simp only at h
  split at h
  · cases h
  · split at h
    · cases h
    · rename_i h2
      simpa [filled] using h2

private theorem lookup_none {l : Kw} {k : String} (h : ((l.map (·.1)).contains k) = false) : l.lookup k = none := by
  induction l with
  | nil => rfl
  | cons p l ih =>
    obtain ⟨a, v⟩ := p
    simp only [List.map_cons, List.contains_cons, Bool.or_eq_false_iff] at h
    rw [List.lookup_cons, h.1]
    exact ih h.2

private theorem mem_of_lookup {l : Kw} {k : String} {v : Val} (h : l.lookup k = some v) : (k, v) ∈ l := by
  induction l with
  | nil => cases h
  | cons p l ih =>
    obtain ⟨a, w⟩ := p
    rw [List.lookup_cons] at h
    by_cases e : (k == a) = true
    · rw [e] at h
      simp only [Option.some.injEq] at h
      have : k = a := by simpa using e
      subst this; subst h
      exact List.mem_cons_self
    · have : (k == a) = false := by simpa using e
      rw [this] at h
      exact List.mem_cons_of_mem _ (ih h)

private theorem zip_lookup (l : List (String × Option Val)) (pos : List Val) (k : String) : ((l.map (·.1)).zip pos).lookup k = (l.findIdx? fun f => f.1 == k).bind (pos[·]?) := by
  induction l generalizing pos with
  | nil => rfl
  | cons f l ih =>
    cases pos with
    | nil =>
      simp
    | cons v pos =>
      simp only [List.map_cons, List.zip_cons_cons, List.lookup_cons, List.findIdx?_cons]
      by_cases e : f.1 = k
      · subst e
        simp
      · have h1 : (k == f.1) = false := by simpa using fun h => e (Eq.symm h)
        have h2 : (f.1 == k) = false := by simpa using e
        rw [h1, h2]
        simp only [Bool.false_eq_true, if_false]
        rw [ih]
        cases l.findIdx? fun f => f.1 == k <;> simp

private theorem lookup_puts (l : List String) (e : Env) (k : String) : (l.map fun s => (s, e.get s)).lookup k = if l.contains k then some (e.get k) else none := by
  induction l with
  | nil => rfl
  | cons s l ih =>
    simp only [List.map_cons, List.lookup_cons, List.contains_cons]
    by_cases h : k = s
    · subst h; simp
    · have : (k == s) = false := by simpa using h
      rw [this, Bool.false_or]
      exact ih

/-- A constructor passes keywords on, all of `keys` untouched. -/
private def through (keys : List String) (l : Level) : Bool :=
  l.ctor.varKw && l.ctor.passKw && !l.ctor.passKeys && keys.all fun k => !l.ctor.known.contains k && !l.puts.contains k && !(l.also.map (·.1)).contains k

/-- It passes the name on, to the place `q` of the base class. -/
private def naming (l : Level) (q : Option Nat) : Bool :=
  !(l.also.map (·.1)).contains "name" &&
  if l.ctor.known.contains "name" then
    ((l.ctor.formals ++ l.ctor.kwOnly).all fun f => f.1 != "name" || f.2.isNone) &&
    (match l.ctor.formals.findIdx? fun f => f.1 == "name" with
      | some _ => (match q with
        | some q => l.ctor.passes[q]? == some "name"
        | none => false) && !l.puts.contains "name"
      | none => l.puts.contains "name")
  else !l.puts.contains "name" && (match q with
    | some q => l.ctor.varArgs && l.ctor.passArgs && decide (l.ctor.passes.length ≤ q)
    | none => true)

private def said (q : Option Nat) (pos : List Val) (kw : Kw) : Option Val := (q.bind (pos[·]?)).or (kw.lookup "name")

private def once (q : Option Nat) (pos : List Val) (kw : Kw) : Prop := (q.bind (pos[·]?)) = none ∨ kw.lookup "name" = none

private theorem next_some {l : Level} {pos pos' : List Val} {kw kw' : Kw} {e : Env} (hl : through [] l = true) (h : bind l.ctor pos kw = some e) (hn : l.next e = some (pos', kw')) :
    (pos' = l.ctor.passes.map e.get ++ if l.ctor.passArgs then pos.drop l.ctor.formals.length else []) ∧ (kw' = l.named e ++ kw.filter fun p => !l.ctor.known.contains p.1) := by
  simp only [through, List.all_nil, Bool.and_true, Bool.and_eq_true, Bool.not_eq_true'] at hl
  obtain ⟨-, ha, hk, -, -⟩ := bind_some h
  unfold Level.next at hn
  split at hn
  · cases hn
  · simp only [Option.some.injEq, Prod.mk.injEq] at hn
    obtain ⟨rfl, rfl⟩ := hn
    simp [superCall, hl.2, hl.1.2, ha, hk]

private theorem through_nil {keys : List String} {l : Level} (h : through keys l = true) : through [] l = true := by
  simp only [through, Bool.and_eq_true] at h ⊢
  exact ⟨h.1, rfl⟩

private theorem lookup_next {l : Level} {pos pos' : List Val} {kw kw' : Kw} {e : Env} (hl : through [] l = true) (h : bind l.ctor pos kw = some e) (hn : l.next e = some (pos', kw')) {k : String}
    (ha : ((l.also.map (·.1)).contains k) = false) : kw'.lookup k = if l.puts.contains k then some (e.get k) else if l.ctor.known.contains k then none else kw.lookup k := by
  obtain ⟨-, rfl⟩ := next_some hl h hn
  unfold Level.named
  rw [List.lookup_append, List.lookup_append, lookup_none ha, lookup_puts, Option.or_none]
  split
  · rfl
  · rw [Option.none_or]
    split
    · rename_i hk
      exact lookup_filter_not _ (fun k => !l.ctor.known.contains k) k (by simpa using hk)
    · rename_i hk
      exact lookup_filter _ (fun k => !l.ctor.known.contains k) k (by simpa using hk)

private theorem step {keys : List String} {l : Level} {pos pos' : List Val} {kw kw' : Kw} {e : Env} (hl : through keys l = true) (h : bind l.ctor pos kw = some e) (hn : l.next e = some (pos', kw')) :
    ∀ k ∈ keys, kw'.lookup k = kw.lookup k := by
  intro k hk
  have h0 := through_nil hl
  simp only [through, Bool.and_eq_true, List.all_eq_true, Bool.not_eq_true'] at hl
  obtain ⟨⟨h1, h2⟩, h3⟩ := hl.2 k hk
  rw [lookup_next h0 h hn h3, h1, h2]
  simp

private theorem get_name {c : Ctor} {pos : List Val} {kw : Kw} {e : Env} (h : bind c pos kw = some e) (hk : c.known.contains "name" = true)
    (hd : ((c.formals ++ c.kwOnly).all fun f => f.1 != "name" || f.2.isNone) = true) :
    e.get "name" = (said (c.formals.findIdx? fun f => f.1 == "name") pos kw).getD .none ∧ once (c.formals.findIdx? fun f => f.1 == "name") pos kw := by
  constructor
  · rw [get_of_bind h hk]
    have : (defaults c).lookup "name" = none := by
      refine lookup_none ?_
      rw [Bool.eq_false_iff]
      intro hc
      simp only [defaults, List.contains_iff_mem, List.mem_map, List.mem_filterMap] at hc
      obtain ⟨p, ⟨f, hf, hp⟩, hpn⟩ := hc
      have := List.all_eq_true.mp hd f hf
      obtain ⟨a, o⟩ := f
      cases o with
      | none => cases hp
      | some v =>
        simp only [Option.map_some, Option.some.injEq] at hp
        subst hp
        simp only at hpn
        subst hpn
        simp at this
    rw [this, Option.or_none]
    unfold filled said
    rw [zip_lookup]
  · unfold once
    by_cases hn : kw.lookup "name" = none
    · exact Or.inr hn
    · left
      obtain ⟨v, hv⟩ := Option.ne_none_iff_exists'.mp hn
      rw [← zip_lookup]
      have := bind_once h
      rw [List.any_eq_false] at this
      refine lookup_none ?_
      simpa [filled] using this _ (mem_of_lookup hv)

/-- The name is passed on. -/
private theorem step_name {keys : List String} {l : Level} {ls : List Level} {q : Option Nat} {pos pos' : List Val} {kw kw' : Kw} {e : Env} (hl : through keys l = true) (hnm : naming l (place ls q) = true)
    (h : bind l.ctor pos kw = some e) (hn : l.next e = some (pos', kw')) (hX : once (place ls q) pos' kw') :
    once (place (l :: ls) q) pos kw ∧ (said (place ls q) pos' kw').getD .none = (said (place (l :: ls) q) pos kw).getD .none := by
  have h0 := through_nil hl
  have hpl : place (l :: ls) q = if l.ctor.known.contains "name" then l.ctor.formals.findIdx? fun f => f.1 == "name" else (place ls q).map fun i => l.ctor.formals.length + (i - l.ctor.passes.length) := rfl
  rw [hpl]
  generalize place ls q = r at hnm hX ⊢
  unfold naming at hnm
  simp only [Bool.and_eq_true, Bool.not_eq_true'] at hnm
  obtain ⟨ha, hnm⟩ := hnm
  have hlook := lookup_next h0 h hn ha
  obtain ⟨hpos, -⟩ := next_some h0 h hn
  by_cases hk : l.ctor.known.contains "name" = true
  · simp only [hk, if_true, Bool.and_eq_true] at hnm ⊢
    obtain ⟨hd, hnm⟩ := hnm
    obtain ⟨hg, ho⟩ := get_name h hk hd
    refine ⟨ho, ?_⟩
    rw [← hg]
    cases hi : l.ctor.formals.findIdx? fun f => f.1 == "name" with
    | some i =>
      simp only [hi, Bool.and_eq_true] at hnm
      cases r with
      | none => cases hnm.1
      | some r =>
        have hp : l.ctor.passes[r]? = some "name" := by simpa using hnm.1
        have : pos'[r]? = some (e.get "name") := by
          rw [hpos, List.getElem?_append_left]
          · rw [List.getElem?_map, hp]; rfl
          · rw [List.length_map]
            exact (List.getElem?_eq_some_iff.mp hp).1
        simp [said, this]
    | none =>
      simp only [hi] at hnm
      rw [hnm] at hlook
      simp only [if_true] at hlook
      rcases hX with hX | hX
      · simp [said, hX, hlook]
      · rw [hlook] at hX; cases hX
  · have hk' : l.ctor.known.contains "name" = false := by simpa using hk
    simp only [hk', Bool.false_eq_true, if_false, Bool.and_eq_true, Bool.not_eq_true'] at hnm ⊢
    rw [hnm.1, hk'] at hlook
    simp only [Bool.false_eq_true, if_false] at hlook
    have hp : r.bind (pos'[·]?) = (r.map fun i => l.ctor.formals.length + (i - l.ctor.passes.length)).bind (pos[·]?) := by
      cases r with
      | none => rfl
      | some r =>
        have h2 := hnm.2
        simp only [Bool.and_eq_true, decide_eq_true_eq] at h2
        simp only [Option.bind_some, Option.map_some]
        rw [hpos, h2.1.2, if_pos rfl, List.getElem?_append_right (by simpa using h2.2), List.getElem?_drop, List.length_map]
    unfold once said at *
    rw [← hp, ← hlook]
    exact ⟨hX, rfl⟩

/-- At most so many arguments by position reach the end of a list of constructors. -/
private def cap : List Level → Option Nat → Option Nat
  | [], n => n
  | l :: ls, n => cap ls (if l.ctor.passArgs then n.map fun n => l.ctor.passes.length + (n - l.ctor.formals.length) else some l.ctor.passes.length)

private theorem step_cap {keys : List String} {l : Level} {pos pos' : List Val} {kw kw' : Kw} {e : Env} (hl : through keys l = true) (h : bind l.ctor pos kw = some e) (hn : l.next e = some (pos', kw')) {n : Option Nat}
    (hc : ∀ m, n = some m → pos.length ≤ m) :
    ∀ m, (if l.ctor.passArgs then n.map fun n => l.ctor.passes.length + (n - l.ctor.formals.length) else some l.ctor.passes.length) = some m → pos'.length ≤ m := by
  intro m hm
  obtain ⟨rfl, -⟩ := next_some (through_nil hl) h hn
  cases hp : l.ctor.passArgs
  · rw [hp] at hm
    simp at hm
    simp [hm]
  · rw [hp] at hm
    simp only [if_true, Option.map_eq_some_iff] at hm
    obtain ⟨k, hk, rfl⟩ := hm
    have := hc k hk
    simp
    omega

private def below : List String := ["comment", "parent", "domain", "tags"]

private def common : List String := ["comment", "parent", "domain", "tags", "position", "visible"]

private def faithful (keys : List String) : List Level → Option Nat → Bool
  | [], _ => true
  | l :: ls, q => through keys l && naming l (place ls q) && faithful keys ls q

private theorem pass_cons {l : Level} {ls : List Level} {pos : List Val} {kw : Kw} {r : List Val × Kw} (h : pass (l :: ls) pos kw = some r) :
    ∃ e pos' kw', bind l.ctor pos kw = some e ∧ l.next e = some (pos', kw') ∧ pass ls pos' kw' = some r := by
  unfold pass at h
  split at h
  · cases h
  · rename_i e he
    split at h
    · cases h
    · rename_i p q hn
      exact ⟨e, p, q, he, hn, h⟩

private theorem pass_kept {ls : List Level} {q : Option Nat} {keys : List String} (hf : faithful keys ls q = true) {pos pos' : List Val} {kw kw' : Kw} (h : pass ls pos kw = some (pos', kw')) {n : Option Nat}
    (hc : ∀ m, n = some m → pos.length ≤ m) :
    (∀ k ∈ keys, kw'.lookup k = kw.lookup k) ∧ (∀ m, cap ls n = some m → pos'.length ≤ m) ∧
      (once q pos' kw' → once (place ls q) pos kw ∧ (said q pos' kw').getD .none = (said (place ls q) pos kw).getD .none) := by
  induction ls generalizing pos kw n with
  | nil => cases h; exact ⟨fun _ _ => rfl, hc, fun h => ⟨h, rfl⟩⟩
  | cons l ls ih =>
    simp only [faithful, Bool.and_eq_true] at hf
    obtain ⟨e, p1, k1, h1, h2, h3⟩ := pass_cons h
    obtain ⟨i1, i2, i3⟩ := ih hf.2 h3 (step_cap hf.1.1 h1 h2 hc)
    refine ⟨fun k hk => (i1 k hk).trans (step hf.1.1 h1 h2 k hk), i2, fun hx => ?_⟩
    obtain ⟨x1, x2⟩ := i3 hx
    obtain ⟨y1, y2⟩ := step_name hf.1.1 hf.1.2 h1 h2 x1
    exact ⟨y1, x2.trans y2⟩

private def drawLevel : Level := ⟨drawable, [], [], .no⟩

private theorem draw_next (e : Env) : drawLevel.next e = some ((superCall drawable e).1, (superCall drawable e).2) := by
  simp [drawLevel, Level.next, Level.named]

private theorem get_keyword {c : Ctor} {pos : List Val} {kw : Kw} {e : Env} (h : bind c pos kw = some e) {k : String} {d : Val} (hk : c.known.contains k = true) (hz : (filled c pos).lookup k = none)
    (hd : (defaults c).lookup k = some d) : e.get k = given kw k d := by
  rw [get_of_bind h hk, hz, hd, Option.none_or]
  unfold given
  cases kw.lookup k <;> rfl

private theorem base_said {ls : List Level} (hf : faithful below ls (some 1) = true) {s a : Attrs} {pos : List Val} {kw : Kw} {n : Option Nat} (hc : ∀ m, n = some m → pos.length ≤ m)
    (h : base ls s pos kw = some a) :
    (cap ls n = some 2 → a.comment = given kw "comment" .none) ∧ a.parent = given kw "parent" .none ∧ a.domain = given kw "domain" .none ∧ a.tags = given kw "tags" emptyDict ∧ a.position = given kw "position" emptyDict ∧
      a.visible = given kw "visible" (.flag true) ∧ a.color = given kw "color" (.str "black") ∧ once (place ls (some 1)) pos kw ∧ a.name = (said (place ls (some 1)) pos kw).getD .none := by
  unfold base at h
  split at h
  · cases h
  · rename_i e he
    split at h
    · cases h
    · rename_i pos' kw' hp
      split at h
      · cases h
      · rename_i e' he'
        cases h
        have hd : through below drawLevel = true := by decide +kernel
        have hn := draw_next e
        have hb : bind drawLevel.ctor pos kw = some e := he
        have s1 := step hd hb hn
        have s2 := step_cap hd hb hn hc
        have hcap : (if drawLevel.ctor.passArgs then n.map fun n => drawLevel.ctor.passes.length + (n - drawLevel.ctor.formals.length) else some drawLevel.ctor.passes.length) = n := by
          simp [drawLevel, drawable]
        rw [hcap] at s2
        obtain ⟨i1, i2, i3⟩ := pass_kept hf hp s2
        obtain ⟨n1, n2⟩ := get_name he' (by decide +kernel) (by decide +kernel)
        have hidx : (abstractNode.formals.findIdx? fun f => f.1 == "name") = some 1 := by decide +kernel
        rw [hidx] at n1 n2
        obtain ⟨x1, x2⟩ := i3 n2
        have hnm : naming drawLevel (place ls (some 1)) = true := by
          cases place ls (some 1) with
          | none => decide +kernel
          | some i => simp [naming, drawLevel, drawable, Ctor.known]
        obtain ⟨y1, y2⟩ := step_name hd hnm hb hn x1
        have hpl : place (drawLevel :: ls) (some 1) = place ls (some 1) := by
          have : drawLevel.ctor.known.contains "name" = false := by decide +kernel
          have hp : place (drawLevel :: ls) (some 1) = if drawLevel.ctor.known.contains "name" then drawLevel.ctor.formals.findIdx? fun f => f.1 == "name"
            else (place ls (some 1)).map fun i => drawLevel.ctor.formals.length + (i - drawLevel.ctor.passes.length) := rfl
          rw [hp, this]
          cases place ls (some 1) <;> simp [drawLevel, drawable]
        rw [hpl] at y1 y2
        have g1 : ∀ k ∈ below, ∀ d, given kw' k d = given kw k d := fun k hk d => by
          unfold given
          rw [i1 k hk, s1 k hk]
        have zk : ∀ k, k ≠ "model" → k ≠ "name" → k ≠ "comment" → (filled abstractNode pos').lookup k = none := fun k h1 h2 h3 => by
          refine lookup_none ?_
          rw [Bool.eq_false_iff]
          intro hm
          simp only [filled, List.contains_iff_mem, List.mem_map] at hm
          obtain ⟨p, hp, rfl⟩ := hm
          have := zip_keys _ _ p hp
          simp [abstractNode, req, opt, h1, h2, h3] at this
        have zd : ∀ k, (filled drawable pos).lookup k = none := fun k => by simp [filled, drawable]
        refine ⟨?_, ?_, ?_, ?_, ?_, ?_, ?_, y1, ?_⟩
        · intro hcp
          have hlen := i2 2 hcp
          rw [← g1 "comment" (by decide)]
          refine get_keyword he' (by decide +kernel) ?_ rfl
          unfold filled
          rw [zip_lookup]
          have : (abstractNode.formals.findIdx? fun f => f.1 == "comment") = some 2 := by decide +kernel
          rw [this]
          simpa using hlen
        · rw [← g1 "parent" (by decide)]
          exact get_keyword he' (by decide +kernel) (zk _ (by decide) (by decide) (by decide)) rfl
        · rw [← g1 "domain" (by decide)]
          exact get_keyword he' (by decide +kernel) (zk _ (by decide) (by decide) (by decide)) rfl
        · rw [← g1 "tags" (by decide)]
          exact get_keyword he' (by decide +kernel) (zk _ (by decide) (by decide) (by decide)) rfl
        · exact get_keyword he (by decide +kernel) (zd _) rfl
        · exact get_keyword he (by decide +kernel) (zd _) rfl
        · exact get_keyword he (by decide +kernel) (zd _) rfl
        · rw [n1, x2, y2]

private theorem call_cons {bs : List Level} {l : Level} {ls : List Level} {s a : Attrs} {pos : List Val} {kw : Kw} (h : call bs (l :: ls) s pos kw = some a) :
    ∃ e pos' kw' b, bind l.ctor pos kw = some e ∧ l.next e = some (pos', kw') ∧ call bs ls (l.paint.first kw s) pos' kw' = some b ∧ a = l.paint.last e b := by
  unfold call at h
  split at h
  · cases h
  · rename_i e he
    split at h
    · cases h
    · rename_i p q hn
      split at h
      · cases h
      · rename_i b hb
        cases h
        exact ⟨e, p, q, b, he, hn, hb, rfl⟩

private theorem last_rest (p : Paint) (e : Env) (b : Attrs) : (p.last e b).comment = b.comment ∧ (p.last e b).parent = b.parent ∧ (p.last e b).domain = b.domain ∧ (p.last e b).tags = b.tags ∧
    (p.last e b).position = b.position ∧ (p.last e b).visible = b.visible ∧ (p.last e b).name = b.name := by
  cases p <;> exact ⟨rfl, rfl, rfl, rfl, rfl, rfl, rfl⟩

private theorem call_kept {bs ls : List Level} (hb : faithful below bs (some 1) = true) (hf : faithful common ls (place bs (some 1)) = true) {s a : Attrs} {pos : List Val} {kw : Kw} {n : Option Nat}
    (hc : ∀ m, n = some m → pos.length ≤ m) (h : call bs ls s pos kw = some a) :
    (cap bs (cap ls n) = some 2 → a.comment = given kw "comment" .none) ∧ a.parent = given kw "parent" .none ∧ a.domain = given kw "domain" .none ∧ a.tags = given kw "tags" emptyDict ∧
      a.position = given kw "position" emptyDict ∧ a.visible = given kw "visible" (.flag true) ∧ once (place ls (place bs (some 1))) pos kw ∧ a.name = (said (place ls (place bs (some 1))) pos kw).getD .none := by
  induction ls generalizing s a pos kw n with
  | nil =>
    obtain ⟨h1, h2, h3, h4, h5, h6, -, h8, h9⟩ := base_said hb hc h
    exact ⟨h1, h2, h3, h4, h5, h6, h8, h9⟩
  | cons l ls ih =>
    simp only [faithful, Bool.and_eq_true] at hf
    obtain ⟨e, pos', kw', b, h1, h2, h3, rfl⟩ := call_cons h
    obtain ⟨i1, i2, i3, i4, i5, i6, i7, i8⟩ := ih hf.2 (step_cap hf.1.1 h1 h2 hc) h3
    obtain ⟨y1, y2⟩ := step_name hf.1.1 hf.1.2 h1 h2 i7
    obtain ⟨r1, r2, r3, r4, r5, r6, r7⟩ := last_rest l.paint e b
    have g : ∀ k ∈ common, ∀ d, given kw' k d = given kw k d := fun k hk d => by
      unfold given
      rw [step hf.1.1 h1 h2 k hk]
    rw [g "comment" (by decide)] at i1
    rw [g "parent" (by decide)] at i2
    rw [g "domain" (by decide)] at i3
    rw [g "tags" (by decide)] at i4
    rw [g "position" (by decide)] at i5
    rw [g "visible" (by decide)] at i6
    rw [r1, r2, r3, r4, r5, r6, r7, i8, y2]
    exact ⟨i1, i2, i3, i4, i5, i6, y1, rfl⟩

private def good (c : Cls) : Bool := faithful below c.below (some 1) && faithful common c.above (place c.below (some 1))

private theorem all_good : ∀ cls ∈ inputs ++ others ++ shadows, good cls.2 = true := by
  have h : ((inputs ++ others ++ shadows).all fun cls => good cls.2) = true := by decide +kernel
  exact List.all_eq_true.mp h

/-- A node of any class has the comment, the parent, the domain, the tags, the position and the visibility that the keywords say, and the default values where they say nothing, whatever is given by position. -/
theorem C139_kept {cls : String × Cls} (hc : cls ∈ inputs ++ others) {pos : List Val} {kw : Kw} {a : Attrs} (h : construct cls.2 pos kw = some a) :
    a.comment = given kw "comment" .none ∧ a.parent = given kw "parent" .none ∧ a.domain = given kw "domain" .none ∧ a.tags = given kw "tags" emptyDict ∧ a.position = given kw "position" emptyDict ∧
      a.visible = given kw "visible" (.flag true) := by
  have hg := all_good cls (List.mem_append_left _ hc)
  simp only [good, Bool.and_eq_true] at hg
  have hcap : ((inputs ++ others).all fun cls => cap cls.2.below (cap cls.2.above none) == some 2) = true := by decide +kernel
  have hcap := List.all_eq_true.mp hcap cls hc
  obtain ⟨h1, h2, h3, h4, h5, h6, -, -⟩ := call_kept (n := none) hg.1 hg.2 (by simp) h
  exact ⟨h1 (by simpa using hcap), h2, h3, h4, h5, h6⟩

/-- So has a node that stands for one of another model, unless a comment is given after model, other model, other node and name. -/
theorem C139_kept_shadow {cls : String × Cls} (hc : cls ∈ shadows) {pos : List Val} {kw : Kw} {a : Attrs} (hp : pos.length ≤ 4) (h : construct cls.2 pos kw = some a) :
    a.comment = given kw "comment" .none ∧ a.parent = given kw "parent" .none ∧ a.domain = given kw "domain" .none ∧ a.tags = given kw "tags" emptyDict ∧ a.position = given kw "position" emptyDict ∧
      a.visible = given kw "visible" (.flag true) := by
  have hg := all_good cls (List.mem_append_right _ hc)
  simp only [good, Bool.and_eq_true] at hg
  have hcap : (shadows.all fun cls => cap cls.2.below (cap cls.2.above (some 4)) == some 2) = true := by decide +kernel
  have hcap := List.all_eq_true.mp hcap cls hc
  obtain ⟨h1, h2, h3, h4, h5, h6, -, -⟩ := call_kept (n := some 4) hg.1 hg.2 (by simpa using hp) h
  exact ⟨h1 (by simpa using hcap), h2, h3, h4, h5, h6⟩

/-- It has the name that is given as a keyword, or at its place among the arguments by position; it is not made with both. -/
theorem C139_named {cls : String × Cls} (hc : cls ∈ inputs ++ others ++ shadows) {pos : List Val} {kw : Kw} {a : Attrs} (h : construct cls.2 pos kw = some a) :
    (∀ v, kw.lookup "name" = some v → a.name = v) ∧ (∀ i v, cls.2.place = some i → pos[i]? = some v → a.name = v ∧ kw.lookup "name" = none) := by
  have hg := all_good cls hc
  simp only [good, Bool.and_eq_true] at hg
  obtain ⟨-, -, -, -, -, -, hx, hn⟩ := call_kept (n := none) hg.1 hg.2 (by simp) h
  rw [hn]
  unfold once at hx
  unfold Cls.place
  constructor
  · intro v hv
    rcases hx with hx | hx
    · simp [said, hx, hv]
    · rw [hv] at hx; cases hx
  · intro i v hi hv
    rw [hi] at hx ⊢
    simp only [Option.bind_some, hv] at hx
    refine ⟨by simp [said, hv], ?_⟩
    rcases hx with hx | hx
    · cases hx
    · exact hx

/-- Where the colour comes from. -/
private def painted (l : Level) : Bool :=
  l.ctor.varKw && l.ctor.passKw && !l.ctor.passKeys && !(l.also.map (·.1)).contains "color" && !(l.ctor.formals.any fun f => f.1 == "color") &&
    (match l.paint with
      | .own => l.ctor.known.contains "color" && ((defaults l.ctor).lookup "color").isSome
      | .after _ => true
      | _ => if l.ctor.known.contains "color" then l.puts.contains "color" && ((defaults l.ctor).lookup "color").isSome else !l.puts.contains "color")

private def final : List Level → Option Val → Val
  | [], o => o.getD (.str "black")
  | l :: ls, o => match l.paint with
    | .after v => v
    | .own => o.getD (((defaults l.ctor).lookup "color").getD .none)
    | _ => if l.ctor.known.contains "color" then final ls (some (o.getD (((defaults l.ctor).lookup "color").getD .none))) else final ls o

private theorem call_colour {bs ls : List Level} (hb : faithful below bs (some 1) = true) (hf : ls.all painted = true) {s a : Attrs} {pos : List Val} {kw : Kw} (h : call bs ls s pos kw = some a) :
    a.color = final ls (kw.lookup "color") := by
  induction ls generalizing s a pos kw with
  | nil =>
    obtain ⟨-, -, -, -, -, -, h7, -⟩ := base_said (n := none) hb (by simp) h
    exact h7
  | cons l ls ih =>
    simp only [List.all_cons, Bool.and_eq_true] at hf
    obtain ⟨e, pos', kw', b, h1, h2, h3, rfl⟩ := call_cons h
    have hI := ih hf.2 h3
    have hp := hf.1
    simp only [painted, Bool.and_eq_true, Bool.not_eq_true'] at hp
    obtain ⟨⟨⟨⟨⟨p1, p2⟩, p3⟩, p4⟩, p5⟩, p6⟩ := hp
    have h0 : through [] l = true := by simp [through, p1, p2, p3]
    have hl := lookup_next h0 h1 h2 p4
    have hz : (filled l.ctor pos).lookup "color" = none := by
      unfold filled
      rw [zip_lookup]
      have : (l.ctor.formals.findIdx? fun f => f.1 == "color") = none := by
        rw [List.findIdx?_eq_none_iff]
        simpa using p5
      rw [this]
      rfl
    have hget : l.ctor.known.contains "color" = true → ((defaults l.ctor).lookup "color").isSome = true → e.get "color" = (kw.lookup "color").getD (((defaults l.ctor).lookup "color").getD .none) := by
      intro hk hd
      obtain ⟨d, hd⟩ := Option.isSome_iff_exists.mp hd
      rw [hd]
      exact get_keyword h1 hk hz hd
    have plain : (if l.ctor.known.contains "color" then l.puts.contains "color" && ((defaults l.ctor).lookup "color").isSome else !l.puts.contains "color") = true →
        b.color = if l.ctor.known.contains "color" then final ls (some ((kw.lookup "color").getD (((defaults l.ctor).lookup "color").getD .none))) else final ls (kw.lookup "color") := by
      intro hq
      rw [hI, hl]
      cases hk : l.ctor.known.contains "color"
      · rw [hk] at hq
        simp only [Bool.false_eq_true, if_false, Bool.not_eq_true'] at hq
        rw [hq]
        simp only [Bool.false_eq_true, if_false]
      · rw [hk] at hq
        simp only [if_true, Bool.and_eq_true] at hq
        simp only [hq.1, if_true]
        rw [hget hk hq.2]
    unfold final
    cases hpt : l.paint with
    | after v => rfl
    | own =>
      rw [hpt] at p6
      simp only [Bool.and_eq_true] at p6
      exact hget p6.1 p6.2
    | no => rw [hpt] at p6; exact plain p6
    | before v => rw [hpt] at p6; exact plain p6
    | beforeUnless v => rw [hpt] at p6; exact plain p6

private def kept (ls : List Level) : Bool := ls.all fun l => match l.paint with
  | .after _ => false
  | _ => true

private theorem final_given {ls : List Level} (h : kept ls = true) (v : Val) : final ls (some v) = v := by
  induction ls with
  | nil => rfl
  | cons l ls ih =>
    simp only [kept, List.all_cons, Bool.and_eq_true] at h
    have ih := ih h.2
    unfold final
    cases hp : l.paint with
    | after w => rw [hp] at h; cases h.1
    | own => rfl
    | no => simp [ih]
    | before w => simp [ih]
    | beforeUnless w => simp [ih]

private theorem all_painted : ∀ cls ∈ inputs ++ others ++ shadows, cls.2.above.all painted = true := by
  have h : ((inputs ++ others ++ shadows).all fun cls => cls.2.above.all painted) = true := by decide +kernel
  exact List.all_eq_true.mp h

/-- A node that is not an input has the colour that is given, and that of its kind otherwise. Missing: nodes that are inputs (see `C139_colour_fails`). -/
theorem C139_colour_partial {cls : String × Cls} (hc : cls ∈ others ++ shadows) {pos : List Val} {kw : Kw} {a : Attrs} (h : construct cls.2 pos kw = some a) : a.color = given kw "color" (colour cls.1) := by
  have hm : cls ∈ inputs ++ others ++ shadows := by
    rw [List.append_assoc]
    exact List.mem_append_right _ hc
  have hg := all_good cls hm
  simp only [good, Bool.and_eq_true] at hg
  rw [call_colour hg.1 (all_painted cls hm) h]
  unfold given
  have hk : ((others ++ shadows).all fun cls => kept cls.2.above && final cls.2.above none == colour cls.1) = true := by decide +kernel
  have hk := List.all_eq_true.mp hk cls hc
  simp only [Bool.and_eq_true, beq_iff_eq] at hk
  cases kw.lookup "color" with
  | none => exact hk.2
  | some v => exact final_given hk.1 v

/-- The colour of an input cannot be given: it is red in any case, also that of a catchment, which is meant to be green. River nodes are not blue, although their constructor says so. -/
theorem C139_colour_fails :
    (∀ cls ∈ inputs, ∀ pos kw a, construct cls.2 pos kw = some a → a.color = .str "#F26C4F") ∧
    (∃ a, construct ⟨input, []⟩ [.other 1, .str "in"] [("color", .str "blue")] = some a ∧ a.color ≠ .str "blue") ∧
    (∃ a, construct ⟨catchment, []⟩ [.other 1, .str "c"] [] = some a ∧ a.color ≠ .str "#82CA9D") ∧
    (∃ a, construct ⟨river, []⟩ [.other 1, .str "r"] [] = some a ∧ a.color = .str "#A0A0A0") ∧
    (∃ a, construct ⟨reservoir, []⟩ [.other 1, .str "r"] [] = some a ∧ a.color = .str "black") ∧
    (∃ a, construct ⟨riverGauge, []⟩ [.other 1] [("name", .str "g")] = some a ∧ a.color = .str "black") := by
  refine ⟨?_, ⟨_, rfl, by decide⟩, ⟨_, rfl, by decide⟩, ⟨_, rfl, rfl⟩, ⟨_, rfl, rfl⟩, ⟨_, rfl, rfl⟩⟩
  intro cls hc pos kw a h
  have hm : cls ∈ inputs ++ others ++ shadows := List.mem_append_left _ (List.mem_append_left _ hc)
  have hg := all_good cls hm
  simp only [good, Bool.and_eq_true] at hg
  rw [call_colour hg.1 (all_painted cls hm) h]
  simp only [inputs, List.mem_cons, List.not_mem_nil, or_false] at hc
  rcases hc with rfl | rfl | rfl
  · rfl
  · simp [catchment, riverDomainMixin, input, final, Ctor.known, opt]
  · simp [catchment, riverDomainMixin, input, final, Ctor.known, opt]

private theorem known_next {l : Level} (hl : through [] l = true) {pos pos' : List Val} {kw kw' : Kw} {e : Env} (h : bind l.ctor pos kw = some e) (hn : l.next e = some (pos', kw')) {k : String} {v : Val}
    (hm : (k, v) ∈ kw) (hk : k ∉ l.ctor.known) : (k, v) ∈ kw' := by
  obtain ⟨-, rfl⟩ := next_some hl h hn
  refine List.mem_append_right _ ?_
  rw [List.mem_filter]
  exact ⟨hm, by simpa using hk⟩

private theorem pass_unknown {ls : List Level} {keys : List String} {q : Option Nat} (hf : faithful keys ls q = true) {pos pos' : List Val} {kw kw' : Kw} (h : pass ls pos kw = some (pos', kw')) {k : String} {v : Val}
    (hm : (k, v) ∈ kw) (hk : k ∉ known ls) : (k, v) ∈ kw' := by
  induction ls generalizing pos kw with
  | nil => cases h; exact hm
  | cons l ls ih =>
    simp only [faithful, Bool.and_eq_true] at hf
    simp only [known, List.flatMap_cons, List.mem_append, not_or] at hk
    obtain ⟨e, p, q, h1, h2, h3⟩ := pass_cons h
    exact ih hf.2 h3 (known_next (through_nil hf.1.1) h1 h2 hm hk.1) hk.2

private theorem call_unknown {bs ls : List Level} (hb : faithful below bs (some 1) = true) {q : Option Nat} (hf : faithful common ls q = true) {s a : Attrs} {pos : List Val} {kw : Kw} {k : String} {v : Val} (hm : (k, v) ∈ kw)
    (hk : k ∉ (⟨ls, bs⟩ : Cls).keywords) (h : call bs ls s pos kw = some a) : False := by
  simp only [Cls.keywords, List.mem_append, not_or] at hk
  obtain ⟨⟨k1, k2⟩, k3⟩ := hk
  induction ls generalizing s a pos kw with
  | nil =>
    simp only [List.mem_cons, List.not_mem_nil, or_false, not_or] at k3
    unfold call base at h
    split at h
    · cases h
    · rename_i e he
      split at h
      · cases h
      · rename_i pos' kw' hp
        split at h
        · cases h
        · rename_i e' he'
          have hm1 : (k, v) ∈ (superCall drawable e).2 := known_next (l := drawLevel) (by decide +kernel) he (draw_next e) hm (by simp [drawLevel, drawable, Ctor.known, k3])
          have hm2 := pass_unknown hb hp hm1 k2
          obtain ⟨-, -, -, hz, -⟩ := bind_some he'
          have : (k, v) ∈ kw'.filter fun p => !abstractNode.known.contains p.1 := by
            rw [List.mem_filter]
            exact ⟨hm2, by simp [abstractNode, Ctor.known, req, opt, k3]⟩
          rw [hz rfl] at this
          cases this
  | cons l ls ih =>
    simp only [faithful, Bool.and_eq_true] at hf
    simp only [known, List.flatMap_cons, List.mem_append, not_or] at k1
    obtain ⟨e, pos', kw', b, h1, h2, h3, rfl⟩ := call_cons h
    exact ih hf.2 (known_next (through_nil hf.1.1) h1 h2 hm k1.1) h3 k1.2

/-- A keyword that nothing a class is derived from knows is refused. -/
theorem C139_unknown {cls : String × Cls} (hc : cls ∈ inputs ++ others ++ shadows) (pos : List Val) {kw : Kw} {k : String} {v : Val} (hm : (k, v) ∈ kw) (hk : k ∉ cls.2.keywords) : construct cls.2 pos kw = none := by
  have hg := all_good cls hc
  simp only [good, Bool.and_eq_true] at hg
  cases h : construct cls.2 pos kw with
  | none => rfl
  | some a => exact (call_unknown hg.1 hg.2 hm hk h).elim

private theorem call_fixed {bs : List Level} {l : Level} {ls : List Level} (hl : through [] l = true) {s : Attrs} {pos : List Val} {kw : Kw} {k : String} {v : Val} (hm : (k, v) ∈ kw) (hk : l.ctor.known.contains k = false)
    (ha : (l.also.map (·.1)).contains k = true) : call bs (l :: ls) s pos kw = none := by
  cases h : call bs (l :: ls) s pos kw with
  | none => rfl
  | some a =>
    exfalso
    obtain ⟨e, pos', kw', b, h1, h2, -, -⟩ := call_cons h
    obtain ⟨-, -, hkw, -, -⟩ := bind_some h1
    simp only [through, List.all_nil, Bool.and_true, Bool.and_eq_true] at hl
    unfold Level.next at h2
    rw [if_pos] at h2
    · cases h2
    · rw [List.any_eq_true]
      refine ⟨(k, v), ?_, ?_⟩
      · simp only [superCall, hl.1.2, if_true, hkw, List.mem_filter]
        exact ⟨hm, by simpa using hk⟩
      · unfold Level.named
        rw [List.map_append]
        have : k ∈ l.also.map (·.1) := by simpa using ha
        simpa using Or.inr (by simpa using this)

private theorem call_fixed_later {bs : List Level} {l : Level} {ls : List Level} (hl : through [] l = true) {s : Attrs} {pos : List Val} {kw : Kw} {k : String} {v : Val} (hm : (k, v) ∈ kw) (hk : l.ctor.known.contains k = false)
    (hr : ∀ s pos kw, (k, v) ∈ kw → call bs ls s pos kw = none) : call bs (l :: ls) s pos kw = none := by
  cases h : call bs (l :: ls) s pos kw with
  | none => rfl
  | some a =>
    exfalso
    obtain ⟨e, pos', kw', b, h1, h2, h3, -⟩ := call_cons h
    rw [hr _ _ _ (known_next hl h1 h2 hm (by simpa using hk))] at h3
    cases h3

/-- What a kind of node settles itself cannot be said: the number of slots of a split of a river, which follows from the factors; the steps of a gauge, their flow and cost; the number of inputs of an aquifer. -/
theorem C139_settled (pos : List Val) (kw : Kw) (v : Val) :
    (("extra_slots", v) ∈ kw → construct ⟨riverSplit, []⟩ pos kw = none ∧ construct ⟨riverSplitWithGauge, []⟩ pos kw = none) ∧
    (∀ k ∈ ["nsteps", "max_flows", "costs"], (k, v) ∈ kw → construct ⟨riverSplitWithGauge, []⟩ pos kw = none) ∧
    (("nsteps", v) ∈ kw → construct ⟨riverGauge, []⟩ pos kw = none) ∧ (("inputs", v) ∈ kw → construct ⟨keatingAquifer, []⟩ pos kw = none) := by
  refine ⟨fun h => ⟨call_fixed (by decide +kernel) h (by decide +kernel) (by decide +kernel), call_fixed_later (by decide +kernel) h (by decide +kernel) ?_⟩, ?_, ?_, ?_⟩
  · intro s pos kw h
    exact call_fixed (by decide +kernel) h (by decide +kernel) (by decide +kernel)
  · intro k hk h
    simp only [List.mem_cons, List.not_mem_nil, or_false] at hk
    rcases hk with rfl | rfl | rfl <;> exact call_fixed (by decide +kernel) h (by decide +kernel) (by decide +kernel)
  · intro h
    exact call_fixed (by decide +kernel) h (by decide +kernel) (by decide +kernel)
  · intro h
    exact call_fixed (by decide +kernel) h (by decide +kernel) (by decide +kernel)

/-- What is given by position to one class is not taken in the same way by those derived from it or like it: the nodes of an annual licence and the name of a gauge have to be keywords; a storage ignores what comes after the numbers of its
outputs and inputs. -/
theorem C139_position_fails :
    (∃ a, construct ⟨virtualStorage, []⟩ [.other 1, .str "licence", .other 2] [] = some a) ∧ construct ⟨annualVirtualStorage, []⟩ [.other 1, .str "licence", .other 2] [] = none ∧
    (∃ a, construct ⟨annualVirtualStorage, []⟩ [.other 1, .str "licence"] [("nodes", .other 2)] = some a) ∧
    (∃ a, construct ⟨link, []⟩ [.other 1, .str "gauge"] [] = some a) ∧ construct ⟨riverGauge, []⟩ [.other 1, .str "gauge"] [] = none ∧ (∃ a, construct ⟨riverGauge, []⟩ [.other 1] [("name", .str "gauge")] = some a) ∧
    (∃ a, construct ⟨storage, []⟩ [.other 1, .str "reservoir", .num 1, .num 1, .str "a comment"] [] = some a ∧ a.comment = .none) :=
  ⟨⟨_, rfl⟩, rfl, ⟨_, rfl⟩, ⟨_, rfl⟩, rfl, ⟨_, rfl⟩, ⟨_, rfl, rfl⟩⟩

example : (inputs ++ others ++ shadows).length = 27 ∧ (⟨river, []⟩ : Cls).place = some 1 ∧ (⟨riverSplit, []⟩ : Cls).place = none ∧ (⟨[loadable], [shadow]⟩ : Cls).place = some 3 ∧
    ((inputs ++ others ++ shadows).filter fun c => c.2.place == none).map (·.1) = ["PiecewiseLink", "MultiSplitLink", "RiverSplit", "RiverSplitWithGauge", "RiverGauge"] := by decide +kernel

example : construct ⟨riverSplitWithGauge, []⟩ [.other 1] [("name", .str "gauge"), ("factors", .other 3), ("mrf", .num 40), ("tags", .other 4), ("position", .other 5), ("color", .str "red")] =
    some ⟨.str "gauge", .none, .none, .none, .other 4, .other 5, .str "red", .flag true⟩ := rfl

example : construct ⟨[loadable], [shadow]⟩ [.other 1, .str "model", .str "node", .str "copy"] [("visible", .flag false)] = some ⟨.str "copy", .none, .none, .none, emptyDict, emptyDict, .str "black", .flag false⟩ := rfl

example : ("KeatingAquifer", (⟨keatingAquifer, []⟩ : Cls)) ∈ inputs ++ others ∧ "slope" ∉ (⟨keatingAquifer, []⟩ : Cls).keywords ∧ "area" ∈ (⟨keatingAquifer, []⟩ : Cls).keywords := by
  refine ⟨by simp [others], by decide +kernel, by decide +kernel⟩

end Verif.NodeKeywords

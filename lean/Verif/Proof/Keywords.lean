import Verif.Model.Keywords
/-! # Lemmas on the binding of arguments -/

namespace Verif.Keywords

theorem lookup_filter (kw : Kw) (f : String → Bool) (k : String) (h : f k = true) : (kw.filter fun p => f p.1).lookup k = kw.lookup k := by
  induction kw with
  | nil => rfl
  | cons p kw ih =>
    obtain ⟨a, v⟩ := p
    by_cases e : k = a
    · subst e
      simp [h]
    · have e' : (k == a) = false := by simpa using e
      by_cases hf : f a = true
      · simp [List.filter_cons, hf, List.lookup_cons, e', ih]
      · simp [List.filter_cons, hf, List.lookup_cons, e', ih]

theorem lookup_filter_not (kw : Kw) (f : String → Bool) (k : String) (h : f k = false) : (kw.filter fun p => f p.1).lookup k = none := by
  induction kw with
  | nil => rfl
  | cons p kw ih =>
    obtain ⟨a, v⟩ := p
    by_cases hf : f a = true
    · have e' : (k == a) = false := by
        by_contra hc
        have : k = a := by simpa using hc
        subst this; rw [h] at hf; cases hf
      simp [List.filter_cons, hf, List.lookup_cons, e', ih]
    · simp [List.filter_cons, hf, ih]

theorem bind_some {c : Ctor} {pos : List Val} {kw : Kw} {e : Env} (h : bind c pos kw = some e) :
    (c.varArgs = false → pos.length ≤ c.formals.length) ∧ e.args = pos.drop c.formals.length ∧ (e.kwargs = kw.filter fun p => !c.known.contains p.1) ∧
      (c.varKw = false → (kw.filter fun p => !c.known.contains p.1) = []) ∧
      e.vars = (c.formals.map (·.1)).zip pos ++ (kw.filter fun p => c.known.contains p.1) ++ (c.formals ++ c.kwOnly).filterMap (fun f => f.2.map fun v => (f.1, v)) := by
  unfold bind at h
  simp only at h
  split at h
  · cases h
  · rename_i h1
    split at h
    · cases h
    · split at h
      · cases h
      · rename_i h3
        split at h
        · cases h
        · cases h
          refine ⟨?_, rfl, rfl, ?_, rfl⟩
          · intro hv
            simp [hv] at h1
            exact h1
          · intro hv
            simpa [hv] using h3

theorem zip_keys (l : List String) (pos : List Val) : ∀ p ∈ l.zip pos, p.1 ∈ l := by
  intro p hp
  exact (List.of_mem_zip hp).1

theorem bind_given_once {c : Ctor} {pos : List Val} {kw : Kw} {e : Env} (h : bind c pos kw = some e) : (kw.any fun p => (((c.formals.map (·.1)).zip pos).map (·.1)).contains p.1) = false := by
  unfold bind at h
  simp only at h
  split at h
  · cases h
  · split at h
    · cases h
    · rename_i h2
      simpa using h2

theorem mem_of_lookup_eq {l : Kw} {k : String} {v : Val} (h : l.lookup k = some v) : (k, v) ∈ l := by
  induction l with
  | nil => cases h
  | cons p l ih =>
    obtain ⟨a, w⟩ := p
    rw [List.lookup_cons] at h
    by_cases e : k = a
    · subst e
      simp only [beq_self_eq_true, Option.some.injEq] at h
      subst h
      exact List.mem_cons_self
    · have : (k == a) = false := by simpa using e
      rw [this] at h
      exact List.mem_cons_of_mem _ (ih h)

theorem lookup_zip (l : List (String × Option Val)) (pos : List Val) (k : String) : ((l.map (·.1)).zip pos).lookup k = (l.findIdx? fun f => f.1 == k).bind (pos[·]?) := by
  induction l generalizing pos with
  | nil => rfl
  | cons f l ih =>
    cases pos with
    | nil => simp
    | cons v pos =>
      simp only [List.map_cons, List.zip_cons_cons, List.lookup_cons, List.findIdx?_cons]
      by_cases e : f.1 = k
      · subst e
        simp
      · have h1 : (k == f.1) = false := by simpa using fun h => e (Eq.symm h)
        have h2 : (f.1 == k) = false := by simpa using e
        rw [h1, h2]
        simp only [Bool.false_eq_true, if_false]
        rw [ih]
        cases l.findIdx? fun f => f.1 == k <;> simp

end Verif.Keywords

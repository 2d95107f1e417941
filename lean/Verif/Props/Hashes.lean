import Verif.Model.Hashes
import Mathlib.Data.List.GetD
import Mathlib.Data.List.Induction
/-!
# Hash checks (C45)
-/

namespace Verif.Hashes

private theorem chunks_flatten (size : Nat) (hs : 0 < size) : ∀ (fuel : Nat) (content : List UInt8), content.length ≤ fuel →
    (chunks size fuel content).flatten = content := by
  intro fuel
  induction fuel with
  | zero => intro content h; obtain rfl : content = [] := List.length_eq_zero_iff.1 (by omega); rfl
  | succ fuel ih =>
    intro content h
    simp only [chunks]
    split_ifs with he
    · cases content with
      | nil => rfl
      | cons b bs =>
        obtain ⟨n, rfl⟩ : ∃ n, size = n + 1 := ⟨size - 1, by omega⟩
        simp at he
    · rw [List.flatten_cons, ih _ (by
        have : content ≠ [] := by rintro rfl; simp at he
        have := List.length_pos_iff.2 this
        rw [List.length_drop]; omega)]
      exact List.take_append_drop _ _

/-- **C45 (digest).** Reading in chunks computes the digest of the whole content, for every positive chunk size, given that updating
with two byte strings one after the other is updating with their concatenation. -/
theorem C45_chunks (h : Hasher) (hu : ∀ s a b, h.update (h.update s a) b = h.update s (a ++ b)) (he : ∀ s, h.update s [] = s)
    (size : Nat) (hs : 0 < size) (content : List UInt8) :
    computeHash h size content = h.digest (h.update h.start content) := by
  have key : ∀ (l : List (List UInt8)) (s : h.State), l.foldl h.update s = h.update s l.flatten := by
    intro l
    induction l with
    | nil => intro s; exact (he s).symm
    | cons a l ih => intro s; rw [List.foldl_cons, ih, List.flatten_cons, hu]
  rw [computeHash, key, chunks_flatten size hs _ _ (Nat.le_refl _)]

/-- A checksum (sum and number of bytes) and a file of five bytes read in chunks of two. -/
example : ∃ h : Hasher, (∀ s a b, h.update (h.update s a) b = h.update s (a ++ b)) ∧ (∀ s, h.update s [] = s) ∧
    chunks 2 5 [1, 2, 3, 4, 5] = [[1, 2], [3, 4], [5]] ∧ computeHash h 2 [1, 2, 3, 4, 5] = toString (15, 5) :=
  ⟨⟨Nat × Nat, (0, 0), fun s a => (s.1 + (a.map UInt8.toNat).sum, s.2 + a.length), fun s => toString s⟩,
    fun s a b => by simp [Nat.add_assoc], fun s => by simp, by decide, by rfl⟩

/-- The cache after a sequence of calls. -/
private def after (lower : String → String) : Cache → List Check → Cache
  | cache, [] => cache
  | cache, c :: cs => after lower (check lower cache c).2 cs

private theorem checks_append (lower : String → String) (cs ds : List Check) : ∀ cache,
    checks lower cache (cs ++ ds) = checks lower cache cs ++ checks lower (after lower cache cs) ds := by
  induction cs with
  | nil => intro cache; rfl
  | cons c cs ih => intro cache; simp only [List.cons_append, checks, ih, after]

private theorem checks_length (lower : String → String) (cs : List Check) : ∀ cache, (checks lower cache cs).length = cs.length := by
  induction cs with
  | nil => intro cache; rfl
  | cons c cs ih => intro cache; simp only [checks, List.length_cons, ih]

/-- The first call of a sequence, if any, that concerned the file and algorithm of `c` and whose digest at that time matched what it
expected. -/
def firstMatch (lower : String → String) (cs : List Check) (c : Check) : Option Check :=
  cs.find? fun d => decide (d.filename = c.filename ∧ d.algorithm = c.algorithm ∧
    ∃ a, d.actual = some a ∧ lower a = lower d.hash)

private theorem after_cache (lower : String → String) (cs : List Check) (c : Check) :
    after lower (fun _ => none) cs (c.filename, c.algorithm) = (firstMatch lower cs c).bind (·.actual) := by
  induction cs using List.reverseRecOn with
  | nil => rfl
  | append_singleton cs d ih =>
    have happ : ∀ (cs : List Check) (cache : Cache), after lower cache (cs ++ [d]) = (check lower (after lower cache cs) d).2 := by
      intro cs
      induction cs with
      | nil => intro cache; rfl
      | cons e cs ih => intro cache; simp only [List.cons_append, after, ih]
    rw [happ]
    unfold firstMatch at ih ⊢
    rw [List.find?_append]
    generalize hcache : after lower (fun _ => none) cs = cache at ih ⊢
    cases hf : cs.find? (fun d : Check => decide (d.filename = c.filename ∧ d.algorithm = c.algorithm ∧
        ∃ a, d.actual = some a ∧ lower a = lower d.hash)) with
    | some e =>
      rw [hf] at ih
      simp only [Option.bind_some, Option.some_or] at ih ⊢
      have he := List.find?_some hf
      simp only [decide_eq_true_eq] at he
      obtain ⟨-, -, a, ha, -⟩ := he
      rw [ha] at ih ⊢
      unfold check
      by_cases hk : (d.filename, d.algorithm) = (c.filename, c.algorithm)
      · rw [hk, ih]
        simp only
        split_ifs <;> exact ih
      · cases cache (d.filename, d.algorithm) with
        | some x => simp only; split_ifs <;> exact ih
        | none =>
          cases d.actual with
          | none => exact ih
          | some y =>
            simp only
            split_ifs with h1
            · exact ih
            · simp only
              rw [if_neg (fun e => hk e.symm)]; exact ih
    | none =>
      rw [hf] at ih
      simp only [Option.bind_none, Option.none_or] at ih ⊢
      rw [List.find?_cons, List.find?_nil]
      unfold check
      by_cases hk : (d.filename, d.algorithm) = (c.filename, c.algorithm)
      · rw [hk, ih]
        simp only [Prod.mk.injEq] at hk
        cases ha : d.actual with
        | none => simp [ih]
        | some y =>
          simp only
          by_cases hl : lower d.hash = lower y
          · have hd : (d.filename = c.filename ∧ d.algorithm = c.algorithm ∧
                ∃ a, some y = some a ∧ lower a = lower d.hash) := ⟨hk.1, hk.2, y, rfl, hl.symm⟩
            simp [hl, hk, ha]
          · have hl' : ¬ lower y = lower d.hash := fun e => hl e.symm
            simp [hl, hl', hk, ih]
      · have hd : ¬ (d.filename = c.filename ∧ d.algorithm = c.algorithm ∧
            ∃ a, d.actual = some a ∧ lower a = lower d.hash) := by
          rintro ⟨h1, h2, -⟩; exact hk (by rw [h1, h2])
        simp only [hd, decide_false, Option.bind_none]
        cases cache (d.filename, d.algorithm) with
        | some x => simp only; split_ifs <;> exact ih
        | none =>
          cases d.actual with
          | none => exact ih
          | some y =>
            simp only
            split_ifs with h1
            · exact ih
            · simp only
              rw [if_neg (fun e => hk e.symm)]; exact ih

/-- **C45 (history).** After any sequence of checks starting from an empty cache, a check passes exactly when the expected digest equals, up
to case, the digest the file had at the first check of the same file and algorithm that passed — or has now, if there was none. -/
theorem C45_history (lower : String → String) (cs : List Check) (c : Check) :
    (checks lower (fun _ => none) (cs ++ [c])).getLast? =
      some (match firstMatch lower cs c with
        | some d => checkUncached lower { c with actual := d.actual }
        | none => checkUncached lower c) := by
  rw [checks_append]
  have hc := after_cache lower cs c
  generalize after lower (fun _ => none) cs = cache at hc ⊢
  simp only [checks]
  rw [List.getLast?_append]
  simp only [List.getLast?_singleton, Option.some_or, Option.some.injEq]
  unfold check checkUncached
  rw [hc]
  cases hf : firstMatch lower cs c with
  | none =>
    simp only [Option.bind_none]
    cases c.actual with
    | none => rfl
    | some a => simp only; split_ifs <;> rfl
  | some d =>
    have hd := List.find?_some hf
    simp only [decide_eq_true_eq] at hd
    obtain ⟨-, -, a, ha, -⟩ := hd
    simp only [Option.bind_some, ha]
    by_cases hl : lower a = lower c.hash
    · simp [hl]
    · have : lower c.hash ≠ lower a := fun e => hl e.symm
      simp [hl, this]

/-- **C45 (unchanged files), partial.** As long as the files do not change, every check has the outcome it would have without a cache; in
particular a mismatch is always reported. Missing: files that change after a check (`C45_changed_fails`). -/
theorem C45_unchanged_partial (lower : String → String) (digest : String → String → Option String) (cs : List Check) (c : Check)
    (h : ∀ d ∈ cs ++ [c], d.actual = digest d.filename d.algorithm) :
    (checks lower (fun _ => none) (cs ++ [c])).getLast? = some (checkUncached lower c) := by
  rw [C45_history]
  cases hf : firstMatch lower cs c with
  | none => rfl
  | some d =>
    have hd := List.find?_some hf
    simp only [decide_eq_true_eq] at hd
    have hm := List.mem_of_find?_eq_some hf
    have h1 := h d (by simp [hm])
    have h2 := h c (by simp)
    rw [hd.1, hd.2.1] at h1
    simp only [checkUncached, h1, h2]

/-- A check without a cache reports a mismatch exactly when the digests differ by more than case. -/
theorem C45_uncached (lower : String → String) (c : Check) (a : String) (h : c.actual = some a) :
    (checkUncached lower c = .passed ↔ lower c.hash = lower a) ∧ (checkUncached lower c = .mismatch ↔ lower c.hash ≠ lower a) := by
  unfold checkUncached
  rw [h]
  by_cases hl : lower c.hash = lower a <;> simp [hl]

/-- **C45 fails for files that change.** A file that was checked once is not read again by later checks: new content that does not match the
expected digest passes, and new content that does match is reported as a mismatch. -/
theorem C45_changed_fails :
    checks id (fun _ => none) [⟨"a.csv", "md5", "01", some "01"⟩, ⟨"a.csv", "md5", "01", some "02"⟩,
      ⟨"a.csv", "md5", "02", some "02"⟩] = [.passed, .passed, .mismatch] := by decide

/-- Two files and two algorithms, unchanged. -/
example : checks id (fun _ => none) [⟨"a.csv", "md5", "01", some "02"⟩, ⟨"a.csv", "md5", "02", some "02"⟩,
      ⟨"a.csv", "sha1", "02", some "03"⟩, ⟨"b.csv", "md5", "02", some "01"⟩, ⟨"a.csv", "md5", "02", some "02"⟩] =
    [.mismatch, .passed, .mismatch, .mismatch, .passed] := by decide

end Verif.Hashes

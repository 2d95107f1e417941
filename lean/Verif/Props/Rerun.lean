import Verif.Spec.Rerun
import Verif.Proof.NodeRun
import Verif.Props.Memory
/-! # C92: running again with parameters that have memory -/

namespace Verif.Rerun

open Verif.NodeRun

variable {I S S' O O' : Type}

/-! ## Components -/

private theorem seq_values (p : Part I S O) (q : Part (I × O) S' O') (k : Nat) (s : S) (s' : S') (xs : List (Seen I)) :
    (p.seq q).values k (s, s') xs =
      (p.values k s xs).zip (q.values k s' ((xs.zip (p.values k s xs)).map fun y => ⟨y.1.nodes, (y.1.uses, y.2), y.1.result⟩)) := by
  induction xs generalizing k s s' with
  | nil => rfl
  | cons x xs ih =>
    simp only [Part.values, List.zip_cons_cons, List.map_cons]
    rw [← ih]
    rfl

/-- **C92 (together).** Components that forget at a reset also do so together, one using the values of the other. -/
theorem C92_seq (c : Config) (ok : S → Prop) (ok' : S' → Prop) (p : Part I S O) (q : Part (I × O) S' O') (hp : p.Good c ok) (hq : q.Good c ok') :
    (p.seq q).Good c fun s => ok s.1 ∧ ok' s.2 := by
  refine ⟨?_, ⟨?_, ?_, ?_⟩, ⟨?_, ?_, ?_, ?_⟩⟩
  · rintro ⟨a, a'⟩ ⟨b, b'⟩ ⟨h1, h2⟩ ⟨h3, h4⟩ xs hx
    show (p.seq q).values 0 (p.reset a, q.reset a') xs = (p.seq q).values 0 (p.reset b, q.reset b') xs
    rw [seq_values, seq_values, hp.forgets a b h1 h3 xs hx]
    congr 1
    apply hq.forgets a' b' h2 h4
    cases xs with
    | nil => simp
    | cons x xs => simpa [Part.values] using hx
  · intro k st st' s h
    show (_, _) = (_, _)
    rw [hp.careful.before k st st' s.1 h, hq.careful.before k st st' s.2 h]
  · intro k st st' i s h
    simp only [Part.seq]
    rw [hp.careful.evaluate k st st' i s.1 h, hq.careful.evaluate k st st' _ s.2 h]
  · intro k st st' i o s h
    show (_, _) = (_, _)
    rw [hp.careful.after k st st' i o.1 s.1 h, hq.careful.after k st st' _ o.2 s.2 h]
  · exact fun s h => ⟨hp.keeps.reset _ h.1, hq.keeps.reset _ h.2⟩
  · exact fun k st s h => ⟨hp.keeps.before k st _ h.1, hq.keeps.before k st _ h.2⟩
  · exact fun k st i s h => ⟨hp.keeps.evaluate k st i _ h.1, hq.keeps.evaluate k st _ _ h.2⟩
  · exact fun k st i o s h => ⟨hp.keeps.after k st i _ _ h.1, hq.keeps.after k st _ _ _ h.2⟩

/-- **C92 (plain).** Parameters without memory. -/
theorem C92_plain (c : Config) (f : Nat → St → I → O) (hf : ∀ k st st' i, AgreeMostly c st st' → f k st i = f k st' i) : (plain f).Good c fun _ => True :=
  ⟨fun _ _ _ _ _ _ => rfl, ⟨fun _ _ _ _ _ => rfl, fun k st st' i s h => by simp only [plain]; rw [hf k st st' i h], fun _ _ _ _ _ _ _ => rfl⟩, ⟨fun _ h => h, fun _ _ _ h => h, fun _ _ _ _ h => h, fun _ _ _ _ _ h => h⟩⟩

private theorem map_const {α β : Type} (b : β) (l l' : List α) (h : l.length = l'.length) : (l.map fun _ => b) = l'.map fun _ => b := by
  rw [List.map_const', List.map_const', h]

/-- **C92 (delayed flow).** -/
theorem C92_delay (c : Config) (node n : Nat) (hn : node < c.size) (initial : Rat) : (delay node n initial : Part I _ _).Good c fun s => s.mem.length = n := by
  refine ⟨?_, ⟨fun _ _ _ _ _ => rfl, fun _ _ _ _ _ _ => rfl, ?_⟩, ⟨?_, fun _ _ _ h => h, fun _ _ _ _ h => h, ?_⟩⟩
  · intro s s' h h' xs _
    have : (delay node n initial : Part I _ _).reset s = (delay node n initial : Part I _ _).reset s' := by
      simp only [delay, Memory.Delay.reset]
      rw [map_const _ s.mem s'.mem (h.trans h'.symm)]
    rw [this]
  · intro k st st' i o s h
    simp only [delay]
    rw [(h node hn).1]
  · intro s h
    simpa [delay, Memory.Delay.reset] using h
  · intro k st i o s h
    simpa [delay, Memory.Delay.after] using h

/-- **C92 (rolling mean).** -/
theorem C92_mean (c : Config) (node n : Nat) (hn : node < c.size) (initial : Rat) : (mean node n initial : Part I _ _).Good c fun s => s.mem.length = n := by
  refine ⟨?_, ⟨fun _ _ _ _ _ => rfl, fun _ _ _ _ _ _ => rfl, ?_⟩, ⟨?_, fun _ _ _ h => h, fun _ _ _ _ h => h, ?_⟩⟩
  · intro s s' h h' xs _
    have : (mean node n initial : Part I _ _).reset s = (mean node n initial : Part I _ _).reset s' := by
      simp only [mean, Memory.Mean.reset]
      rw [map_const _ s.mem s'.mem (h.trans h'.symm)]
    rw [this]
  · intro k st st' i o s h
    simp only [mean]
    rw [(h node hn).1]
  · intro s h
    simpa [mean, Memory.Mean.reset] using h
  · intro k st i o s h
    simpa [mean, Memory.Mean.after] using h

/-- **C92 (flow of the previous timestep).** -/
theorem C92_flow (c : Config) (node : Nat) (hn : node < c.size) (initial : Rat) : (flow node initial : Part I _ _).Good c fun _ => True := by
  refine ⟨fun _ _ _ _ _ _ => rfl, ⟨fun _ _ _ _ _ => rfl, fun _ _ _ _ _ _ => rfl, ?_⟩, ⟨fun _ _ => trivial, fun _ _ _ _ => trivial, fun _ _ _ _ _ => trivial, fun _ _ _ _ _ _ => trivial⟩⟩
  intro k st st' i o s h
  simp only [flow]
  rw [(h node hn).1]

/-- **C92 (deficit of the previous timestep).** -/
theorem C92_deficit (c : Config) (node : Nat) (hn : node < c.size) (mx : I → Rat) : (deficit node mx).Good c fun _ => True := by
  refine ⟨fun _ _ _ _ _ _ => rfl, ⟨fun _ _ _ _ _ => rfl, fun _ _ _ _ _ _ => rfl, ?_⟩, ⟨fun _ _ => trivial, fun _ _ _ _ => trivial, fun _ _ _ _ _ => trivial, fun _ _ _ _ _ _ => trivial⟩⟩
  intro k st st' i o s h
  simp only [deficit]
  rw [(h node hn).1]

private theorem threshold_calc (c : Memory.ThresholdCfg) (k : Nat) (o : Memory.Observation) (tr : Memory.Triggered) (out out' : Nat → Int) :
    (Memory.thresholdCalc c k o [0] (tr, out)).1 = (Memory.thresholdCalc c k o [0] (tr, out')).1 ∧
      (Memory.thresholdCalc c k o [0] (tr, out)).2 0 = (Memory.thresholdCalc c k o [0] (tr, out')).2 0 := by
  simp [Memory.thresholdCalc]

/-- **C92 (thresholds).** A ratchet is released by the reset; the indices that are left are never read. -/
theorem C92_threshold (c : Config) (cfg : Memory.ThresholdCfg) (o : Nat → St → I → Memory.Observation) (ho : ∀ k st st' i, AgreeMostly c st st' → o k st i = o k st' i) :
    (threshold cfg o).Good c fun _ => True := by
  refine ⟨?_, ⟨fun _ _ _ _ _ => rfl, ?_, fun _ _ _ _ _ _ _ => rfl⟩, ⟨fun _ _ => trivial, fun _ _ _ _ => trivial, fun _ _ _ _ _ => trivial, fun _ _ _ _ _ _ => trivial⟩⟩
  · intro s s' _ _ xs _
    have key : ∀ (xs : List (Seen I)) (k : Nat) (tr : Memory.Triggered) (out out' : Nat → Int),
        (threshold cfg o).values k (tr, out) xs = (threshold cfg o).values k (tr, out') xs := by
      intro xs
      induction xs with
      | nil => intros; rfl
      | cons x xs ih =>
        intro k tr out out'
        obtain ⟨h1, h2⟩ := threshold_calc cfg k (o k x.nodes x.uses) tr out out'
        simp only [Part.values, threshold]
        rw [h2]
        congr 1
        have := ih (k + 1) (Memory.thresholdCalc cfg k (o k x.nodes x.uses) [0] (tr, out)).1 (Memory.thresholdCalc cfg k (o k x.nodes x.uses) [0] (tr, out)).2
          (Memory.thresholdCalc cfg k (o k x.nodes x.uses) [0] (tr, out')).2
        simp only [threshold] at this
        rw [this]
        rw [h1]
    exact key xs 0 _ s.2 s'.2
  · intro k st st' i s h
    simp only [threshold]
    rw [ho k st st' i h]

/-- **C92 (licences for the whole run).** The year kept by annual licences plays no role here. -/
theorem C92_storage_licence (c : Config) (d : Dates) (node : Nat) (hn : Visible c node) (amount : Rat) : (storageLicence d node amount : Part I _ _).Good c fun _ => True := by
  refine ⟨?_, ⟨fun _ _ _ _ _ => rfl, fun _ _ _ _ _ _ => rfl, ?_⟩, ⟨fun _ _ => trivial, fun _ _ _ _ => trivial, fun _ _ _ _ _ => trivial, fun _ _ _ _ _ _ => trivial⟩⟩
  · intro s s' _ _ xs _
    have key : ∀ (xs : List (Seen I)) (k : Nat) (r : Rat) (y y' : Option Nat),
        (storageLicence d node amount).values k ⟨r, y⟩ xs = (storageLicence d node amount).values k ⟨r, y'⟩ xs := by
      intro xs
      induction xs with
      | nil => intros; rfl
      | cons x xs ih =>
        intro k r y y'
        simp only [Part.values, storageLicence]
        congr 1
        exact ih _ _ y y'
    exact key xs 0 amount s.prevYear s'.prevYear
  · intro k st st' i o s h
    simp only [storageLicence, licenceStep]
    rw [(h node hn.1).1, (h node hn.1).2.1 hn.2.1 hn.2.2]

/-- **C92 (annual licences).** The year of the last timestep of the previous run is kept; it makes no difference, as there is no previous flow in the first timestep. -/
theorem C92_annual_licence (c : Config) (d : Dates) (node : Nat) (hn : Visible c node) (amount : Rat) : (annualLicence d node amount : Part I _ _).Good c fun _ => True := by
  refine ⟨?_, ⟨?_, ?_, ?_⟩, ⟨fun _ _ => trivial, fun _ _ _ _ => trivial, fun _ _ _ _ _ => trivial, fun _ _ _ _ _ _ => trivial⟩⟩
  · intro s s' _ _ xs hx
    cases xs with
    | nil => rfl
    | cons x xs =>
      have h0 : (x.nodes node).prevFlow = 0 := hx x (by simp) node hn.1 hn.2.1 hn.2.2
      have hb : ∀ s : License.State, (License.State.reset amount s).before amount (licenceStep d node 0 x.nodes) = ⟨amount, some (d.year 0)⟩ := by
        intro s
        unfold License.State.before
        split
        · simp only [licenceStep, h0, Rat.mul_zero, Rat.sub_eq_add_neg, Rat.neg_zero, Rat.add_zero]
        · next h =>
          simp only [licenceStep, not_not] at h
          simp only [License.State.reset] at h ⊢
          rw [h]
      simp only [Part.values, annualLicence]
      rw [hb s, hb s']
  · intro k st st' s h
    simp only [annualLicence, licenceStep]
    rw [(h node hn.1).1, (h node hn.1).2.1 hn.2.1 hn.2.2]
  · intro k st st' i s h
    simp only [annualLicence, licenceStep]
    rw [(h node hn.1).1, (h node hn.1).2.1 hn.2.1 hn.2.2]
  · intro k st st' i o s h
    simp only [annualLicence, licenceStep]
    rw [(h node hn.1).1, (h node hn.1).2.1 hn.2.1 hn.2.2]

/-- **C92 (recorded values).** -/
theorem C92_record (c : Config) (n : Nat) (f : Nat → St → I → Rat) (hf : ∀ k st st' i, AgreeMostly c st st' → f k st i = f k st' i) : (record f).Good c fun s => s.length = n := by
  refine ⟨?_, ⟨fun _ _ _ _ _ => rfl, fun _ _ _ _ _ _ => rfl, ?_⟩, ⟨?_, fun _ _ _ h => h, fun _ _ _ _ h => h, ?_⟩⟩
  · intro s s' h h' xs _
    have : (record f).reset s = (record f).reset s' := map_const _ s s' (h.trans h'.symm)
    rw [this]
  · intro k st st' i o s h
    simp only [record]
    rw [hf k st st' i h]
  · intro s h
    simpa [record] using h
  · intro k st i o s h
    simpa [record] using h

/-! ## Runs -/

private theorem agree_mostly {c : Config} {st st' : St} (h : Agree c st st') : AgreeMostly c st st' := fun i hi => ⟨(h i hi).1, fun _ _ => (h i hi).2.1, (h i hi).2.2⟩

/-- The state of a component after timesteps. -/
private def Part.from (p : Part I S O) : Nat → S → List (Seen I) → S
  | _, s, [] => s
  | k, s, x :: xs =>
    let r := p.evaluate k x.nodes x.uses (p.before k x.nodes s)
    p.from (k + 1) (p.after k x.result x.uses r.2 r.1) xs

private theorem values_append (p : Part I S O) (k : Nat) (s : S) (xs ys : List (Seen I)) : p.values k s (xs ++ ys) = p.values k s xs ++ p.values (k + xs.length) (p.from k s xs) ys := by
  induction xs generalizing k s with
  | nil => rfl
  | cons x xs ih =>
    simp only [List.cons_append, Part.values, Part.from, ih, List.length_cons]
    rw [show k + 1 + xs.length = k + (xs.length + 1) by omega]

private theorem from_append (p : Part I S O) (k : Nat) (s : S) (xs ys : List (Seen I)) : p.from k s (xs ++ ys) = p.from (k + xs.length) (p.from k s xs) ys := by
  induction xs generalizing k s with
  | nil => rfl
  | cons x xs ih =>
    simp only [List.cons_append, Part.from, ih, List.length_cons]
    rw [show k + 1 + xs.length = k + (xs.length + 1) by omega]

private theorem values_next (p : Part I S O) (s s' : S) (xs : List (Seen I)) (y : Seen I) (h : p.values 0 s (xs ++ [y]) = p.values 0 s' (xs ++ [y])) :
    (p.evaluate xs.length y.nodes y.uses (p.before xs.length y.nodes (p.from 0 s xs))).2 = (p.evaluate xs.length y.nodes y.uses (p.before xs.length y.nodes (p.from 0 s' xs))).2 := by
  rw [values_append, values_append] at h
  have hl : ∀ (k : Nat) (s : S) (xs : List (Seen I)), (p.values k s xs).length = xs.length := by
    intro k s xs
    induction xs generalizing k s with
    | nil => rfl
    | cons x xs ih => simp [Part.values, ih]
  have := (List.append_inj h (by rw [hl, hl])).2
  simpa [Part.values] using this

private theorem run_same (c : Config) (hw : c.WF) (ok : S → Prop) (p : Part Unit S O) (hp : p.Good c ok) (dec : Nat → St → O → Decision)
    (hd : ∀ k st st' o, AgreeMostly c st st' → dec k st o = dec k st' o) (s s' : S) (hs : ok s) (hs' : ok s') (n : Nat) (xs : List (Seen Unit)) (st st' : St)
    (h : AgreeMostly c (before st) (before st')) (hf : ∀ x ∈ xs.head?, Fresh c x.nodes) (hf0 : xs = [] → Fresh c (before st)) (t t' : S)
    (ht : t = p.from 0 (p.reset s) xs) (ht' : t' = p.from 0 (p.reset s') xs) :
    List.Forall₂ (fun a b => Agree c a.1 b.1 ∧ a.2 = b.2) (runAll c p dec xs.length n st t) (runAll c p dec xs.length n st' t') := by
  induction n generalizing xs st st' t t' with
  | zero => exact .nil
  | succ n ih =>
    have hfr : ∀ y : St, ∀ x ∈ (xs ++ [(⟨before st, (), y⟩ : Seen Unit)]).head?, Fresh c x.nodes := by
      intro y x hx
      cases xs with
      | nil =>
        simp only [List.nil_append, List.head?_cons, Option.mem_some_iff] at hx
        subst hx
        exact hf0 rfl
      | cons a xs => exact hf x (by simpa using hx)
    have hv : (p.evaluate xs.length (before st) () (p.before xs.length (before st) t)).2 = (p.evaluate xs.length (before st') () (p.before xs.length (before st') t')).2 := by
      rw [← hp.careful.before _ _ _ _ h, ← hp.careful.evaluate _ _ _ _ _ h, ht, ht']
      exact values_next p _ _ xs ⟨before st, (), st⟩ (hp.forgets s s' hs hs' _ (hfr st))
    simp only [runAll, stepAll]
    rw [← hv, ← hd _ _ _ _ h]
    have hag := step_agree c hw (dec xs.length (before st) (p.evaluate xs.length (before st) () (p.before xs.length (before st) t)).2) st st' h
    refine .cons ⟨hag, rfl⟩ ?_
    have hlen : (xs ++ [(⟨before st, (), step c (dec xs.length (before st) (p.evaluate xs.length (before st) () (p.before xs.length (before st) t)).2) st⟩ : Seen Unit)]).length = xs.length + 1 := by simp
    rw [← hlen]
    apply ih
    · exact agreeMostly_before hag
    · exact hfr _
    · intro h0; simp at h0
    · rw [from_append, ht]
      simp [Part.from]
    · rw [from_append, ht']
      simp only [Part.from, Nat.zero_add]
      rw [← ht', ← hp.careful.before _ _ _ _ h, ← hp.careful.evaluate _ _ _ _ _ h, ← hp.careful.after _ _ _ _ _ _ (agree_mostly hag)]
      rw [hv, ← hp.careful.before _ _ _ _ h, ← hp.careful.evaluate _ _ _ _ _ h]

private theorem reset_fresh (c : Config) (st : St) : Fresh c (before (reset c st)) := by
  intro i hi h1 h2
  simp only [before, Storage.State.before, reset, hi, h1, and_self, if_true, resetNode]
  cases hc : c.cls i with
  | aggregatedStorage ms v q => exact absurd hc (h2 ms v q)
  | _ => rfl

private theorem reset_agree (c : Config) (hw : c.WF) (st st' : St) : AgreeMostly c (before (reset c st)) (before (reset c st')) := by
  intro i hi
  refine ⟨rfl, fun h1 h2 => ?_, fun hv => ?_⟩
  · rw [reset_fresh c st i hi h1 h2, reset_fresh c st' i hi h1 h2]
  · have h1 : c.hidden i = false := by
      by_contra hx
      have := hw.2 i hi (by simpa using hx)
      rw [this] at hv; exact hv
    simp only [before, Storage.State.before, reset, hi, h1, and_self, if_true, resetNode]
    cases hc : c.cls i <;> rw [hc] at hv
    case node => exact hv.elim
    case aggregated => exact hv.elim
    case piecewise => exact hv.elim
    case copyOf => exact hv.elim
    all_goals exact ⟨rfl, rfl⟩

/-- **C92.** Two runs of a model with components that have memory, each from a reset of whatever there was before (nodes `st`, `st'`, components `s`, `s'`), go through the same node states and the same values of all components. -/
theorem C92_rerun (c : Config) (hw : c.WF) (ok : S → Prop) (p : Part Unit S O) (hp : p.Good c ok) (dec : Nat → St → O → Decision)
    (hd : ∀ k st st' o, AgreeMostly c st st' → dec k st o = dec k st' o) (n : Nat) (st st' : St) (s s' : S) (hs : ok s) (hs' : ok s') :
    List.Forall₂ (fun a b => Agree c a.1 b.1 ∧ a.2 = b.2) (runAll c p dec 0 n (reset c st) (p.reset s)) (runAll c p dec 0 n (reset c st') (p.reset s')) :=
  run_same c hw ok p hp dec hd s s' hs hs' n [] (reset c st) (reset c st') (reset_agree c hw st st') (by simp) (fun _ => reset_fresh c st) _ _ rfl rfl

private theorem end_ok (c : Config) (ok : S → Prop) (p : Part Unit S O) (hk : p.Keeps ok) (dec : Nat → St → O → Decision) (n k : Nat) (st : St) (s : S) (h : ok s) : ok (endAll c p dec k n st s).2 := by
  induction n generalizing k st s with
  | zero => exact h
  | succ n ih => exact ih _ _ _ (hk.after _ _ _ _ _ (hk.evaluate _ _ _ _ (hk.before _ _ _ h)))

/-- **C92 (second run).** A model that was set up and run for `m` timesteps gives, when it is reset and run again, the results of its first run. -/
theorem C92_second_run (c : Config) (hw : c.WF) (ok : S → Prop) (p : Part Unit S O) (hp : p.Good c ok) (dec : Nat → St → O → Decision)
    (hd : ∀ k st st' o, AgreeMostly c st st' → dec k st o = dec k st' o) (m n : Nat) (u : Nat → Rat) (s : S) (hs : ok s) :
    let last := endAll c p dec 0 m (reset c (setup u)) (p.reset s)
    List.Forall₂ (fun a b => Agree c a.1 b.1 ∧ a.2 = b.2) (runAll c p dec 0 n (reset c last.1) (p.reset last.2)) (runAll c p dec 0 n (reset c (setup u)) (p.reset s)) :=
  C92_rerun c hw ok p hp dec hd n _ _ _ _ (end_ok c ok p hp.keeps dec m 0 _ _ (hp.keeps.reset _ hs)) hs

/-- A catchment, a demand and a storage with its two children; the demand has an annual licence, which is limited further while a ratchet on the storage is set. -/
private def sample : Config where
  size := 5
  cls i := if i = 2 then .storage 50 (some (1 / 2)) else .node
  store i := if i = 3 then some (2, -1) else if i = 4 then some (2, 1) else none
  hidden i := i == 3 || i == 4

private def sampleDates : Dates := ⟨fun k => if k < 2 then 2015 else 2016, fun k => if k < 2 then 364 + k else k - 1, fun _ => 1⟩

private def sampleParts : Part Unit ((Memory.Delay × License.State) × Memory.Triggered × (Nat → Int)) ((Option Rat × Rat) × Int) :=
  ((delay 0 2 7).seq (annualLicence sampleDates 1 100)).seq
    (threshold ⟨.lt, true, none⟩ fun _ st _ => ⟨fun _ => some (st 2).volume, fun _ => some 45⟩)

example : sample.WF ∧ Visible sample 1 ∧
    sampleParts.Good sample (fun s => (s.1.1.mem.length = 2 ∧ True) ∧ True) := by
  refine ⟨⟨?_, ?_⟩, ⟨by decide, rfl, fun ms v p h => by simp [sample] at h⟩, C92_seq sample _ _ _ _ (C92_seq sample _ _ _ _ (C92_delay sample 0 2 (by decide) 7)
    (C92_annual_licence sample sampleDates 1 ⟨by decide, rfl, fun ms v p h => by simp [sample] at h⟩ 100)) (C92_threshold sample _ _ ?_)⟩
  · intro i _ m hm
    by_cases h2 : i = 2 <;> simp [sample, h2, Cls.reads] at hm
  · intro i _ h
    have : i = 3 ∨ i = 4 := by simpa [sample] using h
    rcases this with rfl | rfl <;> rfl
  · intro k st st' i h
    have := (h 2 (by decide)).2.2 trivial
    simp only [this.1]

/-- **C92 fails** for a licence on a node with a parent: the previous flow of the last timestep of the first run is taken from the licence at the beginning of the second. -/
theorem C92_child_fails : ∃ (c : Config) (d : Dates) (amount : Rat) (dec : Nat → St → Rat → Decision), c.WF ∧
    (let p : Part Unit _ _ := annualLicence d 0 amount
     let last := endAll c p dec 0 2 (reset c (setup fun _ => 0)) (p.reset (License.State.new amount))
     (runAll c p dec 0 2 (reset c last.1) (p.reset last.2)).map (·.2) ≠ (runAll c p dec 0 2 (reset c (setup fun _ => 0)) (p.reset (License.State.new amount))).map (·.2)) := by
  refine ⟨⟨1, fun _ => .node, fun _ => none, fun _ => true⟩, ⟨fun k => 2015 + k, fun k => if k = 0 then 361 else 1, fun _ => 5⟩, 100,
    fun _ _ v => ⟨1, fun _ => 0, fun _ => 0, fun _ => true, [(0, v)]⟩, ⟨by intro i _ m hm; simp [Cls.reads] at hm, fun _ _ _ => rfl⟩, by decide +kernel⟩

/-! ## What the components give in a run -/

/-- **C92 (values of flows and deficits).** After a reset a flow parameter gives its initial value and then the flows at the ends of the timesteps before; a deficit parameter gives zero and then the deficits. -/
theorem C92_flow_values (node : Nat) (initial : Rat) (mx : I → Rat) (s : Memory.Flow) (r : Rat) (xs : List (Seen I)) :
    (flow node initial : Part I _ _).values 0 ((flow node initial : Part I _ _).reset s) xs = (initial :: xs.map fun x => (x.result node).flow).take xs.length ∧
    (deficit node mx).values 0 ((deficit node mx).reset r) xs = (0 :: xs.map fun x => mx x.uses - (x.result node).flow).take xs.length := by
  have h1 : ∀ (xs : List (Seen I)) (k : Nat) (s : Memory.Flow), (flow node initial : Part I _ _).values k s xs = (s.next 0 :: xs.map fun x => (x.result node).flow).take xs.length := by
    intro xs
    induction xs with
    | nil => intro k s; rfl
    | cons x xs ih =>
      intro k s
      show s.next 0 :: (flow node initial : Part I _ _).values (k + 1) _ xs = _
      rw [ih]
      rfl
  have h2 : ∀ (xs : List (Seen I)) (k : Nat) (r : Rat), (deficit node mx).values k r xs = (r :: xs.map fun x => mx x.uses - (x.result node).flow).take xs.length := by
    intro xs
    induction xs with
    | nil => intro k s; rfl
    | cons x xs ih =>
      intro k r
      show r :: (deficit node mx).values (k + 1) _ xs = _
      rw [ih]
      rfl
  exact ⟨h1 xs 0 _, h2 xs 0 _⟩

private theorem delay_states (node n : Nat) (initial : Rat) (xs : List (Seen I)) (k : Nat) (s : Memory.Delay) :
    (delay node n initial : Part I _ _).values k s xs = (List.range xs.length).map fun t => (s.run n ((xs.map fun x : Seen I => fun _ => (x.result node).flow).take t)).value 0 := by
  induction xs generalizing k s with
  | nil => rfl
  | cons x xs ih =>
    show s.value 0 :: (delay node n initial : Part I _ _).values (k + 1) _ xs = _
    rw [ih, List.length_cons, List.range_succ_eq_map, List.map_cons, List.map_map]
    rfl

private theorem mean_states (node n : Nat) (initial : Rat) (xs : List (Seen I)) (k : Nat) (s : Memory.Mean) :
    (mean node n initial : Part I _ _).values k s xs =
      (List.range xs.length).map fun t => (s.run n ((xs.map fun x : Seen I => fun _ => (x.result node).flow).take t)).value n initial (k + t) 0 := by
  induction xs generalizing k s with
  | nil => rfl
  | cons x xs ih =>
    show s.value n initial k 0 :: (mean node n initial : Part I _ _).values (k + 1) _ xs = _
    rw [ih, List.length_cons, List.range_succ_eq_map, List.map_cons, List.map_map]
    congr 1
    refine List.map_congr_left fun t _ => ?_
    show (Memory.Mean.run n _ _).value n initial (k + 1 + t) 0 = (Memory.Mean.run n _ _).value n initial (k + (t + 1)) 0
    rw [show k + 1 + t = k + (t + 1) by omega]
    rfl

/-- **C92 (values of delays and means).** A delayed flow is the initial value for `n` timesteps and then the flow `n` timesteps before; a rolling mean is that of the last `n` flows. -/
theorem C92_delay_values (node n : Nat) (hn : 1 ≤ n) (initial : Rat) (s : Memory.Delay) (m : Memory.Mean) (hs : s.mem.length = n) (hm : m.mem.length = n) (xs : List (Seen I)) (t : Nat) (ht : t < xs.length) :
    ((delay node n initial : Part I _ _).values 0 ((delay node n initial : Part I _ _).reset s) xs)[t]? =
      some (some (if t < n then initial else ((xs.map fun x => (x.result node).flow).getD (t - n) 0))) ∧
    ((mean node n initial : Part I _ _).values 0 ((mean node n initial : Part I _ _).reset m) xs)[t]? =
      some (if t = 0 then initial else (((xs.take t).drop (t - min t n)).map fun x => (x.result node).flow).sum / (min t n : Nat)) := by
  constructor
  · rw [delay_states, List.getElem?_map, List.getElem?_range ht, Option.map_some]
    have hc : (Memory.DelayCfg.mk n 0 initial).steps none = .ok n := by
      unfold Memory.DelayCfg.steps
      simp only [gt_iff_lt, lt_irrefl, if_false]
      rw [if_neg (by omega)]
      rfl
    have h := Memory.C34_value ⟨n, 0, initial⟩ none n hc s hs (xs.map fun x : Seen I => fun _ => (x.result node).flow) t (by rw [List.length_map]; omega) 0
    refine congrArg some (Eq.trans h ?_)
    split
    · rfl
    · congr 1
      rw [List.getD_eq_getElem?_getD, List.getD_eq_getElem?_getD, List.getElem?_map, List.getElem?_map]
      cases xs[t - n]? <;> rfl
  · rw [mean_states, List.getElem?_map, List.getElem?_range ht, Option.map_some, Nat.zero_add]
    have hl : ((xs.map fun x : Seen I => fun _ : Nat => (x.result node).flow).take t).length = t := by rw [List.length_take, List.length_map]; omega
    have h := Memory.C35_value n hn initial m hm ((xs.map fun x : Seen I => fun _ => (x.result node).flow).take t) 0
    rw [hl] at h
    refine congrArg some (Eq.trans h ?_)
    split
    · rfl
    · rw [← List.map_take, ← List.map_drop, List.map_map]
      rfl

/-- **C92 (values of recorders).** A recorder that a parameter reads gives nothing in the first timestep, and then what was recorded in the timestep before. -/
theorem C92_record_values (f : Nat → St → I → Rat) (s : List Rat) (xs : List (Seen I)) (hl : xs.length ≤ s.length) (t : Nat) (ht : t < xs.length) :
    ((record f).values 0 ((record f).reset s) xs)[t]? = some (if t = 0 then none else xs[t - 1]?.map fun x => f (t - 1) x.result x.uses) := by
  have key : ∀ (xs : List (Seen I)) (k : Nat) (s : List Rat), k + xs.length ≤ s.length → ∀ t < xs.length,
      ((record f).values k s xs)[t]? = some (if k + t = 0 then none else if t = 0 then s[k - 1]? else xs[t - 1]?.map fun x => f (k + t - 1) x.result x.uses) := by
    intro xs
    induction xs with
    | nil => intro k s _ t ht; cases ht
    | cons x xs ih =>
      intro k s hl t ht
      show ((if k = 0 then none else s[k - 1]?) :: (record f).values (k + 1) (s.set k (f k x.result x.uses)) xs)[t]? = _
      cases t with
      | zero => simp
      | succ t =>
        rw [List.getElem?_cons_succ, ih (k + 1) _ (by rw [List.length_set]; simp only [List.length_cons] at hl; omega) t (by simpa using ht)]
        rw [if_neg (by omega), if_neg (by omega : ¬ (k + (t + 1) = 0)), if_neg (by omega : ¬ (t + 1 = 0))]
        cases t with
        | zero =>
          simp only [List.length_cons] at hl
          rw [if_pos rfl]
          simp only [Nat.add_sub_cancel, Nat.zero_add]
          rw [List.getElem?_set_self (by omega)]
          rfl
        | succ t =>
          rw [if_neg (by omega)]
          simp only [Nat.add_sub_cancel, List.getElem?_cons_succ]
          rw [show k + 1 + (t + 1) - 1 = k + (t + 1 + 1) - 1 by omega]
  rw [key xs 0 _ (by simpa [record] using hl) t ht]
  by_cases h : t = 0
  · rw [if_pos (by omega), if_pos h]
  · rw [if_neg (by omega), if_neg h, if_neg h, Nat.zero_add]

example : (flow 0 7 : Part Unit _ _).values 0 ((flow 0 7 : Part Unit _ _).reset ⟨fun _ => 3, fun _ => 3⟩)
    [⟨setup fun _ => 0, (), fun _ => { setup (fun _ => 0) 0 with flow := 2 }⟩, ⟨setup fun _ => 0, (), fun _ => { setup (fun _ => 0) 0 with flow := 4 }⟩] = [7, 2] := by decide +kernel

end Verif.Rerun

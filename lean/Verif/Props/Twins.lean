import Verif.Props.Wording
import Verif.Spec.Twins
/-!
# C124: a supply in two halves
-/

namespace Verif.Lp

open Verif Verif.Bounds Verif.Composite

/-! ## Columns in two copies -/

private theorem S_app {α : Type} {l m : List α} {x y : List Rat} (h : x.length = l.length) (f : α → Rat) : S (l ++ m) (x ++ y) f = S l x f + S m y f := by
  rw [S_zip, S_zip, S_zip, List.zip_append h.symm, List.map_append, List.sum_append]

private theorem S_image {α β : Type} (f : α → β) (l : List α) (x : List Rat) (w : β → Rat) : S (l.map f) x w = S l x fun a => w (f a) := by
  rw [S_zip, S_zip, List.zip_map_left, List.map_map]
  rfl

private theorem S_plus {α : Type} (l : List α) (u v : List Rat) (hu : u.length = l.length) (hv : v.length = l.length) (f : α → Rat) : S l (plus u v) f = S l u f + S l v f := by
  unfold plus
  rw [S_zip, S_zip, S_zip]
  induction l generalizing u v with
  | nil => simp
  | cons a l ih =>
    cases u with
    | nil => simp at hu
    | cons p u =>
      cases v with
      | nil => simp at hv
      | cons q v =>
        simp only [List.zipWith_cons_cons, List.zip_cons_cons, List.map_cons, List.sum_cons]
        rw [ih u v (by simpa using hu) (by simpa using hv)]
        ring

private theorem plus_length {u v : List Rat} {k : Nat} (hu : u.length = k) (hv : v.length = k) : (plus u v).length = k := by
  unfold plus; simp [hu, hv]

private theorem plus_nonneg {u v : List Rat} (hu : ∀ q ∈ u, 0 ≤ q) (hv : ∀ q ∈ v, 0 ≤ q) : ∀ q ∈ plus u v, 0 ≤ q := by
  unfold plus
  induction u generalizing v with
  | nil => simp
  | cons p u ih =>
    cases v with
    | nil => simp
    | cons q v =>
      intro r hr
      rcases List.mem_cons.1 hr with rfl | hr
      · exact add_nonneg (hu p (by simp)) (hv q (by simp))
      · exact ih (fun q hq => hu q (by simp [hq])) (fun q hq => hv q (by simp [hq])) r hr

/-- The line does not tell a column from its copy. -/
private def Alike {α : Type} (c : α → α) (T : List α) (o : Option (Line α)) : Prop :=
  ∀ L, o = some L → ∀ t ∈ T, L.bad (c t) = L.bad t ∧ L.mult (c t) = L.mult t ∧ L.coef (c t) = L.coef t

private theorem S_fold {α : Type} {rest T : List α} {c : α → α} {x u v : List Rat} (hx : x.length = rest.length) (hu : u.length = T.length) (hv : v.length = T.length) {f : α → Rat}
    (h : ∀ t ∈ T, f (c t) = f t) : S (rest ++ T ++ T.map c) (x ++ u ++ v) f = S (rest ++ T) (x ++ plus u v) f := by
  rw [S_app (by simp [hx, hu]), S_app hx, S_app hx, S_image, S_congr h, S_plus T u v hu hv]
  ring

private theorem alike_holds {α : Type} {rest T : List α} {c : α → α} {x u v : List Rat} (hx : x.length = rest.length) (hu : u.length = T.length) (hv : v.length = T.length) {o : Option (Line α)}
    (h : Alike c T o) : (∃ L, o = some L ∧ L.Built (rest ++ T ++ T.map c) ∧ L.Holds (rest ++ T ++ T.map c) (x ++ u ++ v)) ↔
      ∃ L, o = some L ∧ L.Built (rest ++ T) ∧ L.Holds (rest ++ T) (x ++ plus u v) := by
  refine exists_congr fun L => and_congr_right fun ho => ?_
  have h := h L ho
  unfold Line.Holds
  rw [S_fold hx hu hv fun t ht => (h t ht).2.2]
  refine and_congr_left fun _ => ?_
  unfold Line.Built
  constructor
  · rintro ⟨h1, ⟨q, hq, hq0⟩, h3⟩
    refine ⟨fun q hq => h1 q (List.mem_append_left _ hq), ?_, fun q hq => h3 q (List.mem_append_left _ hq)⟩
    rcases List.mem_append.1 hq with hq | hq
    · exact ⟨q, hq, hq0⟩
    · obtain ⟨t, ht, rfl⟩ := List.mem_map.1 hq
      exact ⟨t, List.mem_append_right _ ht, by rwa [← (h t ht).2.1]⟩
  · rintro ⟨h1, ⟨q, hq, hq0⟩, h3⟩
    refine ⟨fun q hq => ?_, ⟨q, List.mem_append_left _ hq, hq0⟩, fun q hq => ?_⟩
    · rcases List.mem_append.1 hq with hq | hq
      · exact h1 q hq
      · obtain ⟨t, ht, rfl⟩ := List.mem_map.1 hq
        rw [(h t ht).1]; exact h1 t (List.mem_append_right _ ht)
    · rcases List.mem_append.1 hq with hq | hq
      · exact h3 q hq
      · obtain ⟨t, ht, rfl⟩ := List.mem_map.1 hq
        rw [(h t ht).2.1]; exact h3 t (List.mem_append_right _ ht)

/-- The row of an upper limit. -/
private theorem upper_line {α : Type} {bad p : α → Bool} {A : Rat} (hA : e8 ≤ A) (hA' : A ≤ dblMax - 1) {l : List α} {x : List Rat} (hx : ∀ v ∈ x, 0 ≤ v) (hb : ∀ a ∈ l, bad a = false) :
    (∃ L, limitLine bad (fun a => one (p a)) (fun a => term (p a) 1) (.fin 0) (.fin A) = some L ∧ L.Built l ∧ L.Holds l x) ↔ (∃ a ∈ l, p a = true) ∧ S l x (fun a => term (p a) 1) ≤ A := by
  have hD := dblMax_gt
  have he := e8_pos
  have hE : ∀ q, F.effective (.fin q) = .fin (rnd q) := by intro q; simp only [F.effective, rnd]; split <;> rfl
  have hr0 : rnd 0 = 0 := by unfold rnd; split <;> rfl
  have hrA : rnd A = A := by unfold rnd; rw [if_neg (by rw [abs_of_nonneg (by linarith)]; linarith)]
  obtain ⟨r, hr, hadm⟩ := admits_iff (a := .fin 0) (b := .fin A) (.inr ⟨0, rfl, by unfold OrdinaryDouble; constructor <;> linarith⟩) (.inr ⟨_, rfl, by unfold OrdinaryDouble; constructor <;> linarith⟩)
  have h0 : 0 ≤ S l x fun a => term (p a) 1 := S_nonneg hx fun a _ => by cases p a <;> simp [term]
  unfold limitLine
  rw [hr]
  simp only [Option.some.injEq, exists_eq_left']
  unfold Line.Built Line.Holds
  dsimp only
  rw [hadm, hE, hE, hr0, hrA]
  have hc : ¬Close (.fin 0) (.fin A) := by
    simp only [Close]
    rw [zero_sub, abs_neg, abs_of_nonneg (by linarith)]
    linarith
  constructor
  · rintro ⟨⟨-, ⟨a, ha, h1⟩, -⟩, h⟩
    refine ⟨⟨a, ha, ?_⟩, ?_⟩
    · cases hp : p a
      · rw [hp] at h1; simp [one] at h1
      · rfl
    · rcases h with ⟨h, -⟩ | ⟨-, -, h⟩
      · exact absurd h hc
      · exact h
  · rintro ⟨⟨a, ha, hp⟩, h⟩
    exact ⟨⟨hb, ⟨a, ha, by rw [hp]; simp [one]⟩, fun a _ => by cases p a <;> simp [one]⟩, .inr ⟨hc, h0, h⟩⟩

private theorem S_mark {α : Type} {l : List α} {x : List Rat} (h : x.length = l.length) {p : α → Bool} {b : Bool} (hp : ∀ a ∈ l, p a = b) : S l x (fun a => term (p a) 1) = term b x.sum := by
  cases b with
  | false => rw [S_congr (g := fun _ => 0) fun a ha => by rw [hp a ha]; rfl, S_zero]; rfl
  | true => rw [S_congr (g := fun _ => 1) fun a ha => by rw [hp a ha]; rfl, S_one l x h]; rfl

/-- The problem with two supplies and the problem with one: the other lines `ls` do not tell the columns `T` of the first supply from their copies. -/
private theorem twin_lines {α : Type} {rest T : List α} {c : α → α} {ls : List (Option (Line α))} (hls : ∀ o ∈ ls, Alike c T o) {bada badb pa pb : α → Bool} {A B : Rat} (hA : e8 ≤ A) (hB : e8 ≤ B)
    (hAB : A + B ≤ dblMax - 1) (hr : ∀ r ∈ rest, bada r = false ∧ badb r = false ∧ pa r = false ∧ pb r = false)
    (ht : ∀ t ∈ T, bada t = false ∧ badb t = false ∧ pa t = true ∧ pb t = false) (hc : ∀ t ∈ T, bada (c t) = false ∧ badb (c t) = false ∧ pa (c t) = false ∧ pb (c t) = true)
    {x u v : List Rat} (hx : x.length = rest.length) (hu : u.length = T.length) (hv : v.length = T.length) (h0 : ∀ q ∈ x ++ u ++ v, 0 ≤ q) :
    (AllHold (limitLine bada (fun a => one (pa a)) (fun a => term (pa a) 1) (.fin 0) (.fin A) :: limitLine badb (fun a => one (pb a)) (fun a => term (pb a) 1) (.fin 0) (.fin B) :: ls)
        (rest ++ T ++ T.map c) (x ++ u ++ v) ↔ AllHold ls (rest ++ T) (x ++ plus u v) ∧ T ≠ [] ∧ u.sum ≤ A ∧ v.sum ≤ B) ∧
    (AllHold (limitLine bada (fun a => one (pa a)) (fun a => term (pa a) 1) (.fin 0) (.fin (A + B)) :: ls) (rest ++ T) (x ++ plus u v) ↔
      AllHold ls (rest ++ T) (x ++ plus u v) ∧ T ≠ [] ∧ u.sum + v.sum ≤ A + B) := by
  have he := e8_pos
  have hw0 : ∀ q ∈ x ++ plus u v, 0 ≤ q := by
    intro q hq
    rcases List.mem_append.1 hq with hq | hq
    · exact h0 q (by simp [hq])
    · exact plus_nonneg (fun q hq => h0 q (by simp [hq])) (fun q hq => h0 q (by simp [hq])) q hq
  have hsum : (plus u v).sum = u.sum + v.sum := by
    rw [← S_one T _ (plus_length hu hv), S_plus T u v hu hv, S_one T u hu, S_one T v hv]
  have some_ne : (∃ q ∈ T, True) ↔ T ≠ [] := by
    constructor
    · rintro ⟨q, hq, -⟩ rfl; simp at hq
    · intro h; obtain ⟨q, hq⟩ := List.exists_mem_of_ne_nil _ h; exact ⟨q, hq, trivial⟩
  have ea : (∃ q ∈ rest ++ T ++ T.map c, pa q = true) ↔ T ≠ [] := by
    rw [← some_ne]
    constructor
    · rintro ⟨q, hq, hp⟩
      rcases List.mem_append.1 hq with hq | hq
      · rcases List.mem_append.1 hq with hq | hq
        · rw [(hr q hq).2.2.1] at hp; cases hp
        · exact ⟨q, hq, trivial⟩
      · obtain ⟨t, ht', -⟩ := List.mem_map.1 hq
        exact ⟨t, ht', trivial⟩
    · rintro ⟨q, hq, -⟩
      exact ⟨q, by simp [hq], (ht q hq).2.2.1⟩
  have eb : (∃ q ∈ rest ++ T ++ T.map c, pb q = true) ↔ T ≠ [] := by
    rw [← some_ne]
    constructor
    · rintro ⟨q, hq, hp⟩
      rcases List.mem_append.1 hq with hq | hq
      · rcases List.mem_append.1 hq with hq | hq
        · rw [(hr q hq).2.2.2] at hp; cases hp
        · exact ⟨q, hq, trivial⟩
      · obtain ⟨t, ht', -⟩ := List.mem_map.1 hq
        exact ⟨t, ht', trivial⟩
    · rintro ⟨q, hq, -⟩
      exact ⟨c q, List.mem_append_right _ (List.mem_map_of_mem hq), (hc q hq).2.2.2⟩
  have ea' : (∃ q ∈ rest ++ T, pa q = true) ↔ T ≠ [] := by
    rw [← some_ne]
    constructor
    · rintro ⟨q, hq, hp⟩
      rcases List.mem_append.1 hq with hq | hq
      · rw [(hr q hq).2.2.1] at hp; cases hp
      · exact ⟨q, hq, trivial⟩
    · rintro ⟨q, hq, -⟩
      exact ⟨q, by simp [hq], (ht q hq).2.2.1⟩
  have sa : S (rest ++ T ++ T.map c) (x ++ u ++ v) (fun q => term (pa q) 1) = u.sum := by
    rw [S_app (by simp [hx, hu]), S_app hx, S_image, S_mark hx fun q hq => (hr q hq).2.2.1, S_mark hu fun q hq => (ht q hq).2.2.1, S_mark (p := fun q => pa (c q)) hv fun q hq => (hc q hq).2.2.1]
    simp [term]
  have sb : S (rest ++ T ++ T.map c) (x ++ u ++ v) (fun q => term (pb q) 1) = v.sum := by
    rw [S_app (by simp [hx, hu]), S_app hx, S_image, S_mark hx fun q hq => (hr q hq).2.2.2, S_mark hu fun q hq => (ht q hq).2.2.2, S_mark (p := fun q => pb (c q)) hv fun q hq => (hc q hq).2.2.2]
    simp [term]
  have sw : S (rest ++ T) (x ++ plus u v) (fun q => term (pa q) 1) = u.sum + v.sum := by
    rw [S_app hx, S_mark hx fun q hq => (hr q hq).2.2.1, S_mark (plus_length hu hv) fun q hq => (ht q hq).2.2.1, hsum]
    simp [term]
  have ba : ∀ q ∈ rest ++ T ++ T.map c, bada q = false := by
    intro q hq
    rcases List.mem_append.1 hq with hq | hq
    · rcases List.mem_append.1 hq with hq | hq
      · exact (hr q hq).1
      · exact (ht q hq).1
    · obtain ⟨t, ht', rfl⟩ := List.mem_map.1 hq
      exact (hc t ht').1
  have bb : ∀ q ∈ rest ++ T ++ T.map c, badb q = false := by
    intro q hq
    rcases List.mem_append.1 hq with hq | hq
    · rcases List.mem_append.1 hq with hq | hq
      · exact (hr q hq).2.1
      · exact (ht q hq).2.1
    · obtain ⟨t, ht', rfl⟩ := List.mem_map.1 hq
      exact (hc t ht').2.1
  have la := upper_line (p := pa) hA (by linarith) h0 ba
  have lb := upper_line (p := pb) hB (by linarith) h0 bb
  have lw := upper_line (p := pa) (bad := bada) (A := A + B) (by linarith) hAB hw0 fun q hq => ba q (List.mem_append_left _ hq)
  rw [ea, sa] at la
  rw [eb, sb] at lb
  rw [ea', sw] at lw
  have hold : AllHold ls (rest ++ T ++ T.map c) (x ++ u ++ v) ↔ AllHold ls (rest ++ T) (x ++ plus u v) := by
    unfold AllHold
    exact forall₂_congr fun o ho => alike_holds hx hu hv (hls o ho)
  unfold AllHold at hold ⊢
  simp only [List.forall_mem_cons]
  rw [la, lb, lw, hold]
  constructor
  · exact ⟨fun h => ⟨h.2.2, h.1.1, h.1.2, h.2.1.2⟩, fun h => ⟨⟨h.2.1, h.2.2.1⟩, ⟨h.2.1, h.2.2.2⟩, h.1⟩⟩
  · exact ⟨fun h => ⟨h.2, h.1⟩, fun h => ⟨h.2, h.1⟩⟩

private theorem split_list (w : List Rat) (h0 : ∀ q ∈ w, 0 ≤ q) {A B : Rat} (hA : 0 < A) (hB : 0 < B) (h : w.sum ≤ A + B) :
    ∃ u v : List Rat, u.length = w.length ∧ v.length = w.length ∧ plus u v = w ∧ (∀ q ∈ u, 0 ≤ q) ∧ (∀ q ∈ v, 0 ≤ q) ∧ u.sum ≤ A ∧ v.sum ≤ B := by
  have hs : 0 < A + B := by linarith
  refine ⟨w.map (A / (A + B) * ·), w.map (B / (A + B) * ·), by simp, by simp, ?_, ?_, ?_, ?_, ?_⟩
  · unfold plus
    rw [List.zipWith_map, List.zipWith_self]
    conv_rhs => rw [← List.map_id w]
    apply List.map_congr_left
    intro q _
    rw [← add_mul, ← add_div, div_self (ne_of_gt hs), one_mul]
    rfl
  · intro q hq
    obtain ⟨p, hp, rfl⟩ := List.mem_map.1 hq
    exact mul_nonneg (le_of_lt (div_pos hA hs)) (h0 p hp)
  · intro q hq
    obtain ⟨p, hp, rfl⟩ := List.mem_map.1 hq
    exact mul_nonneg (le_of_lt (div_pos hB hs)) (h0 p hp)
  · rw [List.sum_map_mul_left, List.map_id', div_mul_eq_mul_div, div_le_iff₀ hs]
    exact mul_le_mul_of_nonneg_left h (le_of_lt hA)
  · rw [List.sum_map_mul_left, List.map_id', div_mul_eq_mul_div, div_le_iff₀ hs]
    exact mul_le_mul_of_nonneg_left h (le_of_lt hB)

private theorem hold_of_mem {α : Type} {p q : List (Option (Line α))} (h : ∀ o, o ∈ p ↔ o ∈ q) (l : List α) (x : List Rat) : AllHold p l x ↔ AllHold q l x := by
  unfold AllHold
  simp only [h]

/-- The model without the two supplies. -/
private def core (d : Data) (a b : Nat) : Data := { d with nodes := d.nodes.filter fun n => n ≠ a ∧ n ≠ b }

/-! ## Routes -/

private theorem routeLines_twins {d : Data} {a b : Nat} {A B : Rat} (h : Twins d a b A B) (o : Option (Line (List Nat))) :
    o ∈ routeLines d ↔ o ∈ nodeLine d a :: nodeLine d b :: routeLines (core d a b) := by
  have hn : ∀ n, n ∈ d.nonStorages ↔ n = a ∨ n = b ∨ n ∈ (core d a b).nonStorages := by
    intro n
    rw [mem_nonStorages, mem_nonStorages]
    unfold core
    simp only [List.mem_filter, decide_eq_true_eq]
    constructor
    · rintro ⟨h1, h2⟩
      by_cases ha : n = a
      · exact .inl ha
      · by_cases hb : n = b
        · exact .inr (.inl hb)
        · exact .inr (.inr ⟨⟨h1, ha, hb⟩, h2⟩)
    · rintro (rfl | rfl | h')
      · exact ⟨h.here.1, by rw [h.kind.1]; simp⟩
      · exact ⟨h.here.2, by rw [h.kind.2]; simp⟩
      · exact ⟨h'.1.1, h'.2⟩
  unfold routeLines
  simp only [List.mem_cons, List.mem_append, List.mem_map, List.mem_flatMap, hn]
  constructor
  · rintro (((((⟨n, hn, rfl⟩ | h) | h) | h) | h) | h)
    · rcases hn with rfl | rfl | hn
      · exact .inl rfl
      · exact .inr (.inl rfl)
      · exact .inr (.inr (.inl (.inl (.inl (.inl (.inl ⟨n, hn, rfl⟩))))))
    · exact .inr (.inr (.inl (.inl (.inl (.inl (.inr h))))))
    · exact .inr (.inr (.inl (.inl (.inl (.inr h)))))
    · exact .inr (.inr (.inl (.inl (.inr h))))
    · exact .inr (.inr (.inl (.inr h)))
    · exact .inr (.inr (.inr h))
  · rintro (rfl | rfl | (((((⟨n, hn, rfl⟩ | h) | h) | h) | h) | h))
    · exact .inl (.inl (.inl (.inl (.inl ⟨a, .inl rfl, rfl⟩))))
    · exact .inl (.inl (.inl (.inl (.inl ⟨b, .inr (.inl rfl), rfl⟩))))
    · exact .inl (.inl (.inl (.inl (.inl ⟨n, .inr (.inr hn), rfl⟩))))
    · exact .inl (.inl (.inl (.inl (.inr h))))
    · exact .inl (.inl (.inl (.inr h)))
    · exact .inl (.inl (.inr h))
    · exact .inl (.inr h)
    · exact .inr h

private theorem routeLines_joined {d : Data} {a b : Nat} {A B : Rat} (h : Twins d a b A B) (o : Option (Line (List Nat))) :
    o ∈ routeLines (joined d a b A B) ↔ o ∈ nodeLine (joined d a b A B) a :: routeLines (core d a b) := by
  have hn : ∀ n, n ∈ (joined d a b A B).nonStorages ↔ n = a ∨ n ∈ (core d a b).nonStorages := by
    intro n
    rw [mem_nonStorages, mem_nonStorages]
    unfold core joined
    simp only [List.mem_filter, decide_eq_true_eq]
    constructor
    · rintro ⟨h1, h2⟩
      by_cases ha : n = a
      · exact .inl ha
      · exact .inr ⟨⟨h1.1, ha, h1.2⟩, h2⟩
    · rintro (rfl | h')
      · exact ⟨⟨h.here.1, h.differ⟩, by rw [h.kind.1]; simp⟩
      · exact ⟨⟨h'.1.1, h'.1.2.2⟩, h'.2⟩
  have line : ∀ n ∈ (core d a b).nonStorages, nodeLine (joined d a b A B) n = nodeLine (core d a b) n := by
    intro n hn
    have := (List.mem_filter.1 (mem_nonStorages.1 hn).1).2
    simp only [decide_eq_true_eq] at this
    unfold nodeLine joined core
    simp only [if_neg this.1]
  unfold routeLines
  simp only [List.mem_cons, List.mem_append, List.mem_map, List.mem_flatMap, hn]
  constructor
  · rintro (((((⟨n, hn, rfl⟩ | h) | h) | h) | h) | h)
    · rcases hn with rfl | hn
      · exact .inl rfl
      · exact .inr (.inl (.inl (.inl (.inl (.inl ⟨n, hn, (line n hn).symm⟩)))))
    · exact .inr (.inl (.inl (.inl (.inl (.inr h)))))
    · exact .inr (.inl (.inl (.inl (.inr h))))
    · exact .inr (.inl (.inl (.inr h)))
    · exact .inr (.inl (.inr h))
    · exact .inr (.inr h)
  · rintro (rfl | (((((⟨n, hn, rfl⟩ | h) | h) | h) | h) | h))
    · exact .inl (.inl (.inl (.inl (.inl ⟨a, .inl rfl, rfl⟩))))
    · exact .inl (.inl (.inl (.inl (.inl ⟨n, .inr hn, line n hn⟩))))
    · exact .inl (.inl (.inl (.inl (.inr h))))
    · exact .inl (.inl (.inl (.inr h)))
    · exact .inl (.inl (.inr h))
    · exact .inl (.inr h)
    · exact .inr h

/-- Another first node. -/
private def lead (b : Nat) (r : List Nat) : List Nat := b :: r.tail

private theorem lead_contains {a b n : Nat} (ha : n ≠ a) (hb : n ≠ b) (t : List Nat) : (lead b (a :: t)).contains n = (a :: t).contains n := by
  unfold lead
  simp [ha, hb]

private theorem lead_passes {k : Kind} {a b n : Nat} (ha : n ≠ a) (hb : n ≠ b) {t : List Nat} (ht : t ≠ []) : passes k n (lead b (a :: t)) = passes k n (a :: t) := by
  have ha' : a ≠ n := ha.symm
  have hb' : b ≠ n := hb.symm
  unfold passes
  cases k with
  | input => simp [lead, ha', hb']
  | output => simp [lead, List.getLast?_cons, List.getLast?_eq_some_getLast ht]
  | link => exact lead_contains ha hb t
  | other => exact lead_contains ha hb t

private theorem alike_limit {α : Type} {c : α → α} {T : List α} {bad : α → Bool} {m : α → Nat} {w : α → Rat} {mn mx : F} (h : ∀ t ∈ T, bad (c t) = bad t ∧ m (c t) = m t ∧ w (c t) = w t) :
    Alike c T (limitLine bad m w mn mx) := by
  intro L hL
  unfold limitLine at hL
  cases hf : flowRow true mn mx with
  | stored r => rw [hf] at hL; simp only [Option.some.injEq] at hL; subst hL; exact h
  | glpkError => rw [hf] at hL; cases hL
  | storedNan => rw [hf] at hL; cases hL

private theorem alike_some {α : Type} {c : α → α} {T : List α} {L : Line α} (h : ∀ t ∈ T, L.bad (c t) = L.bad t ∧ L.mult (c t) = L.mult t ∧ L.coef (c t) = L.coef t) : Alike c T (some L) := by
  rintro L' ⟨rfl⟩
  exact h

private theorem routeFactors_lead {v : VirtualData} {a b : Nat} (ha : a ∉ v.nodes) (hb : b ∉ v.nodes) (t : List Nat) : routeFactors v (lead b (a :: t)) = routeFactors v (a :: t) := by
  have h : ∀ n, n ∉ v.nodes → v.nodes.idxOf? n = none := fun n hn => by rw [List.idxOf?_eq_none_iff]; exact hn
  unfold routeFactors lead
  rw [List.tail_cons, List.filterMap_cons_none (by rw [h b hb]; rfl), List.filterMap_cons_none (by rw [h a ha]; rfl)]

private theorem lastWeight_congr {g : AggData} {p q : Nat → Bool} (h : ∀ n ∈ g.nodes, p n = q n) : lastWeight g p = lastWeight g q := by
  unfold lastWeight
  congr 2
  apply List.filter_congr
  intro z hz
  exact h z.1 (List.of_mem_zip hz).1

private theorem core_alike {d : Data} {a b : Nat} {A B : Rat} (h : Twins d a b A B) {T : List (List Nat)} (hT : ∀ t ∈ T, t ≠ [] ∧ a ∉ t ∧ b ∉ t) :
    ∀ o ∈ routeLines (core d a b), Alike (lead b) (T.map (a :: ·)) o := by
  obtain ⟨pa, pb⟩ := h.apart
  intro o ho
  unfold routeLines at ho
  simp only [List.mem_append, List.mem_map, List.mem_flatMap] at ho
  rcases ho with ((((⟨n, hn, rfl⟩ | ⟨c, hc, rfl⟩) | ⟨s, hs, rfl⟩) | ⟨v, hv, rfl⟩) | ⟨g, hg, ho⟩) | ⟨g, hg, rfl⟩
  · have := (List.mem_filter.1 (mem_nonStorages.1 hn).1).2
    simp only [decide_eq_true_eq] at this
    refine alike_limit fun r hr => ?_
    obtain ⟨t, ht, rfl⟩ := List.mem_map.1 hr
    rw [lead_passes this.1 this.2 (hT t ht).1]
    exact ⟨rfl, rfl, rfl⟩
  · obtain ⟨c1, c2⟩ := pa.cross c hc
    obtain ⟨c3, c4⟩ := pb.cross c hc
    unfold crossLine
    split
    · intro L hL; cases hL
    · refine alike_some fun r hr => ?_
      obtain ⟨t, ht, rfl⟩ := List.mem_map.1 hr
      have hh : ∀ i ∈ c.2, ((lead b (a :: t)).head? == some i.1) = ((a :: t).head? == some i.1) := by
        intro i hi
        have h1 := (c2 i hi).symm
        have h2 := (c4 i hi).symm
        simp [lead, h1, h2]
      refine ⟨rfl, ?_, ?_⟩
      · show one (passes _ _ _) + _ = one (passes _ _ _) + _
        rw [lead_passes c1 c3 (hT t ht).1, List.map_congr_left fun i hi => by rw [hh i hi]]
      · show term (passes _ _ _) _ + _ = term (passes _ _ _) _ + _
        rw [lead_passes c1 c3 (hT t ht).1, List.map_congr_left fun i hi => by rw [hh i hi]]
  · obtain ⟨s1, s2⟩ := pa.storages s hs
    obtain ⟨s3, s4⟩ := pb.storages s hs
    refine alike_some fun r hr => ?_
    obtain ⟨t, ht, rfl⟩ := List.mem_map.1 hr
    have e1 : (lead b (a :: t)).getLast? = (a :: t).getLast? := by
      simp [lead, List.getLast?_cons, List.getLast?_eq_some_getLast (hT t ht).1]
    have e2 : inList (lead b (a :: t)).head? s.inputs = false := by simp [lead, inList, s3]
    have e3 : inList (a :: t).head? s.inputs = false := by simp [inList, s1]
    refine ⟨rfl, ?_, ?_⟩
    · simp only [storageLine, e1, e2, e3]
    · simp only [storageLine, e1, e2, e3]
  · have v1 := pa.virtuals v hv
    have v2 := pb.virtuals v hv
    refine alike_some fun r hr => ?_
    obtain ⟨t, ht, rfl⟩ := List.mem_map.1 hr
    refine ⟨rfl, ?_, ?_⟩
    · simp only [virtualLine, routeFactors_lead v1 v2]
    · simp only [virtualLine, routeFactors_lead v1 v2]
  · have g1 := pa.aggs g hg
    have g2 := pb.aggs g hg
    unfold factorLines at ho
    split at ho
    · cases ho
    · split at ho
      · rw [List.mem_singleton.1 ho]; intro L hL; cases hL
      · rename_i n0 others hn
        split at ho
        · rw [List.mem_singleton.1 ho]; intro L hL; cases hL
        · split at ho
          · rw [List.mem_singleton.1 ho]; intro L hL; cases hL
          · obtain ⟨p, hp, rfl⟩ := List.mem_map.1 ho
            rw [hn] at g1 g2
            have hp := (List.of_mem_zip hp).1
            refine alike_some fun r hr => ?_
            obtain ⟨t, ht, rfl⟩ := List.mem_map.1 hr
            have e0 := lead_contains (a := a) (b := b) (n := n0) (by rintro rfl; simp at g1) (by rintro rfl; simp at g2) t
            have e1 := lead_contains (a := a) (b := b) (n := p.1) (fun e => g1 (e ▸ List.mem_cons_of_mem _ hp)) (fun e => g2 (e ▸ List.mem_cons_of_mem _ hp)) t
            exact ⟨rfl, by simp only [e0, e1], by simp only [e0, e1]⟩
  · have g1 := pa.aggs g hg
    have g2 := pb.aggs g hg
    refine alike_limit fun r hr => ?_
    obtain ⟨t, ht, rfl⟩ := List.mem_map.1 hr
    have := lastWeight_congr (g := g) (p := fun n => (lead b (a :: t)).contains n) (q := fun n => (a :: t).contains n) fun n hn =>
      lead_contains (by rintro rfl; exact g1 hn) (by rintro rfl; exact g2 hn) t
    rw [this]
    exact ⟨rfl, rfl, rfl⟩

private theorem route_twins {d : Data} {a b : Nat} {A B : Rat} (h : Twins d a b A B) {rest T : List (List Nat)} (hrest : ∀ r ∈ rest, a ∉ r ∧ b ∉ r) (hT : ∀ t ∈ T, t ≠ [] ∧ a ∉ t ∧ b ∉ t)
    {x u v : List Rat} (hx : x.length = rest.length) (hu : u.length = T.length) (hv : v.length = T.length) (h0 : ∀ q ∈ x ++ u ++ v, 0 ≤ q) :
    (RouteFeasible d (rest ++ T.map (a :: ·) ++ T.map (b :: ·)) (x ++ u ++ v) ↔ AllHold (routeLines (core d a b)) (rest ++ T.map (a :: ·)) (x ++ plus u v) ∧ T ≠ [] ∧ u.sum ≤ A ∧ v.sum ≤ B) ∧
    (RouteFeasible (joined d a b A B) (rest ++ T.map (a :: ·)) (x ++ plus u v) ↔
      AllHold (routeLines (core d a b)) (rest ++ T.map (a :: ·)) (x ++ plus u v) ∧ T ≠ [] ∧ u.sum + v.sum ≤ A + B) := by
  have hab := h.differ
  have hba := h.differ.symm
  have hcopy : T.map (b :: ·) = (T.map (a :: ·)).map (lead b) := by
    rw [List.map_map]; rfl
  have hne : T.map (a :: ·) ≠ [] ↔ T ≠ [] := by simp
  have key := twin_lines (core_alike h hT) (bada := fun _ => false) (badb := fun _ => false) (pa := passes (d.kind a) a) (pb := passes (d.kind b) b) h.size.1 h.size.2.1 h.size.2.2
    (rest := rest) (T := T.map (a :: ·)) (c := lead b)
    (fun r hr => ⟨rfl, rfl, passes_false (hrest r hr).1, passes_false (hrest r hr).2⟩)
    (fun r hr => by
      obtain ⟨t, ht, rfl⟩ := List.mem_map.1 hr
      rw [h.kind.1, h.kind.2]
      refine ⟨rfl, rfl, ?_, ?_⟩
      · simp [passes]
      · simp [passes, hab])
    (fun r hr => by
      obtain ⟨t, ht, rfl⟩ := List.mem_map.1 hr
      rw [h.kind.1, h.kind.2]
      refine ⟨rfl, rfl, ?_, ?_⟩
      · simp [passes, lead, hba]
      · simp [passes, lead]) hx (by simpa using hu) (by simpa using hv) h0
  have la : nodeLine d a = limitLine (fun _ => false) (fun r => one (passes (d.kind a) a r)) (fun r => term (passes (d.kind a) a r) 1) (.fin 0) (.fin A) := by
    unfold nodeLine; rw [h.lower.1, h.upper.1]
  have lb : nodeLine d b = limitLine (fun _ => false) (fun r => one (passes (d.kind b) b r)) (fun r => term (passes (d.kind b) b r) 1) (.fin 0) (.fin B) := by
    unfold nodeLine; rw [h.lower.2, h.upper.2]
  have lw : nodeLine (joined d a b A B) a = limitLine (fun _ => false) (fun r => one (passes (d.kind a) a r)) (fun r => term (passes (d.kind a) a r) 1) (.fin 0) (.fin (A + B)) := by
    unfold nodeLine joined; simp only [if_true]; rw [h.lower.1]
  rw [← la, ← lb, ← lw, hne, ← hcopy] at key
  rw [routeFeasible_iff, routeFeasible_iff, hold_of_mem (routeLines_twins h), hold_of_mem (routeLines_joined h), key.1, key.2]
  have w0 : ∀ q ∈ x ++ plus u v, 0 ≤ q := by
    intro q hq
    rcases List.mem_append.1 hq with hq | hq
    · exact h0 q (by simp [hq])
    · exact plus_nonneg (fun q hq => h0 q (by simp [hq])) (fun q hq => h0 q (by simp [hq])) q hq
  have n1 : d.nodes ≠ [] := List.ne_nil_of_mem h.here.1
  have n2 : d.nonStorages ≠ [] := List.ne_nil_of_mem (mem_nonStorages.2 ⟨h.here.1, by rw [h.kind.1]; simp⟩)
  have m1 : a ∈ (joined d a b A B).nodes := List.mem_filter.2 ⟨h.here.1, by simpa using hab⟩
  have m2 : (joined d a b A B).nonStorages ≠ [] := List.ne_nil_of_mem (mem_nonStorages.2 ⟨m1, by show d.kind a ≠ .other; rw [h.kind.1]; simp⟩)
  constructor
  · constructor
    · rintro ⟨-, -, -, h'⟩; exact h'
    · intro h'
      refine ⟨⟨n1, ?_, n2⟩, by simp [hx, hu, hv], h0, h'⟩
      have := h'.2.1
      simp [this]
  · constructor
    · rintro ⟨-, -, -, h'⟩; exact h'
    · intro h'
      refine ⟨⟨List.ne_nil_of_mem m1, ?_, m2⟩, by simp [hx, plus_length hu hv], w0, h'⟩
      have := h'.2.1
      simp [this]

private theorem nodeCoef_off {d : Data} {r : List Nat} {n : Nat} (h : n ∉ r) : nodeCoef d r n = 0 := by
  unfold nodeCoef
  refine sum_map_zero fun p hp => ?_
  have := List.mem_zipIdx' hp
  rw [if_neg]
  rintro ⟨rfl, -⟩
  exact h (by rw [this.2]; exact List.getElem_mem _)

private theorem nodeCoef_head {d : Data} {t : List Nat} {n : Nat} (h : n ∉ t) : nodeCoef d (n :: t) n = 1 := by
  unfold nodeCoef
  rw [List.zipIdx_cons, List.map_cons, List.sum_cons, if_pos ⟨rfl, .inl rfl⟩, sum_map_zero, add_zero]
  intro p hp
  have := List.mem_zipIdx hp
  rw [if_neg]
  rintro ⟨hn, -⟩
  exact h (by rw [← hn, this.2.2]; exact List.getElem_mem _)

private theorem nodeCoef_lead {d : Data} {a b : Nat} {t : List Nat} {n : Nat} (ha : a ≠ n) (hb : b ≠ n) : nodeCoef d (b :: t) n = nodeCoef d (a :: t) n := by
  unfold nodeCoef
  rw [List.zipIdx_cons, List.map_cons, List.sum_cons, List.zipIdx_cons, List.map_cons, List.sum_cons, if_neg (by simp [hb]), if_neg (by simp [ha])]
  rfl

/-- **C124 (two supplies joined, route solver).** What two supplies of the same cost to the same places deliver together, one supply with both limits together can deliver: at the same cost, with the same flows of all
other nodes, its own flow being the sum of theirs. -/
theorem C124_joined (d : Data) (a b : Nat) (A B : Rat) (h : Twins d a b A B) (rest T : List (List Nat)) (hrest : ∀ r ∈ rest, a ∉ r ∧ b ∉ r) (hT : ∀ t ∈ T, t ≠ [] ∧ a ∉ t ∧ b ∉ t)
    (x u v : List Rat) (hx : x.length = rest.length) (hu : u.length = T.length) (hv : v.length = T.length) :
    (RouteFeasible d (rest ++ T.map (a :: ·) ++ T.map (b :: ·)) (x ++ u ++ v) → RouteFeasible (joined d a b A B) (rest ++ T.map (a :: ·)) (x ++ plus u v)) ∧
    routeObjective (joined d a b A B) (rest ++ T.map (a :: ·)) (x ++ plus u v) = routeObjective d (rest ++ T.map (a :: ·) ++ T.map (b :: ·)) (x ++ u ++ v) ∧
    routeNodeFlow (joined d a b A B) (rest ++ T.map (a :: ·)) (x ++ plus u v) a =
      routeNodeFlow d (rest ++ T.map (a :: ·) ++ T.map (b :: ·)) (x ++ u ++ v) a + routeNodeFlow d (rest ++ T.map (a :: ·) ++ T.map (b :: ·)) (x ++ u ++ v) b ∧
    ∀ n, n ≠ a → n ≠ b →
      routeNodeFlow (joined d a b A B) (rest ++ T.map (a :: ·)) (x ++ plus u v) n = routeNodeFlow d (rest ++ T.map (a :: ·) ++ T.map (b :: ·)) (x ++ u ++ v) n := by
  have hcopy : T.map (b :: ·) = (T.map (a :: ·)).map (lead b) := by
    rw [List.map_map]; rfl
  have fold : ∀ f : List Nat → Rat, (∀ t ∈ T, f (b :: t) = f (a :: t)) → S (rest ++ T.map (a :: ·)) (x ++ plus u v) f = S (rest ++ T.map (a :: ·) ++ T.map (b :: ·)) (x ++ u ++ v) f := by
    intro f hf
    rw [hcopy]
    refine (S_fold hx (by simpa using hu) (by simpa using hv) fun r hr => ?_).symm
    obtain ⟨t, ht, rfl⟩ := List.mem_map.1 hr
    exact hf t ht
  refine ⟨fun hf => ?_, ?_, ?_, fun n ha hb => ?_⟩
  · obtain ⟨k1, k2⟩ := route_twins h hrest hT hx hu hv (by rw [routeFeasible_iff] at hf; exact hf.2.2.1)
    obtain ⟨h1, h2, h3, h4⟩ := k1.1 hf
    exact k2.2 ⟨h1, h2, add_le_add h3 h4⟩
  · rw [routeObjective_S, routeObjective_S]
    refine fold _ fun t ht => ?_
    show roundCost (routeCost d (b :: t)) = roundCost (routeCost d (a :: t))
    congr 1
    unfold routeCost
    simp [h.cost, List.getLast?_cons, List.getLast?_eq_some_getLast (hT t ht).1]
  · rw [routeNodeFlow_eq_S, routeNodeFlow_eq_S, routeNodeFlow_eq_S]
    rw [show (fun r => nodeCoef (joined d a b A B) r a) = fun r => nodeCoef d r a from rfl]
    have hab := h.differ
    have hba := h.differ.symm
    have ra : ∀ y, S rest y (fun r => nodeCoef d r a) = 0 := fun y => by rw [S_congr (g := fun _ => 0) fun r hr => nodeCoef_off (hrest r hr).1, S_zero]
    have rb : ∀ y, S rest y (fun r => nodeCoef d r b) = 0 := fun y => by rw [S_congr (g := fun _ => 0) fun r hr => nodeCoef_off (hrest r hr).2, S_zero]
    have one' : ∀ (n : Nat) (y : List Rat), y.length = T.length → (∀ t ∈ T, n ∉ t) → S (T.map (n :: ·)) y (fun r => nodeCoef d r n) = y.sum := by
      intro n y hy hn
      rw [S_image, S_congr (g := fun _ => 1) fun t ht => nodeCoef_head (hn t ht), S_one T y hy]
    have zero' : ∀ (m n : Nat) (y : List Rat), n ≠ m → (∀ t ∈ T, n ∉ t) → S (T.map (m :: ·)) y (fun r => nodeCoef d r n) = 0 := by
      intro m n y hm hn
      rw [S_image, S_congr (g := fun _ => 0) fun t ht => nodeCoef_off (by simp [hm, hn t ht]), S_zero]
    have ta : ∀ t ∈ T, a ∉ t := fun t ht => (hT t ht).2.1
    have tb : ∀ t ∈ T, b ∉ t := fun t ht => (hT t ht).2.2
    rw [S_app hx, S_app (by simp [hx, hu]), S_app hx, S_app (by simp [hx, hu]), S_app hx, ra, rb, one' a _ (plus_length hu hv) ta, one' a u hu ta, zero' b a v hab ta, zero' a b u hba tb, one' b v hv tb]
    have : (plus u v).sum = u.sum + v.sum := by
      rw [← S_one T _ (plus_length hu hv), S_plus T u v hu hv, S_one T u hu, S_one T v hv]
    rw [this]
    ring
  · rw [routeNodeFlow_eq_S, routeNodeFlow_eq_S]
    exact fold _ fun t _ => nodeCoef_lead (d := d) ha.symm hb.symm

/-- **C124 (a supply in two halves, route solver).** What the one supply delivers, the two can deliver. -/
theorem C124_split (d : Data) (a b : Nat) (A B : Rat) (h : Twins d a b A B) (rest T : List (List Nat)) (hrest : ∀ r ∈ rest, a ∉ r ∧ b ∉ r) (hT : ∀ t ∈ T, t ≠ [] ∧ a ∉ t ∧ b ∉ t)
    (x w : List Rat) (hx : x.length = rest.length) (hw : w.length = T.length) (hf : RouteFeasible (joined d a b A B) (rest ++ T.map (a :: ·)) (x ++ w)) :
    ∃ u v, u.length = T.length ∧ v.length = T.length ∧ plus u v = w ∧ RouteFeasible d (rest ++ T.map (a :: ·) ++ T.map (b :: ·)) (x ++ u ++ v) := by
  have he := e8_pos
  have hp := hf
  rw [routeFeasible_iff] at hp
  have h0 := hp.2.2.1
  have hA : 0 < A := lt_of_lt_of_le he h.size.1
  have hB : 0 < B := lt_of_lt_of_le he h.size.2.1
  have hw0 : ∀ q ∈ w, 0 ≤ q := fun q hq => h0 q (by simp [hq])
  have hsum : w.sum ≤ A + B := by
    have z0 : ∀ q ∈ w.map (fun _ => (0 : Rat)), 0 ≤ q := by
      intro q hq
      obtain ⟨p, -, rfl⟩ := List.mem_map.1 hq
      exact le_refl _
    have hz : plus w (w.map fun _ => 0) = w := by
      unfold plus
      conv_lhs => rw [← List.map_id w]
      rw [List.map_map, List.zipWith_map, List.zipWith_self]
      conv_rhs => rw [← List.map_id w]
      exact List.map_congr_left fun q _ => by simp
    have := (route_twins h hrest hT hx hw (v := w.map fun _ => 0) (by simpa using hw) (by
      intro q hq
      rcases List.mem_append.1 hq with hq | hq
      · exact h0 q hq
      · exact z0 q hq)).2.1 (by rw [hz]; exact hf)
    have hs0 : (w.map fun _ => (0 : Rat)).sum = 0 := sum_map_zero fun _ _ => rfl
    have h3 := this.2.2
    rw [hs0, add_zero] at h3
    exact h3
  obtain ⟨u, v, hu, hv, hp', u0, v0, hsu, hsv⟩ := split_list w hw0 hA hB hsum
  refine ⟨u, v, hu.trans hw, hv.trans hw, hp', ?_⟩
  have key := route_twins h hrest hT hx (hu.trans hw) (hv.trans hw) (by
    intro q hq
    rcases List.mem_append.1 hq with hq | hq
    · rcases List.mem_append.1 hq with hq | hq
      · exact h0 q (by simp [hq])
      · exact u0 q hq
    · exact v0 q hq)
  rw [hp'] at key
  obtain ⟨h1, h2, -⟩ := key.2.1 hf
  exact key.1.2 ⟨h1, h2, hsu, hsv⟩

private theorem cut (z : List Rat) {i j : Nat} (h : z.length = i + j) : ∃ x w, z = x ++ w ∧ x.length = i ∧ w.length = j :=
  ⟨z.take i, z.drop i, (List.take_append_drop i z).symm, by simp; omega, by simp; omega⟩

/-- **C124 (least cost).** Two supplies and the one that joins them have the same least cost. -/
theorem C124_optimum (d : Data) (a b : Nat) (A B : Rat) (h : Twins d a b A B) (rest T : List (List Nat)) (hrest : ∀ r ∈ rest, a ∉ r ∧ b ∉ r) (hT : ∀ t ∈ T, t ≠ [] ∧ a ∉ t ∧ b ∉ t)
    (z z' : List Rat) (hz : Optimal d (rest ++ T.map (a :: ·) ++ T.map (b :: ·)) z) (hz' : Optimal (joined d a b A B) (rest ++ T.map (a :: ·)) z') :
    routeObjective (joined d a b A B) (rest ++ T.map (a :: ·)) z' = routeObjective d (rest ++ T.map (a :: ·) ++ T.map (b :: ·)) z := by
  have l1 : z.length = rest.length + T.length + T.length := by
    have := hz.1; rw [routeFeasible_iff] at this; have := this.2.1; simp at this; omega
  have l2 : z'.length = rest.length + T.length := by
    have := hz'.1; rw [routeFeasible_iff] at this; simpa using this.2.1
  obtain ⟨y, v, rfl, hy, hv⟩ := cut z l1
  obtain ⟨x, u, rfl, hx, hu⟩ := cut y hy
  obtain ⟨x', w, rfl, hx', hw⟩ := cut z' l2
  obtain ⟨j1, j2, -⟩ := C124_joined d a b A B h rest T hrest hT x u v hx hu hv
  obtain ⟨u', v', hu', hv', hp, hf⟩ := C124_split d a b A B h rest T hrest hT x' w hx' hw hz'.1
  obtain ⟨-, k2, -⟩ := C124_joined d a b A B h rest T hrest hT x' u' v' hx' hu' hv'
  rw [hp] at k2
  exact le_antisymm (j2 ▸ hz'.2 _ (j1 hz.1)) (k2 ▸ hz.2 _ hf)

/-! ## Edges -/

private theorem edgeLines_twins {d : Data} {a b : Nat} {A B : Rat} (h : Twins d a b A B) (g : Graph) (o : Option (Line (Nat × Nat))) :
    o ∈ edgeLines d g ↔ o ∈ nodeLineE d g a :: nodeLineE d g b :: edgeLines (core d a b) g := by
  have hn : ∀ n, n ∈ d.nonStorages ↔ n = a ∨ n = b ∨ n ∈ (core d a b).nonStorages := by
    intro n
    rw [mem_nonStorages, mem_nonStorages]
    unfold core
    simp only [List.mem_filter, decide_eq_true_eq]
    constructor
    · rintro ⟨h1, h2⟩
      by_cases ha : n = a
      · exact .inl ha
      · by_cases hb : n = b
        · exact .inr (.inl hb)
        · exact .inr (.inr ⟨⟨h1, ha, hb⟩, h2⟩)
    · rintro (rfl | rfl | h')
      · exact ⟨h.here.1, by rw [h.kind.1]; simp⟩
      · exact ⟨h.here.2, by rw [h.kind.2]; simp⟩
      · exact ⟨h'.1.1, h'.2⟩
  have hl : (d.nodes.filter fun n => d.kind n == .link) = ((core d a b).nodes.filter fun n => (core d a b).kind n == .link) := by
    unfold core
    rw [List.filter_filter]
    apply List.filter_congr
    intro n _
    by_cases ha : n = a
    · subst ha; simp [h.kind.1]
    · by_cases hb : n = b
      · subst hb; simp [h.kind.2]
      · simp [ha, hb]
  unfold edgeLines
  rw [hl]
  simp only [List.mem_cons, List.mem_append, List.mem_map, List.mem_flatMap, hn]
  constructor
  · rintro ((((((⟨n, hn, rfl⟩ | h) | h) | h) | h) | h) | h)
    · rcases hn with rfl | rfl | hn
      · exact .inl rfl
      · exact .inr (.inl rfl)
      · exact .inr (.inr (.inl (.inl (.inl (.inl (.inl (.inl ⟨n, hn, rfl⟩)))))))
    · exact .inr (.inr (.inl (.inl (.inl (.inl (.inl (.inr h)))))))
    · exact .inr (.inr (.inl (.inl (.inl (.inl (.inr h))))))
    · exact .inr (.inr (.inl (.inl (.inl (.inr h)))))
    · exact .inr (.inr (.inl (.inl (.inr h))))
    · exact .inr (.inr (.inl (.inr h)))
    · exact .inr (.inr (.inr h))
  · rintro (rfl | rfl | ((((((⟨n, hn, rfl⟩ | h) | h) | h) | h) | h) | h))
    · exact .inl (.inl (.inl (.inl (.inl (.inl ⟨a, .inl rfl, rfl⟩)))))
    · exact .inl (.inl (.inl (.inl (.inl (.inl ⟨b, .inr (.inl rfl), rfl⟩)))))
    · exact .inl (.inl (.inl (.inl (.inl (.inl ⟨n, .inr (.inr hn), rfl⟩)))))
    · exact .inl (.inl (.inl (.inl (.inl (.inr h)))))
    · exact .inl (.inl (.inl (.inl (.inr h))))
    · exact .inl (.inl (.inl (.inr h)))
    · exact .inl (.inl (.inr h))
    · exact .inl (.inr h)
    · exact .inr h

private theorem edgeLines_joined {d : Data} {a b : Nat} {A B : Rat} (h : Twins d a b A B) (g : Graph) (o : Option (Line (Nat × Nat))) :
    o ∈ edgeLines (joined d a b A B) g ↔ o ∈ nodeLineE (joined d a b A B) g a :: edgeLines (core d a b) g := by
  have hn : ∀ n, n ∈ (joined d a b A B).nonStorages ↔ n = a ∨ n ∈ (core d a b).nonStorages := by
    intro n
    rw [mem_nonStorages, mem_nonStorages]
    unfold core joined
    simp only [List.mem_filter, decide_eq_true_eq]
    constructor
    · rintro ⟨h1, h2⟩
      by_cases ha : n = a
      · exact .inl ha
      · exact .inr ⟨⟨h1.1, ha, h1.2⟩, h2⟩
    · rintro (rfl | h')
      · exact ⟨⟨h.here.1, h.differ⟩, by rw [h.kind.1]; simp⟩
      · exact ⟨⟨h'.1.1, h'.1.2.2⟩, h'.2⟩
  have line : ∀ n ∈ (core d a b).nonStorages, nodeLineE (joined d a b A B) g n = nodeLineE (core d a b) g n := by
    intro n hn
    have := (List.mem_filter.1 (mem_nonStorages.1 hn).1).2
    simp only [decide_eq_true_eq] at this
    unfold nodeLineE joined core
    simp only [if_neg this.1]
    rfl
  have hl : ((joined d a b A B).nodes.filter fun n => (joined d a b A B).kind n == .link) = ((core d a b).nodes.filter fun n => (core d a b).kind n == .link) := by
    unfold core joined
    rw [List.filter_filter, List.filter_filter]
    apply List.filter_congr
    intro n _
    by_cases ha : n = a
    · subst ha; simp [h.kind.1]
    · by_cases hb : n = b
      · subst hb; simp
      · simp [ha, hb]
  unfold edgeLines
  rw [hl]
  simp only [List.mem_cons, List.mem_append, List.mem_map, List.mem_flatMap, hn]
  constructor
  · rintro ((((((⟨n, hn, rfl⟩ | h) | h) | h) | h) | h) | h)
    · rcases hn with rfl | hn
      · exact .inl rfl
      · exact .inr (.inl (.inl (.inl (.inl (.inl (.inl ⟨n, hn, (line n hn).symm⟩))))))
    · exact .inr (.inl (.inl (.inl (.inl (.inl (.inr h))))))
    · exact .inr (.inl (.inl (.inl (.inl (.inr h)))))
    · exact .inr (.inl (.inl (.inl (.inr h))))
    · exact .inr (.inl (.inl (.inr h)))
    · exact .inr (.inl (.inr h))
    · exact .inr (.inr h)
  · rintro (rfl | ((((((⟨n, hn, rfl⟩ | h) | h) | h) | h) | h) | h))
    · exact .inl (.inl (.inl (.inl (.inl (.inl ⟨a, .inl rfl, rfl⟩)))))
    · exact .inl (.inl (.inl (.inl (.inl (.inl ⟨n, .inr hn, line n hn⟩)))))
    · exact .inl (.inl (.inl (.inl (.inl (.inr h)))))
    · exact .inl (.inl (.inl (.inl (.inr h))))
    · exact .inl (.inl (.inl (.inr h)))
    · exact .inl (.inl (.inr h))
    · exact .inl (.inr h)
    · exact .inr h

/-- Another beginning. -/
private def from' (b : Nat) (e : Nat × Nat) : Nat × Nat := (b, e.2)

private theorem from_enters {g : Graph} {a b n t : Nat} (hd : g.domain a = g.domain b) : enters g n (from' b (a, t)) = enters g n (a, t) := by
  unfold enters from'
  simp [hd]

private theorem from_leaves {g : Graph} {a b n t : Nat} (ha : n ≠ a) (hb : n ≠ b) : leaves g n (from' b (a, t)) = leaves g n (a, t) := by
  rw [leaves_false (by simpa [from'] using hb.symm), leaves_false (by simpa using ha.symm)]

private theorem from_meets {d : Data} {g : Graph} {a b n t : Nat} (hd : g.domain a = g.domain b) (ha : n ≠ a) (hb : n ≠ b) : meets d g n (from' b (a, t)) = meets d g n (a, t) := by
  unfold meets
  rw [from_enters hd, from_leaves ha hb]

private theorem core_alikeE {d : Data} {a b : Nat} {A B : Rat} (h : Twins d a b A B) {g : Graph} (hd : g.domain a = g.domain b) (T : List Nat) :
    ∀ o ∈ edgeLines (core d a b) g, Alike (from' b) (T.map (a, ·)) o := by
  obtain ⟨pa, pb⟩ := h.apart
  intro o ho
  unfold edgeLines at ho
  simp only [List.mem_append, List.mem_map, List.mem_flatMap] at ho
  rcases ho with (((((⟨n, hn, rfl⟩ | ⟨c, hc, rfl⟩) | ⟨n, hn, rfl⟩) | ⟨s, hs, rfl⟩) | ⟨v, hv, rfl⟩) | ⟨k, hk, ho⟩) | ⟨k, hk, rfl⟩
  · have := (List.mem_filter.1 (mem_nonStorages.1 hn).1).2
    simp only [decide_eq_true_eq] at this
    refine alike_limit fun r hr => ?_
    obtain ⟨t, ht, rfl⟩ := List.mem_map.1 hr
    rw [from_meets hd this.1 this.2, from_enters hd, from_leaves this.1 this.2]
    exact ⟨rfl, rfl, rfl⟩
  · obtain ⟨c1, c2⟩ := pa.cross c hc
    obtain ⟨c3, c4⟩ := pb.cross c hc
    unfold crossLineE
    split
    · intro L hL; cases hL
    · refine alike_some fun r hr => ?_
      obtain ⟨t, ht, rfl⟩ := List.mem_map.1 hr
      refine ⟨rfl, ?_, ?_⟩
      · show one (meets _ _ _ _) + _ = one (meets _ _ _ _) + _
        rw [from_meets hd c1 c3, List.map_congr_left fun i hi => by rw [from_leaves (c2 i hi) (c4 i hi)]]
      · show term (meets _ _ _ _) _ + _ = term (meets _ _ _ _) _ + _
        rw [from_meets hd c1 c3, List.map_congr_left fun i hi => by rw [from_leaves (c2 i hi) (c4 i hi)]]
  · have := (List.mem_filter.1 (List.mem_filter.1 hn).1).2
    simp only [decide_eq_true_eq] at this
    refine alike_some fun r hr => ?_
    obtain ⟨t, ht, rfl⟩ := List.mem_map.1 hr
    unfold balanceLine
    dsimp only
    rw [from_enters hd, from_leaves this.1 this.2]
    exact ⟨rfl, rfl, rfl⟩
  · obtain ⟨s1, s2⟩ := pa.storages s hs
    obtain ⟨s3, s4⟩ := pb.storages s hs
    refine alike_some fun r hr => ?_
    obtain ⟨t, ht, rfl⟩ := List.mem_map.1 hr
    have hL : ∀ n ∈ s.inputs, leaves g n (from' b (a, t)) = leaves g n (a, t) := fun n hn =>
      from_leaves (by rintro rfl; exact s1 hn) (by rintro rfl; exact s3 hn)
    unfold storageLineE
    dsimp only
    refine ⟨rfl, ?_, ?_⟩
    · simp only [from_enters hd]
      rw [List.map_congr_left (l := s.inputs) fun n hn => by rw [hL n hn]]
    · simp only [from_enters hd]
      rw [List.map_congr_left (l := s.inputs) fun n hn => by rw [hL n hn]]
  · have v1 := pa.virtuals v hv
    have v2 := pb.virtuals v hv
    refine alike_some fun r hr => ?_
    obtain ⟨t, ht, rfl⟩ := List.mem_map.1 hr
    have : edgeWeights (core d a b) g v (from' b (a, t)) = edgeWeights (core d a b) g v (a, t) := by
      unfold edgeWeights
      congr 1
      apply List.filter_congr
      intro p hp
      have hp := (List.of_mem_zip hp).1
      exact from_meets hd (fun e => v1 (e ▸ hp)) fun e => v2 (e ▸ hp)
    unfold virtualLineE
    dsimp only
    rw [this]
    exact ⟨rfl, rfl, rfl⟩
  · have g1 := pa.aggs k hk
    have g2 := pb.aggs k hk
    unfold factorLinesE at ho
    split at ho
    · cases ho
    · split at ho
      · rw [List.mem_singleton.1 ho]; intro L hL; cases hL
      · rename_i n0 others hn
        split at ho
        · rw [List.mem_singleton.1 ho]; intro L hL; cases hL
        · split at ho
          · rw [List.mem_singleton.1 ho]; intro L hL; cases hL
          · obtain ⟨p, hp, rfl⟩ := List.mem_map.1 ho
            rw [hn] at g1 g2
            have hp := (List.of_mem_zip hp).1
            refine alike_some fun r hr => ?_
            obtain ⟨t, ht, rfl⟩ := List.mem_map.1 hr
            have e0 := from_meets (d := core d a b) (t := t) (n := n0) hd (by rintro rfl; simp at g1) (by rintro rfl; simp at g2)
            have e1 := from_meets (d := core d a b) (t := t) (n := p.1) hd (fun e => g1 (e ▸ List.mem_cons_of_mem _ hp)) (fun e => g2 (e ▸ List.mem_cons_of_mem _ hp))
            exact ⟨rfl, by simp only [e0, e1], by simp only [e0, e1]⟩
  · have g1 := pa.aggs k hk
    have g2 := pb.aggs k hk
    refine alike_limit fun r hr => ?_
    obtain ⟨t, ht, rfl⟩ := List.mem_map.1 hr
    have := lastWeight_congr (g := k) (p := fun n => meets (core d a b) g n (from' b (a, t))) (q := fun n => meets (core d a b) g n (a, t)) fun n hn =>
      from_meets hd (by rintro rfl; exact g1 hn) (by rintro rfl; exact g2 hn)
    rw [this]
    exact ⟨rfl, rfl, rfl⟩

private theorem edge_twins {d : Data} {a b : Nat} {A B : Rat} (h : Twins d a b A B) {dom : Nat → Nat} (hd : dom a = dom b) {rest : List (Nat × Nat)} {T : List Nat}
    (hrest : ∀ e ∈ rest, (e.1 ≠ a ∧ e.2 ≠ a) ∧ e.1 ≠ b ∧ e.2 ≠ b) (hT : ∀ t ∈ T, t ≠ a ∧ t ≠ b ∧ dom t = dom a)
    {x u v : List Rat} (hx : x.length = rest.length) (hu : u.length = T.length) (hv : v.length = T.length) (h0 : ∀ q ∈ x ++ u ++ v, 0 ≤ q) :
    (EdgeFeasible d ⟨rest ++ T.map (a, ·) ++ T.map (b, ·), dom⟩ (x ++ u ++ v) ↔
      AllHold (edgeLines (core d a b) ⟨[], dom⟩) (rest ++ T.map (a, ·)) (x ++ plus u v) ∧ T ≠ [] ∧ u.sum ≤ A ∧ v.sum ≤ B) ∧
    (EdgeFeasible (joined d a b A B) ⟨rest ++ T.map (a, ·), dom⟩ (x ++ plus u v) ↔
      AllHold (edgeLines (core d a b) ⟨[], dom⟩) (rest ++ T.map (a, ·)) (x ++ plus u v) ∧ T ≠ [] ∧ u.sum + v.sum ≤ A + B) := by
  have hab := h.differ
  have hba := h.differ.symm
  have hcopy : T.map (b, ·) = (T.map (a, ·)).map (from' b) := by
    rw [List.map_map]; rfl
  have hne : T.map (a, ·) ≠ [] ↔ T ≠ [] := by simp
  have ka : ∀ e, meets d ⟨[], dom⟩ a e = leaves ⟨[], dom⟩ a e := fun e => by unfold meets; rw [h.kind.1]; simp
  have kb : ∀ e, meets d ⟨[], dom⟩ b e = leaves ⟨[], dom⟩ b e := fun e => by unfold meets; rw [h.kind.2]; simp
  have key := twin_lines (core_alikeE h (g := ⟨[], dom⟩) hd T) (bada := fun e => enters ⟨[], dom⟩ a e) (badb := fun e => enters ⟨[], dom⟩ b e)
    (pa := meets d ⟨[], dom⟩ a) (pb := meets d ⟨[], dom⟩ b) h.size.1 h.size.2.1 h.size.2.2 (rest := rest) (T := T.map (a, ·)) (c := from' b)
    (fun e he => ⟨enters_false (hrest e he).1.2, enters_false (hrest e he).2.2, by rw [ka]; exact leaves_false (hrest e he).1.1, by rw [kb]; exact leaves_false (hrest e he).2.1⟩)
    (fun r hr => by
      obtain ⟨t, ht, rfl⟩ := List.mem_map.1 hr
      obtain ⟨t1, t2, t3⟩ := hT t ht
      rw [ka, kb]
      exact ⟨enters_false t1, enters_false t2, by unfold leaves; simp [t3], leaves_false hab⟩)
    (fun r hr => by
      obtain ⟨t, ht, rfl⟩ := List.mem_map.1 hr
      obtain ⟨t1, t2, t3⟩ := hT t ht
      rw [ka, kb]
      exact ⟨enters_false t1, enters_false t2, leaves_false hba, by unfold leaves from'; simp [t3, hd]⟩) hx (by simpa using hu) (by simpa using hv) h0
  have io : (Kind.input == Kind.output) = false := rfl
  have la : nodeLineE d ⟨[], dom⟩ a = limitLine (fun e => enters ⟨[], dom⟩ a e) (fun r => one (meets d ⟨[], dom⟩ a r)) (fun r => term (meets d ⟨[], dom⟩ a r) 1) (.fin 0) (.fin A) := by
    unfold nodeLineE; rw [h.lower.1, h.upper.1, h.kind.1, io]; simp
  have lb : nodeLineE d ⟨[], dom⟩ b = limitLine (fun e => enters ⟨[], dom⟩ b e) (fun r => one (meets d ⟨[], dom⟩ b r)) (fun r => term (meets d ⟨[], dom⟩ b r) 1) (.fin 0) (.fin B) := by
    unfold nodeLineE; rw [h.lower.2, h.upper.2, h.kind.2, io]; simp
  have lw : nodeLineE (joined d a b A B) ⟨[], dom⟩ a = limitLine (fun e => enters ⟨[], dom⟩ a e) (fun r => one (meets d ⟨[], dom⟩ a r)) (fun r => term (meets d ⟨[], dom⟩ a r) 1) (.fin 0) (.fin (A + B)) := by
    unfold nodeLineE joined; simp only [if_true]; rw [h.lower.1, h.kind.1, io]; simp [meets]
  rw [← la, ← lb, ← lw, hne, ← hcopy] at key
  have e1 : ∀ es, edgeLines d ⟨es, dom⟩ = edgeLines d ⟨[], dom⟩ := fun _ => rfl
  have e2 : ∀ es, edgeLines (joined d a b A B) ⟨es, dom⟩ = edgeLines (joined d a b A B) ⟨[], dom⟩ := fun _ => rfl
  rw [edgeFeasible_iff, edgeFeasible_iff, e1, e2, hold_of_mem (edgeLines_twins h _), hold_of_mem (edgeLines_joined h _), key.1, key.2]
  have w0 : ∀ q ∈ x ++ plus u v, 0 ≤ q := by
    intro q hq
    rcases List.mem_append.1 hq with hq | hq
    · exact h0 q (by simp [hq])
    · exact plus_nonneg (fun q hq => h0 q (by simp [hq])) (fun q hq => h0 q (by simp [hq])) q hq
  have n1 : d.nodes ≠ [] := List.ne_nil_of_mem h.here.1
  have n2 : d.nonStorages ≠ [] := List.ne_nil_of_mem (mem_nonStorages.2 ⟨h.here.1, by rw [h.kind.1]; simp⟩)
  have m1 : a ∈ (joined d a b A B).nodes := List.mem_filter.2 ⟨h.here.1, by simpa using hab⟩
  have m2 : (joined d a b A B).nonStorages ≠ [] := List.ne_nil_of_mem (mem_nonStorages.2 ⟨m1, by show d.kind a ≠ .other; rw [h.kind.1]; simp⟩)
  constructor
  · constructor
    · rintro ⟨-, -, -, h'⟩; exact h'
    · intro h'
      refine ⟨⟨n1, ?_, n2⟩, by simp [hx, hu, hv], h0, h'⟩
      have := h'.2.1
      simp [this]
  · constructor
    · rintro ⟨-, -, -, h'⟩; exact h'
    · intro h'
      refine ⟨⟨List.ne_nil_of_mem m1, ?_, m2⟩, by simp [hx, plus_length hu hv], w0, h'⟩
      have := h'.2.1
      simp [this]

private theorem sum_without {l : List Nat} {b : Nat} (hn : l.Nodup) (hb : b ∈ l) (f : Nat → Rat) : (l.map f).sum = f b + ((l.filter (· ≠ b)).map f).sum := by
  have := ((List.perm_cons_erase hb).map f).sum_eq
  rw [this, List.map_cons, List.sum_cons, hn.erase_eq_filter]
  congr 4
  funext n
  rw [Bool.eq_iff_iff]
  simp

private theorem eCost_joined {d : Data} {a b : Nat} {A B : Rat} (h : Twins d a b A B) (g g' : Graph) (hg : g'.domain = g.domain) {e : Nat × Nat} (h1 : e.1 ≠ b) (h2 : e.2 ≠ b) :
    eCost (joined d a b A B) g' e = eCost d g e := by
  unfold eCost
  rw [sum_without h.once h.here.2, enters_false h2, leaves_false h1]
  have : ∀ n, enters g' n e = enters g n e ∧ leaves g' n e = leaves g n e := fun n => by unfold enters leaves; rw [hg]; exact ⟨rfl, rfl⟩
  simp only [(this _).1, (this _).2]
  simp [one, joined]

private theorem eCost_from {d : Data} {a b : Nat} {A B : Rat} (h : Twins d a b A B) {g : Graph} (hd : g.domain a = g.domain b) {t : Nat} (h1 : t ≠ a) (h2 : t ≠ b) :
    eCost d g (b, t) = eCost d g (a, t) := by
  have hm : a ∈ d.nodes.filter (· ≠ b) := List.mem_filter.2 ⟨h.here.1, by simpa using h.differ⟩
  have hN : (d.nodes.filter (· ≠ b)).Nodup := h.once.filter _
  unfold eCost
  rw [sum_without h.once h.here.2, sum_without h.once h.here.2, sum_without hN hm, sum_without hN hm,
    enters_false (n := b) (e := (b, t)) h2, enters_false (n := a) (e := (b, t)) h1, enters_false (n := b) (e := (a, t)) h2, enters_false (n := a) (e := (a, t)) h1,
    leaves_false (n := a) (e := (b, t)) h.differ.symm, leaves_false (n := b) (e := (a, t)) h.differ, h.kind.1, h.kind.2, h.cost]
  have hl : leaves g b (b, t) = leaves g a (a, t) := by unfold leaves; simp [hd]
  rw [hl, List.map_congr_left (g := fun n => (if d.kind n = .link then d.cost n / 2 else d.cost n) * ((one (enters g n (a, t)) + one (leaves g n (a, t)) : Nat) : Rat)) fun n hn => ?_]
  · simp [one]
  · obtain ⟨hn, ha⟩ := List.mem_filter.1 hn
    have hb := (List.mem_filter.1 hn).2
    rw [show enters g n (b, t) = enters g n (a, t) from from_enters hd, show leaves g n (b, t) = leaves g n (a, t) from from_leaves (by simpa using ha) (by simpa using hb)]

/-- **C124 (two supplies joined, edge solver).** -/
theorem C124_edge_joined (d : Data) (a b : Nat) (A B : Rat) (h : Twins d a b A B) (dom : Nat → Nat) (hd : dom a = dom b) (rest : List (Nat × Nat)) (T : List Nat)
    (hrest : ∀ e ∈ rest, (e.1 ≠ a ∧ e.2 ≠ a) ∧ e.1 ≠ b ∧ e.2 ≠ b) (hT : ∀ t ∈ T, t ≠ a ∧ t ≠ b ∧ dom t = dom a)
    (x u v : List Rat) (hx : x.length = rest.length) (hu : u.length = T.length) (hv : v.length = T.length) :
    (EdgeFeasible d ⟨rest ++ T.map (a, ·) ++ T.map (b, ·), dom⟩ (x ++ u ++ v) → EdgeFeasible (joined d a b A B) ⟨rest ++ T.map (a, ·), dom⟩ (x ++ plus u v)) ∧
    edgeObjective (joined d a b A B) ⟨rest ++ T.map (a, ·), dom⟩ (x ++ plus u v) = edgeObjective d ⟨rest ++ T.map (a, ·) ++ T.map (b, ·), dom⟩ (x ++ u ++ v) ∧
    edgeNodeFlow (joined d a b A B) ⟨rest ++ T.map (a, ·), dom⟩ (x ++ plus u v) a =
      edgeNodeFlow d ⟨rest ++ T.map (a, ·) ++ T.map (b, ·), dom⟩ (x ++ u ++ v) a + edgeNodeFlow d ⟨rest ++ T.map (a, ·) ++ T.map (b, ·), dom⟩ (x ++ u ++ v) b ∧
    ∀ n, n ≠ a → n ≠ b →
      edgeNodeFlow (joined d a b A B) ⟨rest ++ T.map (a, ·), dom⟩ (x ++ plus u v) n = edgeNodeFlow d ⟨rest ++ T.map (a, ·) ++ T.map (b, ·), dom⟩ (x ++ u ++ v) n := by
  have hab := h.differ
  have hba := h.differ.symm
  have hcopy : T.map (b, ·) = (T.map (a, ·)).map (from' b) := by
    rw [List.map_map]; rfl
  have fold : ∀ f : Nat × Nat → Rat, (∀ t ∈ T, f (b, t) = f (a, t)) → S (rest ++ T.map (a, ·)) (x ++ plus u v) f = S (rest ++ T.map (a, ·) ++ T.map (b, ·)) (x ++ u ++ v) f := by
    intro f hf
    rw [hcopy]
    refine (S_fold hx (by simpa using hu) (by simpa using hv) fun r hr => ?_).symm
    obtain ⟨t, ht, rfl⟩ := List.mem_map.1 hr
    exact hf t ht
  refine ⟨fun hf => ?_, ?_, ?_, fun n ha hb => ?_⟩
  · obtain ⟨k1, k2⟩ := edge_twins h hd hrest hT hx hu hv (by rw [edgeFeasible_iff] at hf; exact hf.2.2.1)
    obtain ⟨h1, h2, h3, h4⟩ := k1.1 hf
    exact k2.2 ⟨h1, h2, add_le_add h3 h4⟩
  · rw [edgeObjective_S, edgeObjective_S]
    dsimp only
    rw [S_congr (g := eCost d ⟨rest ++ T.map (a, ·) ++ T.map (b, ·), dom⟩)]
    · exact fold _ fun t ht => eCost_from h hd (hT t ht).1 (hT t ht).2.1
    · intro e he
      rcases List.mem_append.1 he with he | he
      · exact eCost_joined h _ _ rfl (hrest e he).2.1 (hrest e he).2.2
      · obtain ⟨t, ht, rfl⟩ := List.mem_map.1 he
        exact eCost_joined h _ _ rfl hab (hT t ht).2.1
  · rw [edgeNodeFlow_S, edgeNodeFlow_S, edgeNodeFlow_S]
    dsimp only
    have sa : share (joined d a b A B) a = 1 := by unfold share joined; simp [h.kind.1]
    have sa' : share d a = 1 := by unfold share; simp [h.kind.1]
    have sb' : share d b = 1 := by unfold share; simp [h.kind.2]
    rw [sa, sa', sb']
    have off : ∀ (n : Nat) (es : List (Nat × Nat)) (y : List Rat), (∀ e ∈ es, e.1 ≠ n ∧ e.2 ≠ n) → S es y (fun e => 1 * ((if e.1 = n then (1 : Rat) else 0) + if e.2 = n then 1 else 0)) = 0 := by
      intro n es y hn
      rw [S_congr (g := fun _ => 0) fun e he => by simp [(hn e he).1, (hn e he).2], S_zero]
    have on : ∀ (n : Nat) (y : List Rat), y.length = T.length → (∀ t ∈ T, t ≠ n) → S (T.map (n, ·)) y (fun e => 1 * ((if e.1 = n then (1 : Rat) else 0) + if e.2 = n then 1 else 0)) = y.sum := by
      intro n y hy hn
      rw [S_image, S_congr (g := fun _ => 1) fun t ht => by simp [hn t ht], S_one T y hy]
    have o1 := off a rest x fun e he => (hrest e he).1
    have o2 := off b rest x fun e he => (hrest e he).2
    have o3 := off b (T.map (a, ·)) u fun e he => by
      obtain ⟨t, ht, rfl⟩ := List.mem_map.1 he
      exact ⟨hab, (hT t ht).2.1⟩
    have o4 := off a (T.map (b, ·)) v fun e he => by
      obtain ⟨t, ht, rfl⟩ := List.mem_map.1 he
      exact ⟨hba, (hT t ht).1⟩
    have p1 := on a (plus u v) (plus_length hu hv) fun t ht => (hT t ht).1
    have p2 := on a u hu fun t ht => (hT t ht).1
    have p3 := on b v hv fun t ht => (hT t ht).2.1
    rw [S_app hx, S_app (by simp [hx, hu]), S_app hx, S_app (by simp [hx, hu]), S_app hx, o1, o2, o3, o4, p1, p2, p3]
    have : (plus u v).sum = u.sum + v.sum := by
      rw [← S_one T _ (plus_length hu hv), S_plus T u v hu hv, S_one T u hu, S_one T v hv]
    rw [this]
    ring
  · rw [edgeNodeFlow_S, edgeNodeFlow_S]
    refine fold (fun e => share d n * ((if e.1 = n then (1 : Rat) else 0) + if e.2 = n then 1 else 0)) fun t _ => ?_
    simp [ha.symm, hb.symm]

/-- **C124 (a supply in two halves, edge solver).** -/
theorem C124_edge_split (d : Data) (a b : Nat) (A B : Rat) (h : Twins d a b A B) (dom : Nat → Nat) (hd : dom a = dom b) (rest : List (Nat × Nat)) (T : List Nat)
    (hrest : ∀ e ∈ rest, (e.1 ≠ a ∧ e.2 ≠ a) ∧ e.1 ≠ b ∧ e.2 ≠ b) (hT : ∀ t ∈ T, t ≠ a ∧ t ≠ b ∧ dom t = dom a)
    (x w : List Rat) (hx : x.length = rest.length) (hw : w.length = T.length) (hf : EdgeFeasible (joined d a b A B) ⟨rest ++ T.map (a, ·), dom⟩ (x ++ w)) :
    ∃ u v, u.length = T.length ∧ v.length = T.length ∧ plus u v = w ∧ EdgeFeasible d ⟨rest ++ T.map (a, ·) ++ T.map (b, ·), dom⟩ (x ++ u ++ v) := by
  have he := e8_pos
  have hp := hf
  rw [edgeFeasible_iff] at hp
  have h0 := hp.2.2.1
  have hA : 0 < A := lt_of_lt_of_le he h.size.1
  have hB : 0 < B := lt_of_lt_of_le he h.size.2.1
  have hw0 : ∀ q ∈ w, 0 ≤ q := fun q hq => h0 q (by simp [hq])
  have hsum : w.sum ≤ A + B := by
    have z0 : ∀ q ∈ w.map (fun _ => (0 : Rat)), 0 ≤ q := by
      intro q hq
      obtain ⟨p, -, rfl⟩ := List.mem_map.1 hq
      exact le_refl _
    have hz : plus w (w.map fun _ => 0) = w := by
      unfold plus
      conv_lhs => rw [← List.map_id w]
      rw [List.map_map, List.zipWith_map, List.zipWith_self]
      conv_rhs => rw [← List.map_id w]
      exact List.map_congr_left fun q _ => by simp
    have := (edge_twins h hd hrest hT hx hw (v := w.map fun _ => 0) (by simpa using hw) (by
      intro q hq
      rcases List.mem_append.1 hq with hq | hq
      · exact h0 q hq
      · exact z0 q hq)).2.1 (by rw [hz]; exact hf)
    have hs0 : (w.map fun _ => (0 : Rat)).sum = 0 := sum_map_zero fun _ _ => rfl
    have h3 := this.2.2
    rw [hs0, add_zero] at h3
    exact h3
  obtain ⟨u, v, hu, hv, hp', u0, v0, hsu, hsv⟩ := split_list w hw0 hA hB hsum
  refine ⟨u, v, hu.trans hw, hv.trans hw, hp', ?_⟩
  have key := edge_twins h hd hrest hT hx (hu.trans hw) (hv.trans hw) (by
    intro q hq
    rcases List.mem_append.1 hq with hq | hq
    · rcases List.mem_append.1 hq with hq | hq
      · exact h0 q (by simp [hq])
      · exact u0 q hq
    · exact v0 q hq)
  rw [hp'] at key
  obtain ⟨h1, h2, -⟩ := key.2.1 hf
  exact key.1.2 ⟨h1, h2, hsu, hsv⟩

/-- **C124 (least cost, edge solver).** -/
theorem C124_edge_optimum (d : Data) (a b : Nat) (A B : Rat) (h : Twins d a b A B) (dom : Nat → Nat) (hd : dom a = dom b) (rest : List (Nat × Nat)) (T : List Nat)
    (hrest : ∀ e ∈ rest, (e.1 ≠ a ∧ e.2 ≠ a) ∧ e.1 ≠ b ∧ e.2 ≠ b) (hT : ∀ t ∈ T, t ≠ a ∧ t ≠ b ∧ dom t = dom a)
    (z z' : List Rat) (hz : EdgeOptimal d ⟨rest ++ T.map (a, ·) ++ T.map (b, ·), dom⟩ z) (hz' : EdgeOptimal (joined d a b A B) ⟨rest ++ T.map (a, ·), dom⟩ z') :
    edgeObjective (joined d a b A B) ⟨rest ++ T.map (a, ·), dom⟩ z' = edgeObjective d ⟨rest ++ T.map (a, ·) ++ T.map (b, ·), dom⟩ z := by
  have l1 : z.length = rest.length + T.length + T.length := by
    have := hz.1; rw [edgeFeasible_iff] at this; have := this.2.1; simp at this; omega
  have l2 : z'.length = rest.length + T.length := by
    have := hz'.1; rw [edgeFeasible_iff] at this; simpa using this.2.1
  obtain ⟨y, v, rfl, hy, hv⟩ := cut z l1
  obtain ⟨x, u, rfl, hx, hu⟩ := cut y hy
  obtain ⟨x', w, rfl, hx', hw⟩ := cut z' l2
  obtain ⟨j1, j2, -⟩ := C124_edge_joined d a b A B h dom hd rest T hrest hT x u v hx hu hv
  obtain ⟨u', v', hu', hv', hp, hf⟩ := C124_edge_split d a b A B h dom hd rest T hrest hT x' w hx' hw hz'.1
  obtain ⟨-, k2, -⟩ := C124_edge_joined d a b A B h dom hd rest T hrest hT x' u' v' hx' hu' hv'
  rw [hp] at k2
  exact le_antisymm (j2 ▸ hz'.2 _ (j1 hz.1)) (k2 ▸ hz.2 _ hf)

/-! ## Limits below 1e-8 -/

/-- Two supplies with a limit each, a link and a demand. -/
def halves (A B : Rat) : Data where
  kind := fun n => match n with | 2 => .link | 3 => .output | _ => .input
  nodes := [0, 1, 2, 3]
  minFlow := fun _ => .fin 0
  maxFlow := fun n => match n with | 0 => .fin A | 1 => .fin B | _ => .fin 10
  cost := fun n => if n = 3 then -10 else 1
  storages := []
  virtuals := []
  aggs := []
  cross := []
  days := 1

/-- **C124 fails below 1e-8.** Two supplies of 6e-9 each can deliver nothing, as the solver takes either limit for zero; one supply of 1.2e-8 can deliver 1.2e-8. -/
theorem C124_small_fails : ¬RouteFeasible (halves (6 / 10 ^ 9) (6 / 10 ^ 9)) [[0, 2, 3], [1, 2, 3]] [6 / 10 ^ 9, 6 / 10 ^ 9] ∧
    RouteFeasible (joined (halves (6 / 10 ^ 9) (6 / 10 ^ 9)) 0 1 (6 / 10 ^ 9) (6 / 10 ^ 9)) [[0, 2, 3]] [12 / 10 ^ 9] := by
  decide +kernel

/-! ## Examples -/

example : Twins (halves 3 2) 0 1 3 2 ∧ RouteFeasible (halves 3 2) ([] ++ [[2, 3]].map (0 :: ·) ++ [[2, 3]].map (1 :: ·)) ([] ++ [3] ++ [1]) ∧
    RouteFeasible (joined (halves 3 2) 0 1 3 2) ([] ++ [[2, 3]].map (0 :: ·)) ([] ++ [5]) ∧ ¬RouteFeasible (joined (halves 3 2) 0 1 3 2) ([] ++ [[2, 3]].map (0 :: ·)) ([] ++ [6]) ∧
    EdgeFeasible (halves 3 2) ⟨[(2, 3)] ++ [2].map (0, ·) ++ [2].map (1, ·), fun _ => 0⟩ ([4] ++ [3] ++ [1]) ∧
    EdgeFeasible (joined (halves 3 2) 0 1 3 2) ⟨[(2, 3)] ++ [2].map (0, ·), fun _ => 0⟩ ([5] ++ [5]) := by
  refine ⟨⟨by decide, by decide, by decide, ⟨rfl, rfl⟩, rfl, ⟨rfl, rfl⟩, ⟨rfl, rfl⟩, ⟨by decide +kernel, by decide +kernel, ?_⟩, ⟨?_, ?_, ?_, ?_⟩, ⟨?_, ?_, ?_, ?_⟩⟩, by decide +kernel, by decide +kernel, by decide +kernel, by decide +kernel, by decide +kernel⟩
  · have : (10 : Rat) < dblMax - 1 := by
      unfold dblMax
      exact_mod_cast (by decide +kernel : (10 : Int) < 2 ^ 1024 - 2 ^ 971 - 1)
    linarith
  all_goals simp [halves]

end Verif.Lp

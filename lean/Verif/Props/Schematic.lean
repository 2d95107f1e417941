import Mathlib.Data.List.Forall2
import Verif.Spec.Schematic
import Mathlib.Data.List.Nodup
/-!
C100: diagrams of a network show the nodes and how they are joined; those of a model and of its document are the same.
-/

namespace Verif.Schematic

private theorem position_some {names : List String} {x : String} {i : Nat} (h : position names x = some i) : names[i]? = some x := by
  induction names generalizing i with
  | nil => cases h
  | cons n rest ih =>
    unfold position at h
    split at h
    · rename_i e; cases h; simp [e]
    · obtain ⟨j, hj, rfl⟩ := Option.map_eq_some_iff.1 h
      simpa using ih hj

private theorem position_isSome {names : List String} {x : String} : (position names x).isSome ↔ x ∈ names := by
  induction names with
  | nil => simp [position]
  | cons n rest ih =>
    unfold position
    split
    · rename_i e; simp [e]
    · rename_i e; simp [ih, Ne.symm e]

private theorem mapM_isSome {α β : Type} {f : α → Option β} {l : List α} : (l.mapM f).isSome ↔ ∀ x ∈ l, (f x).isSome := by
  induction l with
  | nil => simp
  | cons a l ih =>
    rw [List.mapM_cons]
    cases hf : f a with
    | none => simp [hf]
    | some b =>
      cases hl : l.mapM f with
      | none => rw [hl] at ih; simp [hf]; simpa using ih
      | some bs => rw [hl] at ih; simp [hf]; simpa using ih

private theorem mem_mapM {α β : Type} {f : α → Option β} {l : List α} {out : List β} (h : l.mapM f = some out) (y : β) : y ∈ out ↔ ∃ x ∈ l, f x = some y := by
  induction l generalizing out with
  | nil => simp only [List.mapM_nil] at h; cases h; simp
  | cons a l ih =>
    rw [List.mapM_cons] at h
    cases hf : f a with
    | none => rw [hf] at h; cases h
    | some b =>
      cases hl : l.mapM f with
      | none => rw [hf, hl] at h; cases h
      | some bs =>
        rw [hf, hl] at h
        cases h
        rw [List.mem_cons, ih hl]
        simp only [List.mem_cons, exists_eq_or_imp, hf, Option.some.injEq]
        exact or_congr_left eq_comm

/-- **C100.** The boxes of the diagram of a model are its nodes that are neither virtual nor parts of others. -/
theorem C100_boxes (g : Graph) (d : Diagram) (h : ofModel g = some d) (a : String) : a ∈ d.boxes ↔ ∃ n ∈ g.nodes, n.name = a ∧ n.parent = none ∧ n.virt = false := by
  obtain ⟨ls, _, rfl⟩ := Option.map_eq_some_iff.1 h
  simp only [Graph.boxes, List.mem_map, List.mem_filter, Bool.and_eq_true, Option.isNone_iff_eq_none, Bool.not_eq_true']
  constructor
  · rintro ⟨n, ⟨hn, h1, h2⟩, rfl⟩; exact ⟨n, hn, rfl, h1, h2⟩
  · rintro ⟨n, hn, rfl, h1, h2⟩; exact ⟨n, ⟨hn, h1, h2⟩, rfl⟩

private theorem of_iff {n : Node} {a : String} : n.Of a ↔ n.owner = a := by
  unfold Node.Of Node.owner
  cases n.parent <;> simp

/-- **C100.** Its links join two different boxes exactly if an edge of the network joins them or parts of them. -/
theorem C100_links (g : Graph) (d : Diagram) (h : ofModel g = some d) (a b : String) : d.Joins a b ↔ g.Joins a b := by
  obtain ⟨ls, hl, rfl⟩ := Option.map_eq_some_iff.1 h
  unfold Diagram.Joins Graph.Joins
  simp only [of_iff]
  constructor
  · rintro ⟨i, j, hm, hi, hj⟩
    obtain ⟨l, hm1, hm2⟩ := List.mem_flatten.1 hm
    obtain ⟨e, he, hf⟩ := (mem_mapM hl l).1 hm1
    unfold link at hf
    split at hf
    · cases hf; cases hm2
    · rename_i hne
      obtain ⟨i', hi', hf⟩ := Option.bind_eq_some_iff.1 hf
      obtain ⟨j', hj', rfl⟩ := Option.map_eq_some_iff.1 hf
      rw [List.mem_singleton] at hm2
      cases hm2
      have ha : e.1.owner = a := by have := position_some hi'; rw [hi] at this; exact (Option.some.inj this).symm
      have hb : e.2.owner = b := by have := position_some hj'; rw [hj] at this; exact (Option.some.inj this).symm
      exact ⟨fun e' => hne (by rw [ha, hb, e']), e, he, ha, hb⟩
  · rintro ⟨hne, e, he, rfl, rfl⟩
    have hs := mapM_isSome.1 (by rw [hl]; rfl : (g.edges.mapM (link g.boxes)).isSome) e he
    obtain ⟨l, hf⟩ := Option.isSome_iff_exists.1 hs
    have hm := (mem_mapM hl l).2 ⟨e, he, hf⟩
    unfold link at hf
    rw [if_neg hne] at hf
    obtain ⟨i, hi, hf⟩ := Option.bind_eq_some_iff.1 hf
    obtain ⟨j, hj, rfl⟩ := Option.map_eq_some_iff.1 hf
    exact ⟨i, j, List.mem_flatten.2 ⟨_, hm, by simp⟩, position_some hi, position_some hj⟩

/-- **C100.** A diagram can be made exactly if both ends of every edge between different nodes are, or are parts of, nodes that are shown. -/
theorem C100_made (g : Graph) : (ofModel g).isSome ↔ ∀ a b, g.Joins a b → ∀ c, c = a ∨ c = b → ∃ n ∈ g.nodes, n.name = c ∧ n.parent = none ∧ n.virt = false := by
  have hb : ∀ c, c ∈ g.boxes ↔ ∃ n ∈ g.nodes, n.name = c ∧ n.parent = none ∧ n.virt = false := by
    intro c
    simp only [Graph.boxes, List.mem_map, List.mem_filter, Bool.and_eq_true, Option.isNone_iff_eq_none, Bool.not_eq_true']
    constructor
    · rintro ⟨n, ⟨hn, h1, h2⟩, rfl⟩; exact ⟨n, hn, rfl, h1, h2⟩
    · rintro ⟨n, hn, rfl, h1, h2⟩; exact ⟨n, ⟨hn, h1, h2⟩, rfl⟩
  unfold ofModel Graph.Joins
  simp only [of_iff]
  rw [Option.isSome_map, mapM_isSome]
  have hlink : ∀ e : Node × Node, (link g.boxes e).isSome ↔ (e.1.owner ≠ e.2.owner → e.1.owner ∈ g.boxes ∧ e.2.owner ∈ g.boxes) := by
    intro e
    unfold link
    split
    · rename_i h; simp [h]
    · rename_i h
      simp only [ne_eq, h, not_false_eq_true, true_implies]
      rw [← position_isSome, ← position_isSome]
      cases position g.boxes e.1.owner <;> cases position g.boxes e.2.owner <;> simp
  constructor
  · rintro h a b ⟨hne, e, he, rfl, rfl⟩ c hc
    have := (hlink e).1 (h e he) hne
    rcases hc with rfl | rfl
    · exact (hb _).1 this.1
    · exact (hb _).1 this.2
  · intro h e he
    rw [hlink]
    intro hne
    exact ⟨(hb _).2 (h _ _ ⟨hne, e, he, rfl, rfl⟩ _ (.inl rfl)), (hb _).2 (h _ _ ⟨hne, e, he, rfl, rfl⟩ _ (.inr rfl))⟩

/-! ## Documents -/

private theorem box_name {cls : String → Option String} {known : List String} {attributes : Bool} {ps : Option (List (String × String))} {e : Entry} {b : String × List (String × String)}
    (h : box cls known attributes ps e = some b) : b.1 = e.name := by
  unfold box at h
  split at h
  · split at h
    · obtain ⟨_, _, rfl⟩ := Option.map_eq_some_iff.1 h; rfl
    · cases h; rfl
  · cases h

private theorem document_parts {cls : String → Option String} {known : List String} {attributes : Bool} {d : Doc} {g : Diagram} {as : List (List (String × String))}
    (h : ofDocument cls known attributes d = some (g, as)) :
    (∀ a, a ∈ g.boxes ↔ ∃ e ∈ d.nodes, e.name = a ∧ e.type ∉ hidden) ∧ (∀ a b, g.Joins a b ↔ (a, b) ∈ d.edges) := by
  obtain ⟨bs, hb, h⟩ := Option.bind_eq_some_iff.1 h
  obtain ⟨ls, hl, h⟩ := Option.map_eq_some_iff.1 h
  cases h
  constructor
  · intro a
    simp only [List.mem_map]
    constructor
    · rintro ⟨b, hm, rfl⟩
      obtain ⟨e, he, hf⟩ := (mem_mapM hb b).1 hm
      rw [List.mem_filter] at he
      exact ⟨e, he.1, (box_name hf).symm, by simpa using he.2⟩
    · rintro ⟨e, he, rfl, ht⟩
      have hm : e ∈ d.nodes.filter fun e => !hidden.contains e.type := List.mem_filter.2 ⟨he, by simpa using ht⟩
      obtain ⟨b, hf⟩ := Option.isSome_iff_exists.1 (mapM_isSome.1 (by rw [hb]; rfl : (List.mapM (box cls known attributes d.parameters) _).isSome) e hm)
      exact ⟨b, (mem_mapM hb b).2 ⟨e, hm, hf⟩, box_name hf⟩
  · intro a b
    unfold Diagram.Joins
    constructor
    · rintro ⟨i, j, hm, hi, hj⟩
      obtain ⟨e, he, hf⟩ := (mem_mapM hl _).1 hm
      obtain ⟨i', hi', hf⟩ := Option.bind_eq_some_iff.1 hf
      obtain ⟨j', hj', hf⟩ := Option.map_eq_some_iff.1 hf
      cases hf
      have h1 := position_some hi'
      have h2 := position_some hj'
      simp only at hi hj
      rw [hi] at h1; rw [hj] at h2
      rw [Option.some.inj h1, Option.some.inj h2]
      exact he
    · intro he
      obtain ⟨p, hf⟩ := Option.isSome_iff_exists.1 (mapM_isSome.1 (by rw [hl]; rfl : (List.mapM (fun e : String × String => (position (bs.map Prod.fst) e.1).bind fun i =>
        (position (bs.map Prod.fst) e.2).map fun j => (i, j)) d.edges).isSome) (a, b) he)
      have hm := (mem_mapM hl p).2 ⟨_, he, hf⟩
      obtain ⟨i, hi, hf⟩ := Option.bind_eq_some_iff.1 hf
      obtain ⟨j, hj, rfl⟩ := Option.map_eq_some_iff.1 hf
      exact ⟨i, j, hm, position_some hi, position_some hj⟩

/-- **C100.** The diagram of a document and that of the model it describes have the same boxes and join the same ones, as long as the document has no monthly and no rolling virtual storages. -/
theorem C100_same_partial (cls : String → Option String) (known : List String) (attributes : Bool) (d : Doc) (g : Graph) (hd : Describes d g)
    (ht : ∀ e ∈ d.nodes, e.type ≠ "monthlyvirtualstorage" ∧ e.type ≠ "rollingvirtualstorage")
    (m f : Diagram) (as : List (List (String × String))) (hm : ofModel g = some m) (hf : ofDocument cls known attributes d = some (f, as)) :
    (∀ a, a ∈ f.boxes ↔ a ∈ m.boxes) ∧ ∀ a b, a ≠ b → (f.Joins a b ↔ m.Joins a b) := by
  obtain ⟨h1, h2⟩ := document_parts hf
  refine ⟨fun a => ?_, fun a b hne => ?_⟩
  · rw [h1, C100_boxes g m hm, hd.nodes a false]
    constructor
    · rintro ⟨e, he, hx, hh⟩
      refine ⟨e, he, hx, ?_⟩
      have := ht e he
      simp only [hidden, List.mem_cons, List.not_mem_nil, or_false, not_or] at hh
      simp [virtualTypes, hh, this]
    · rintro ⟨e, he, hx, hh⟩
      refine ⟨e, he, hx, ?_⟩
      have hh : e.type ∉ virtualTypes := by simpa using hh.symm
      simp only [virtualTypes, List.mem_cons, List.not_mem_nil, or_false, not_or] at hh
      simp [hidden, hh]
  · rw [h2, C100_links g m hm, hd.edges a b hne]
    exact ⟨fun h => ⟨hne, h⟩, fun h => h.2⟩

/-- **C100.** A document of which a diagram cannot be made has an unknown type among the nodes that are shown, or an edge to something that is not shown. -/
theorem C100_document_made (cls : String → Option String) (known : List String) (d : Doc) :
    (ofDocument cls known false d).isSome ↔ (∀ e ∈ d.nodes, e.type ∉ hidden → e.type ∈ known) ∧
      ∀ a b, (a, b) ∈ d.edges → ∀ c, c = a ∨ c = b → ∃ e ∈ d.nodes, e.name = c ∧ e.type ∉ hidden := by
  have hbox : ∀ e, (box cls known false d.parameters e).isSome ↔ e.type ∈ known := by
    intro e; unfold box; split <;> simp [*]
  unfold ofDocument
  cases hb : (d.nodes.filter fun e => !hidden.contains e.type).mapM (box cls known false d.parameters) with
  | none =>
    simp only [Option.bind_none, Option.isSome_none, Bool.false_eq_true, false_iff]
    rintro ⟨h, _⟩
    have : (List.mapM (box cls known false d.parameters) (d.nodes.filter fun e => !hidden.contains e.type)).isSome := mapM_isSome.2 fun e he => by
      rw [List.mem_filter] at he
      exact (hbox e).2 (h e he.1 (by simpa using he.2))
    rw [hb] at this; cases this
  | some bs =>
    have hk : ∀ e ∈ d.nodes, e.type ∉ hidden → e.type ∈ known := by
      intro e he hh
      exact (hbox e).1 (mapM_isSome.1 (by rw [hb]; rfl) e (List.mem_filter.2 ⟨he, by simpa using hh⟩))
    have hnames : ∀ c, c ∈ bs.map Prod.fst ↔ ∃ e ∈ d.nodes, e.name = c ∧ e.type ∉ hidden := by
      intro a
      simp only [List.mem_map]
      constructor
      · rintro ⟨b, hm, rfl⟩
        obtain ⟨e, he, hf⟩ := (mem_mapM hb b).1 hm
        rw [List.mem_filter] at he
        exact ⟨e, he.1, (box_name hf).symm, by simpa using he.2⟩
      · rintro ⟨e, he, rfl, ht⟩
        have hm : e ∈ d.nodes.filter fun e => !hidden.contains e.type := List.mem_filter.2 ⟨he, by simpa using ht⟩
        obtain ⟨b, hf⟩ := Option.isSome_iff_exists.1 ((hbox e).2 (hk e he ht))
        exact ⟨b, (mem_mapM hb b).2 ⟨e, hm, hf⟩, box_name hf⟩
    rw [Option.bind_some, Option.isSome_map, mapM_isSome]
    have hpos : ∀ e : String × String, ((position (bs.map Prod.fst) e.1).bind fun i => (position (bs.map Prod.fst) e.2).map fun j => (i, j)).isSome ↔
        e.1 ∈ bs.map Prod.fst ∧ e.2 ∈ bs.map Prod.fst := by
      intro e
      rw [← position_isSome, ← position_isSome]
      cases position (bs.map Prod.fst) e.1 <;> cases position (bs.map Prod.fst) e.2 <;> simp
    constructor
    · intro h
      refine ⟨hk, fun a b he c hc => ?_⟩
      have := (hpos (a, b)).1 (h _ he)
      rcases hc with rfl | rfl
      · exact (hnames _).1 this.1
      · exact (hnames _).1 this.2
    · rintro ⟨_, h⟩ e he
      exact (hpos e).2 ⟨(hnames _).2 (h _ _ he _ (.inl rfl)), (hnames _).2 (h _ _ he _ (.inr rfl))⟩

/-- **C100.** Attributes can be shown as long as the document has parameters, none of the items of a node that is shown is a list, and the types of parameters are known; then every item of every node is shown. -/
theorem C100_attributes_partial (cls : String → Option String) (known : List String) (d : Doc) (g : Diagram) (as0 : List (List (String × String))) (h : ofDocument cls known false d = some (g, as0))
    (ps : List (String × String)) (hp : d.parameters = some ps) (hl : ∀ e ∈ d.nodes, e.type ∉ hidden → ∀ i ∈ e.items, ∀ xs, i.2 ≠ .list xs)
    (hc : ∀ n t, (n, t) ∈ ps → (cls t).isSome) (ho : ∀ e ∈ d.nodes, e.type ∉ hidden → ∀ i ∈ e.items, ∀ t, i.2 = .object (some t) → (cls t).isSome) :
    ∃ as, ofDocument cls known true d = some (g, as) ∧
      as.map (List.map Prod.fst) = (d.nodes.filter fun e => decide (e.type ∉ hidden)).map fun e => e.items.map Prod.fst := by
  obtain ⟨bs, hb, h⟩ := Option.bind_eq_some_iff.1 h
  have hall : ∀ e ∈ d.nodes.filter fun e => !hidden.contains e.type, ∃ is, box cls known true d.parameters e = some (e.name, is) ∧ is.map Prod.fst = e.items.map Prod.fst := by
    intro e he
    have hs := mapM_isSome.1 (by rw [hb]; rfl) e he
    have hknown : e.type ∈ known := by
      unfold box at hs
      split at hs
      · assumption
      · cases hs
    rw [List.mem_filter] at he
    have hh : e.type ∉ hidden := by simpa using he.2
    have hv : ∀ i ∈ e.items, ∃ v, shown cls d.parameters i.2 = some v := by
      intro i hi
      rw [hp]
      cases hx : i.2 with
      | text s =>
        simp only [shown]
        cases hlk : ps.lookup s with
        | none => exact ⟨_, rfl⟩
        | some t =>
          obtain ⟨l1, l2, e', -⟩ := List.lookup_eq_some_iff.1 hlk
          obtain ⟨c, hc'⟩ := Option.isSome_iff_exists.1 (hc s t (by rw [e']; simp))
          exact ⟨_, by simp [hc']; rfl⟩
      | plain s => exact ⟨s, rfl⟩
      | list xs => exact absurd hx (hl e he.1 hh i hi xs)
      | object t =>
        cases t with
        | none => exact ⟨_, rfl⟩
        | some t => exact Option.isSome_iff_exists.1 (ho e he.1 hh i hi t hx)
    have hitems : ∀ l : List (String × Value), (∀ i ∈ l, ∃ v, shown cls d.parameters i.2 = some v) →
        ∃ is, l.mapM (fun i => (shown cls d.parameters i.2).map fun v => (i.1, v)) = some is ∧ is.map Prod.fst = l.map Prod.fst := by
      intro l hl
      induction l with
      | nil => exact ⟨[], rfl, rfl⟩
      | cons i l ih =>
        obtain ⟨is, h1, h2⟩ := ih fun i hi => hl i (List.mem_cons_of_mem _ hi)
        obtain ⟨v, hv⟩ := hl i (by simp)
        refine ⟨(i.1, v) :: is, ?_, by simp [h2]⟩
        rw [List.mapM_cons, hv, h1]; rfl
    obtain ⟨is, h1, h2⟩ := hitems e.items hv
    exact ⟨is, by unfold box; rw [if_pos hknown, if_pos rfl, h1]; rfl, h2⟩
  have hbs : bs = (d.nodes.filter fun e => !hidden.contains e.type).map fun e => (e.name, []) := by
    clear h hall
    generalize (d.nodes.filter fun e => !hidden.contains e.type) = l at hb
    induction l generalizing bs with
    | nil => cases hb; rfl
    | cons e l ih =>
      rw [List.mapM_cons] at hb
      cases hf : box cls known false d.parameters e with
      | none => rw [hf] at hb; cases hb
      | some b =>
        cases hl' : l.mapM (box cls known false d.parameters) with
        | none => rw [hf, hl'] at hb; cases hb
        | some bs' =>
          rw [hf, hl'] at hb
          cases hb
          rw [List.map_cons, ← ih _ hl']
          congr 1
          unfold box at hf
          split at hf
          · cases hf; rfl
          · cases hf
  have hmap : ∃ as, (d.nodes.filter fun e => !hidden.contains e.type).mapM (box cls known true d.parameters) =
      some (((d.nodes.filter fun e => !hidden.contains e.type).map Entry.name).zip as) ∧ as.length = (d.nodes.filter fun e => !hidden.contains e.type).length ∧
      as.map (List.map Prod.fst) = (d.nodes.filter fun e => !hidden.contains e.type).map fun e => e.items.map Prod.fst := by
    clear h hb hbs
    generalize (d.nodes.filter fun e => !hidden.contains e.type) = l at hall
    induction l with
    | nil => exact ⟨[], rfl, rfl, rfl⟩
    | cons e l ih =>
      obtain ⟨as, h1, h2, h3⟩ := ih fun e he => hall e (List.mem_cons_of_mem _ he)
      obtain ⟨is, g1, g2⟩ := hall e (by simp)
      refine ⟨is :: as, ?_, by simp [h2], by simp [g2, h3]⟩
      rw [List.mapM_cons, g1, h1]; rfl
  obtain ⟨as, h1, h2, h3⟩ := hmap
  refine ⟨as, ?_, by simpa using h3⟩
  obtain ⟨ls, hl', h⟩ := Option.map_eq_some_iff.1 h
  cases h
  have hfst : (((d.nodes.filter fun e => !hidden.contains e.type).map Entry.name).zip as).map Prod.fst = bs.map Prod.fst := by
    rw [hbs, List.map_fst_zip (by simp [h2]), List.map_map]; rfl
  have hsnd : (((d.nodes.filter fun e => !hidden.contains e.type).map Entry.name).zip as).map Prod.snd = as := List.map_snd_zip (by simp [h2])
  unfold ofDocument
  rw [h1, Option.bind_some, hfst, hl', hsnd]
  rfl

/-! ## Cases -/

private def doc : Doc :=
  ⟨[⟨"Catchment", "catchment", [("name", .text "Catchment"), ("flow", .text "inflow")]⟩, ⟨"Gauge", "rivergauge", [("name", .text "Gauge"), ("mrf", .plain "5.0"), ("position", .object none)]⟩,
    ⟨"Sea", "output", [("name", .text "Sea"), ("cost", .object (some "constant"))]⟩, ⟨"Licence", "annualvirtualstorage", [("name", .text "Licence"), ("nodes", .list ["Gauge"])]⟩],
   [("Catchment", "Gauge"), ("Gauge", "Sea")], some [("inflow", "dataframe")]⟩

private def graph : Graph :=
  let c : Node := ⟨"Catchment", none, false⟩
  let gauge : Node := ⟨"Gauge", none, false⟩
  let a : Node := ⟨"Gauge Input", some "Gauge", false⟩
  let b : Node := ⟨"Gauge Sublink 0", some "Gauge", false⟩
  let o : Node := ⟨"Gauge Output", some "Gauge", false⟩
  let s : Node := ⟨"Sea", none, false⟩
  ⟨[c, gauge, a, b, o, s, ⟨"Licence", none, true⟩], [(a, b), (b, o), (c, a), (o, s)]⟩

private def classes (t : String) : Option String := if t = "dataframe" then some "DataFrameParameter" else if t = "constant" then some "ConstantParameter" else none

private def types : List String := ["catchment", "rivergauge", "output", "piecewiselink", "rollingvirtualstorage"]

/-- C100: a gauge with three parts; the model and the document give the same diagram. -/
example : ofModel graph = some ⟨["Catchment", "Gauge", "Sea"], [(0, 1), (1, 2)]⟩ := by decide +kernel
example : (ofDocument classes types false doc).map Prod.fst = some ⟨["Catchment", "Gauge", "Sea"], [(0, 1), (1, 2)]⟩ := by decide +kernel
example : (ofDocument classes types true doc).map Prod.snd = some [[("name", "Catchment"), ("flow", "inflow - DataFrameParameter")], [("name", "Gauge"), ("mrf", "5.0"), ("position", "{}")],
    [("name", "Sea"), ("cost", "ConstantParameter")]] := by decide +kernel
example : (∀ e ∈ doc.nodes, e.type ≠ "monthlyvirtualstorage" ∧ e.type ≠ "rollingvirtualstorage") ∧
    (∀ e ∈ doc.nodes, e.type ∉ hidden → ∀ i ∈ e.items, ∀ xs, i.2 ≠ .list xs) := by
  simp only [doc, hidden, List.mem_cons, List.not_mem_nil, or_false, forall_eq_or_imp, forall_eq]
  simp
example : Describes doc graph := by
  constructor
  · intro a v
    simp only [graph, doc, List.mem_cons, List.not_mem_nil, or_false, exists_eq_or_imp, exists_eq_left, virtualTypes]
    simp
  · intro a b hne
    simp only [of_iff, graph, doc, Node.owner, List.mem_cons, List.not_mem_nil, or_false, exists_eq_or_imp, exists_eq_left, Prod.mk.injEq]
    constructor
    · rintro (⟨rfl, rfl⟩ | ⟨rfl, rfl⟩) <;> simp
    · rintro (⟨rfl, rfl⟩ | ⟨rfl, rfl⟩ | ⟨rfl, rfl⟩ | ⟨rfl, rfl⟩) <;> simp_all

/-! ## What is shown -/

private theorem forall_mapM {α β : Type} {f : α → Option β} {l : List α} {out : List β} (h : l.mapM f = some out) : List.Forall₂ (fun x y => f x = some y) l out := by
  induction l generalizing out with
  | nil => cases h; exact .nil
  | cons x l ih =>
    rw [List.mapM_cons] at h
    cases hf : f x with
    | none => rw [hf] at h; cases h
    | some y =>
      cases hl : l.mapM f with
      | none => rw [hf, hl] at h; cases h
      | some ys =>
        rw [hf, hl] at h
        cases h
        exact .cons hf (ih hl)

/-- **C100.** In a diagram with attributes every item of a node stands in its place in the box, with what it shows. -/
theorem C100_values (cls : String → Option String) (known : List String) (d : Doc) (ps : List (String × String)) (hp : d.parameters = some ps) (g : Diagram) (as : List (List (String × String)))
    (h : ofDocument cls known true d = some (g, as)) :
    List.Forall₂ (fun e is => List.Forall₂ (fun i a => a.1 = i.1 ∧ Shows cls ps i.2 a.2) e.items is) (d.nodes.filter fun e => decide (e.type ∉ hidden)) as := by
  obtain ⟨bs, hb, h⟩ := Option.bind_eq_some_iff.1 h
  obtain ⟨ls, -, h⟩ := Option.map_eq_some_iff.1 h
  cases h
  have hfil : (d.nodes.filter fun e => !hidden.contains e.type) = d.nodes.filter fun e => decide (e.type ∉ hidden) :=
    List.filter_congr fun e _ => by simp
  rw [hfil] at hb
  rw [List.forall₂_map_right_iff]
  refine (forall_mapM hb).imp fun e b hf => ?_
  unfold box at hf
  split at hf
  · rw [if_pos rfl] at hf
    obtain ⟨is, hi, rfl⟩ := Option.map_eq_some_iff.1 hf
    refine (forall_mapM hi).imp fun i a ha => ?_
    obtain ⟨v, hv, rfl⟩ := Option.map_eq_some_iff.1 ha
    refine ⟨rfl, ?_⟩
    rw [hp] at hv
    cases hx : i.2 with
    | text s =>
      rw [hx] at hv
      simp only [shown] at hv
      cases hl : ps.lookup s with
      | none =>
        rw [hl] at hv
        cases hv
        exact .text _ fun q hq e => by
          have := List.lookup_eq_none_iff.1 hl q hq
          simp [e] at this
      | some t =>
        rw [hl] at hv
        obtain ⟨c, hc, rfl⟩ := Option.map_eq_some_iff.1 hv
        obtain ⟨l1, l2, e', hne⟩ := List.lookup_eq_some_iff.1 hl
        exact .named s t c ⟨l1, l2, e', fun q hq e => by have := hne q hq; simp [e] at this⟩ hc
    | plain s => rw [hx] at hv; cases hv; exact .plain _
    | list xs => rw [hx] at hv; cases hv
    | object t =>
      cases t with
      | none => rw [hx] at hv; cases hv; exact .object
      | some t => rw [hx] at hv; exact .described t v hv
  · cases hf

/-! ## What does not hold -/

/-- Rolling and monthly virtual storages are shown as boxes in the diagram of a document, not in that of the model. -/
theorem C100_virtual_fails :
    (ofDocument classes types false ⟨[⟨"A", "catchment", []⟩, ⟨"B", "output", []⟩, ⟨"Licence", "rollingvirtualstorage", []⟩], [("A", "B")], none⟩).map Prod.fst = some ⟨["A", "B", "Licence"], [(0, 1)]⟩ ∧
    ofModel ⟨[⟨"A", none, false⟩, ⟨"B", none, false⟩, ⟨"Licence", none, true⟩], [(⟨"A", none, false⟩, ⟨"B", none, false⟩)]⟩ = some ⟨["A", "B"], [(0, 1)]⟩ ∧
    "rollingvirtualstorage" ∈ virtualTypes ∧ "monthlyvirtualstorage" ∈ virtualTypes ∧ "rollingvirtualstorage" ∉ hidden ∧ "monthlyvirtualstorage" ∉ hidden := by
  decide +kernel

/-- Asking for the attributes raises an exception for a document with a list, such as the costs of a piecewise link, and for one without parameters. -/
theorem C100_attributes_fails (known : List String) (cls : String → Option String) (e : Entry) (ht : e.type ∉ hidden) (hk : e.type ∈ known) (parameters : Option (List (String × String)))
    (h : (∃ i ∈ e.items, ∃ xs, i.2 = .list xs) ∨ (parameters = none ∧ ∃ i ∈ e.items, ∃ s, i.2 = .text s)) :
    (ofDocument cls known false ⟨[e], [], parameters⟩).isSome = true ∧ ofDocument cls known true ⟨[e], [], parameters⟩ = none := by
  have hh : hidden.contains e.type = false := by simpa using ht
  have hnone : ∃ i ∈ e.items, shown cls parameters i.2 = none := by
    rcases h with ⟨i, hi, xs, hx⟩ | ⟨rfl, i, hi, s, hx⟩
    · refine ⟨i, hi, ?_⟩
      rw [hx]; cases parameters <;> rfl
    · exact ⟨i, hi, by rw [hx]; rfl⟩
  have hm : e.items.mapM (fun i => (shown cls parameters i.2).map fun v => (i.1, v)) = none := by
    obtain ⟨i, hi, hs⟩ := hnone
    rw [← Option.isNone_iff_eq_none, ← Option.not_isSome, Bool.not_eq_true', ← Bool.not_eq_true, mapM_isSome]
    intro h
    have := h i hi
    rw [hs] at this
    cases this
  constructor
  · simp only [ofDocument, List.filter_cons, hh, Bool.not_false, if_true, List.filter_nil]
    simp [box, hk]
  · simp only [ofDocument, List.filter_cons, hh, Bool.not_false, if_true, List.filter_nil]
    simp [box, hk, hm]

end Verif.Schematic

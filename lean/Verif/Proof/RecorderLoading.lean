import Verif.Proof.ParameterLoading
import Verif.Spec.RecorderLoading
/-!
# Lemmas: recorders in a document
-/

namespace Verif.RecorderLoading
open Verif.ParameterLoading

theorem agrees_congr {c c' : Class} {t : Table} (h1 : c.steps = c'.steps) (h2 : c.args = c'.args) (h : Agrees c t) : Agrees c' t := by
  obtain ⟨s, a, e, b⟩ := c
  obtain ⟨s', a', e', b'⟩ := c'
  simp only at h1 h2
  subst h1 h2
  exact ⟨h.keys, h.alts, h.table, h.targets, h.own, h.known, h.unknown, h.argsNodup⟩

theorem plain_congr {c c' : Class} (h1 : c.steps = c'.steps) (h2 : c.args = c'.args) (h : Plain c) : Plain c' := by
  unfold Plain at *
  rw [← h1, ← h2]
  exact h

theorem recorded_agrees_closed {c : Class} {t : Table} (h : Recorded "" c t) : Agrees c t ∧ Plain c := by
  cases h <;> exact ⟨⟨by decide +kernel, by decide +kernel, by decide +kernel, by decide +kernel, by decide +kernel, by decide +kernel, by decide +kernel, by decide +kernel⟩,
    by unfold Plain; decide +kernel⟩

theorem recorded_agrees {cls : String} {c : Class} {t : Table} (h : Recorded cls c t) : Agrees c t ∧ Plain c := by
  have key : ∃ c₀, Recorded "" c₀ t ∧ c₀.steps = c.steps ∧ c₀.args = c.args := by
    cases h
    · exact ⟨_, .node, rfl, rfl⟩
    · exact ⟨_, .numpyNode, rfl, rfl⟩
    · exact ⟨_, .totalFlow, rfl, rfl⟩
    · exact ⟨_, .fdc, rfl, rfl⟩
    · exact ⟨_, .seasonal, rfl, rfl⟩
    · exact ⟨_, .comparison, rfl, rfl⟩
    · exact ⟨_, .threshold, rfl, rfl⟩
    · exact ⟨_, .hydropower, rfl, rfl⟩
    · exact ⟨_, .energy, rfl, rfl⟩
    · exact ⟨_, .levelOrArea, rfl, rfl⟩
    · exact ⟨_, .numpyStorage, rfl, rfl⟩
    · exact ⟨_, .normalised, rfl, rfl⟩
    · exact ⟨_, .sdc, rfl, rfl⟩
    · exact ⟨_, .minimumThreshold, rfl, rfl⟩
    · exact ⟨_, .kde, rfl, rfl⟩
    · exact ⟨_, .normalisedKde, rfl, rfl⟩
    · exact ⟨_, .indexParameter, rfl, rfl⟩
    · exact ⟨_, .numpyIndex, rfl, rfl⟩
    · exact ⟨_, .rollingWindow, rfl, rfl⟩
    · exact ⟨_, .timestepCount, rfl, rfl⟩
    · exact ⟨_, .annualCount, rfl, rfl⟩
    · exact ⟨_, .annualThreshold, rfl, rfl⟩
    · exact ⟨_, .annualFlow, rfl, rfl⟩
    · exact ⟨_, .aggregated, rfl, rfl⟩
    · exact ⟨_, .event, rfl, rfl⟩
    · exact ⟨_, .eventDuration, rfl, rfl⟩
    · exact ⟨_, .eventStatistic, rfl, rfl⟩
  obtain ⟨c₀, h₀, h1, h2⟩ := key
  obtain ⟨hA, hP⟩ := recorded_agrees_closed h₀
  exact ⟨agrees_congr h1 h2 hA, plain_congr h1 h2 hP⟩

theorem ofParameter_agrees_closed {c : Class} (h : OfParameter "" c) : Agrees c aboutParameter ∧ Plain c := by
  cases h <;> exact ⟨⟨by decide +kernel, by decide +kernel, by decide +kernel, by decide +kernel, by decide +kernel, by decide +kernel, by decide +kernel, by decide +kernel⟩,
    by unfold Plain; decide +kernel⟩

theorem ofParameter_agrees {cls : String} {c : Class} (h : OfParameter cls c) : Agrees c aboutParameter ∧ Plain c := by
  have key : ∃ c₀, OfParameter "" c₀ ∧ c₀.steps = c.steps ∧ c₀.args = c.args := by
    cases h
    · exact ⟨_, .parameter, rfl, rfl⟩
    · exact ⟨_, .numpy, rfl, rfl⟩
    · exact ⟨_, .total, rfl, rfl⟩
    · exact ⟨_, .mean, rfl, rfl⟩
  obtain ⟨c₀, h₀, h1, h2⟩ := key
  obtain ⟨hA, hP⟩ := ofParameter_agrees_closed h₀
  exact ⟨agrees_congr h1 h2 hA, plain_congr h1 h2 hP⟩

theorem deviation_agrees {cls : String} : Agrees (deviation cls) aboutNode ∧ Plain (deviation cls) := by
  have h : Agrees (deviation "") aboutNode ∧ Plain (deviation "") :=
    ⟨⟨by decide +kernel, by decide +kernel, by decide +kernel, by decide +kernel, by decide +kernel, by decide +kernel, by decide +kernel, by decide +kernel⟩, by unfold Plain; decide +kernel⟩
  exact ⟨agrees_congr (c := deviation "") rfl rfl h.1, plain_congr (c := deviation "") rfl rfl h.2⟩

theorem rollingMean_agrees {cls : String} : Agrees (rollingMean cls) rollingTable ∧ Plain (rollingMean cls) := by
  have h : Agrees (rollingMean "") rollingTable ∧ Plain (rollingMean "") :=
    ⟨⟨by decide +kernel, by decide +kernel, by decide +kernel, by decide +kernel, by decide +kernel, by decide +kernel, by decide +kernel, by decide +kernel⟩, by unfold Plain; decide +kernel⟩
  exact ⟨agrees_congr (c := rollingMean "") rfl rfl h.1, plain_congr (c := rollingMean "") rfl rfl h.2⟩

theorem resolve_key {w : World} {t : Table} {doc kw : Kw} (h : resolve w t doc = some kw) {k : String} {v : Arg} (hk : (k, v) ∈ kw) : ∃ e ∈ doc, (t.entry e.1).map Prod.fst = some k := by
  obtain ⟨e, he, hb⟩ := forall₂_mem_right (mapM_forall₂.1 h) hk
  obtain ⟨m, hm, h'⟩ := Option.bind_eq_some_iff.1 hb
  obtain ⟨u, _, h'⟩ := Option.map_eq_some_iff.1 h'
  refine ⟨e, he, ?_⟩
  rw [hm]
  exact congrArg some (Prod.mk.inj h').1

theorem nodup_filter {doc : Kw} {p : String × Arg → Bool} (hn : (doc.map Prod.fst).Nodup) : ((doc.filter p).map Prod.fst).Nodup :=
  hn.sublist (List.filter_sublist.map _)

theorem nodup_leaveOut {doc : Kw} {k : String} (hn : (doc.map Prod.fst).Nodup) : ((leaveOut k doc).map Prod.fst).Nodup := nodup_filter hn

theorem kept_none {c : Class} {k : String} {kind : Kind} {doc : Kw} : Reader.kept ⟨c, [(k, kind)], none⟩ doc = leaveOut k doc := by
  unfold Reader.kept leaveOut
  congr 1
  funext e
  simp only [List.any_cons, List.any_nil, Bool.or_false, Bool.and_true]
  by_cases h : e.1 = k
  · simp [h]
  · have : (k == e.1) = false := by simpa using fun h' => h h'.symm
    rw [this]
    simp [h]

theorem leaveOut_of_lookup {k : String} {doc : Kw} (h : doc.lookup k = none) : leaveOut k doc = doc := by
  unfold leaveOut
  rw [List.filter_eq_self]
  intro e he
  rw [bne_iff_ne]
  rintro rfl
  obtain ⟨a, v⟩ := e
  rw [List.lookup_eq_none_iff] at h
  simpa using h _ he

theorem lookup_leaveOut {k : String} {doc : Kw} : (leaveOut k doc).lookup k = none := by
  rw [List.lookup_eq_none_iff]
  intro e he
  have := (List.mem_filter.1 he).2
  rw [bne_iff_ne] at this
  simpa using fun h => this h.symm

end Verif.RecorderLoading

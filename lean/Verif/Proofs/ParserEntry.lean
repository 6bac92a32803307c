import Verif.Proofs.Recognise
import Verif.Proofs.Grammar

/-!
Invariant of the parser: the entries of the result that matter to the grammar and to the metadata
(keyword, location, report time, time span) are those recognised from their text.
-/

set_option linter.unusedSectionVars false

namespace Metaf

variable [FloatSem]

open Spec

/-! ### Characters of a match -/

namespace Rx

/-- May a text that matches contain the character? -/
def mayContain (c : Char) : Rx → Bool
  | .eps => false
  | .set rs => inSet rs c
  | .seq a b => mayContain c a || mayContain c b
  | .alt a b => mayContain c a || mayContain c b
  | .star a => mayContain c a
  | .cap _ a => mayContain c a

theorem Match.mayContain {r : Rx} {w : Str} {cs : Caps} (h : r.Match w cs) {c : Char}
    (hc : c ∈ w) : r.mayContain c = true := by
  induction h with
  | eps => simp at hc
  | set hs =>
    simp only [List.mem_singleton] at hc
    subst hc
    exact hs
  | seq _ _ iha ihb =>
    simp only [Rx.mayContain, Bool.or_eq_true]
    rcases List.mem_append.mp hc with h | h
    · exact Or.inl (iha h)
    · exact Or.inr (ihb h)
  | altl _ ih => simp only [Rx.mayContain, Bool.or_eq_true]; exact Or.inl (ih hc)
  | altr _ ih => simp only [Rx.mayContain, Bool.or_eq_true]; exact Or.inr (ih hc)
  | starNil => simp at hc
  | starCons _ _ _ iha ihb =>
    rcases List.mem_append.mp hc with h | h
    · exact iha h
    · exact ihb h
  | cap _ ih => exact ih hc

end Rx

theorem regexMatch_none_of_char {r : Rx} {s : Str} {c : Char} (hr : r.mayContain c = false)
    (hc : c ∈ s) : regexMatch r s = none := by
  rw [Option.eq_none_iff_forall_not_mem]
  intro m hm
  have := (regexMatch_sound hm).mayContain hc
  rw [hr] at this
  exact absurd this (by simp)

/-! ### Texts rejected by the first four recognisers -/

/-- Neither keyword nor location, report time or trend. -/
def Rejected (s : Str) (p : ReportPart) : Prop :=
  KeywordGroup.parse s p = none ∧ LocationGroup.parse s p = none ∧
  ReportTimeGroup.parse s p = none ∧ TrendGroup.parse s p = none

theorem keyword_parse_mem {s : Str} {p : ReportPart} {k : KeywordGroup}
    (h : KeywordGroup.parse s p = some k) : ' ' ∉ s := by
  unfold KeywordGroup.parse at h
  repeat' (first | (simp at h; done) | (ite_cases h; try (rename_i hc; first | (rw [hc.2]; decide) | (rw [hc]; decide))))

theorem rejected_of_space {s : Str} {p : ReportPart} (h : ' ' ∈ s) : Rejected s p := by
  refine ⟨?_, ?_, ?_, ?_⟩
  · rw [Option.eq_none_iff_forall_not_mem]
    intro k hk
    exact keyword_parse_mem hk h
  · unfold LocationGroup.parse
    rw [regexMatch_none_of_char (c := ' ') (by decide) h]
    simp
  · unfold ReportTimeGroup.parse
    rw [regexMatch_none_of_char (c := ' ') (by decide) h]
    simp
  · have h1 : TrendGroup.fromTimeSpan s = none := by
      simp [TrendGroup.fromTimeSpan, regexMatch_none_of_char (r := TrendGroup.timeSpanRgx) (by decide) h]
    have h2 : TrendGroup.fromTimeSpanHHMM s = none := by
      simp [TrendGroup.fromTimeSpanHHMM, regexMatch_none_of_char (r := TrendGroup.timeSpanRgx) (by decide) h]
    have h3 : TrendGroup.fromFm s = none := by
      simp [TrendGroup.fromFm, regexMatch_none_of_char (r := TrendGroup.fmRgx) (by decide) h]
    have h4 : TrendGroup.fromTrendTime s = none := by
      simp [TrendGroup.fromTrendTime, regexMatch_none_of_char (r := TrendGroup.trendTimeRgx) (by decide) h]
    have ne : ∀ t : Str, ' ' ∉ t → s ≠ t := by
      intro t ht hst
      subst hst
      exact ht h
    simp only [TrendGroup.parse, h1, h2, h3, h4]
    simp only [ne c!"BECMG" (by decide), ne c!"TEMPO" (by decide), ne c!"INTER" (by decide),
      ne c!"PROB30" (by decide), ne c!"PROB40" (by decide), ne c!"NOSIG" (by decide), and_false,
      if_false]
    cases p <;> rfl

theorem recognise_keyword_none {s : Str} {p : ReportPart} {md : ReportMetadata}
    (h : recognise 0 s p md = .ok none) : KeywordGroup.parse s p = none := by
  simpa [recognise] using h

theorem rejected_of_recognise {s : Str} {p : ReportPart} {md : ReportMetadata}
    (h : ∀ i < 4, recognise i s p md = .ok none) : Rejected s p := by
  refine ⟨?_, ?_, ?_, ?_⟩
  · have := h 0 (by omega); simpa [recognise] using this
  · have := h 1 (by omega); simpa [recognise] using this
  · have := h 2 (by omega); simpa [recognise] using this
  · have := h 3 (by omega); simpa [recognise] using this

/-! ### Entries -/

/-- The invariant of an entry. -/
def EntryOk (gi : GroupInfo) : Prop :=
  match gi.group with
  | .keyword k => KeywordGroup.parse gi.rawString gi.reportPart = some k
  | .location l => LocationGroup.parse gi.rawString gi.reportPart = some l
  | .reportTime t => ReportTimeGroup.parse gi.rawString gi.reportPart = some t
  | .trend t => t.isTafTimeSpanGroup = true →
      t.isTimeSpanGroup = true ∧ TrendGroup.parse gi.rawString gi.reportPart = some t
  | _ => gi.rawString ≠ [] → Rejected gi.rawString gi.reportPart

theorem entryOk_other {gi : GroupInfo} (h : 4 ≤ gi.group.index) :
    EntryOk gi ↔ (gi.rawString ≠ [] → Rejected gi.rawString gi.reportPart) := by
  obtain ⟨g, p, s⟩ := gi
  cases g <;> first | exact Iff.rfl | (simp [Group.index] at h)

theorem elementOf_other {g : Group} (h : 4 ≤ g.index) : elementOf g = .other := by
  cases g <;> first | rfl | (simp [Group.index] at h)

namespace TrendGroup

theorem fromTimeSpan_flags {s : Str} {g : TrendGroup} (h : fromTimeSpan s = some g) :
    g.isTimeSpanGroup = true := by
  unfold fromTimeSpan at h
  split at h
  · simp at h
  · split at h
    · injection h with h; subst h; rfl
    · simp at h

theorem fromTimeSpanHHMM_flags {s : Str} {g : TrendGroup} (h : fromTimeSpanHHMM s = some g) :
    g.isTimeSpanGroup = true := by
  unfold fromTimeSpanHHMM at h
  split at h
  · simp at h
  · split at h
    · injection h with h; subst h; rfl
    · simp at h

theorem fromFm_flags {s : Str} {g : TrendGroup} (h : fromFm s = some g) :
    g.isTafTimeSpanGroup = false := by
  unfold fromFm at h
  split at h
  · simp at h
  · split at h
    · simp at h
    · injection h with h; subst h; rfl

theorem fromTrendTime_flags {s : Str} {g : TrendGroup} (h : fromTrendTime s = some g) :
    g.isTafTimeSpanGroup = false := by
  unfold fromTrendTime at h
  split at h
  · simp at h
  · split at h
    · simp at h
    · repeat' (first | (simp at h; done) | (ite_cases h; try (injection h with h; subst h; rfl)))

/-- A freshly parsed trend group is marked as a time span only if it is one. -/
theorem parse_flags {s : Str} {p : ReportPart} {g : TrendGroup} (h : parse s p = some g)
    (hf : g.isTafTimeSpanGroup = true) : g.isTimeSpanGroup = true := by
  unfold parse at h
  ite_cases h
  · injection h with h; subst h; simp at hf
  · injection h with h; subst h; simp at hf
  · injection h with h; subst h; simp at hf
  cases p with
  | UNKNOWN => simp at h
  | RMK => simp at h
  | HEADER => exact fromTimeSpan_flags h
  | METAR =>
    simp only at h
    ite_cases h
    · injection h with h; subst h; simp at hf
    split at h
    · rename_i g' hg'
      injection h with h; subst h
      rw [fromTrendTime_flags hg'] at hf
      simp at hf
    · exact fromTimeSpanHHMM_flags h
  | TAF =>
    simp only at h
    ite_cases h
    · injection h with h; subst h; simp at hf
    · injection h with h; subst h; simp at hf
    split at h
    · rename_i g' hg'
      injection h with h; subst h
      exact fromTimeSpan_flags hg'
    · split at h
      · rename_i g' hg'
        injection h with h; subst h
        rw [fromFm_flags hg'] at hf
        simp at hf
      · exact fromTimeSpan_flags h

/-- A time span is never extended, and no other trend group becomes one. -/
theorem append_flags {g g' : TrendGroup} {s : Str} {p : ReportPart} {r : AppendResult}
    (hg : g.isTafTimeSpanGroup = true → g.isTimeSpanGroup = true)
    (h : g.append s p = (g', r)) :
    (r = .NOT_APPENDED ∧ g' = g) ∨
    (r = .APPENDED ∧ g.isTafTimeSpanGroup = false ∧ g'.isTafTimeSpanGroup = false) := by
  have hspan : g.isTafTimeSpanGroup = true → g.t = .TIME_SPAN := by
    intro hf
    have := hg hf
    unfold isTimeSpanGroup at this
    split at this
    · simp at this
    · rename_i hc; simp only [not_or, ne_eq, Decidable.not_not] at hc; exact hc.1
  have hfalse : g.t ≠ .TIME_SPAN → g.isTafTimeSpanGroup = false := by
    intro hne
    cases hb : g.isTafTimeSpanGroup with
    | false => rfl
    | true => exact absurd (hspan hb) hne
  have hprob : g.isProbabilityGroup = true → g.t ≠ .TIME_SPAN := by
    intro hp hts
    unfold isProbabilityGroup at hp
    simp [hts] at hp
  unfold append at h
  split at h
  · simp only [Prod.mk.injEq] at h; exact Or.inl ⟨h.2.symm, h.1.symm⟩
  · split at h
    · simp only [Prod.mk.injEq] at h; exact Or.inl ⟨h.2.symm, h.1.symm⟩
    · split at h
      · rename_i x hx
        simp only [Prod.mk.injEq] at h
        obtain ⟨rfl, rfl⟩ := h
        right
        unfold combineProbAndTrendTypeGroups at hx
        split at hx
        · simp at hx
        · rename_i hp
          split at hx
          · simp at hx
          · split at hx
            · simp at hx
            · injection hx with hx; subst hx
              have := hfalse (hprob (by simpa using hp))
              exact ⟨rfl, this, this⟩
      · split at h
        · rename_i x hx
          simp only [Prod.mk.injEq] at h
          obtain ⟨rfl, rfl⟩ := h
          right
          unfold combineTrendTypeAndTimeGroup at hx
          split at hx
          · simp at hx
          · rename_i ht
            split at hx
            · simp at hx
            · split at hx
              · simp at hx
              · injection hx with hx; subst hx
                have := hfalse (by intro hts; simp [hts] at ht)
                exact ⟨rfl, this, this⟩
        · split at h
          · rename_i x hx
            simp only [Prod.mk.injEq] at h
            obtain ⟨rfl, rfl⟩ := h
            right
            unfold combineProbAndTimeSpanGroups at hx
            split at hx
            · simp at hx
            · rename_i hp
              split at hx
              · simp at hx
              · injection hx with hx; subst hx
                have := hfalse (hprob (by simpa using hp))
                exact ⟨rfl, this, this⟩
          · split at h
            · rename_i x hx
              simp only [Prod.mk.injEq] at h
              obtain ⟨rfl, rfl⟩ := h
              right
              unfold combineIncompleteGroups at hx
              split at hx
              · simp at hx
              · rename_i hc
                injection hx with hx; subst hx
                simp only [not_or, ne_eq, Decidable.not_not] at hc
                have := hfalse (by rw [hc.2.1]; simp)
                exact ⟨rfl, this, this⟩
            · simp only [Prod.mk.injEq] at h; exact Or.inl ⟨h.2.symm, h.1.symm⟩

theorem span_of_flag {g : TrendGroup} (h : g.isTafTimeSpanGroup = false) :
    g.isTimeSpanGroup = false := by simp [isTimeSpanGroup, h]

end TrendGroup

/-- A freshly parsed group makes a proper entry. -/
theorem entryOk_parse {s : Str} {p : ReportPart} {md : ReportMetadata} {g : Group}
    (h : GroupParser.parse s p md = .ok g) :
    EntryOk { group := g, reportPart := p, rawString := s } := by
  obtain ⟨h1, h2⟩ := GroupParser.parse_first h
  by_cases hi : 4 ≤ g.index
  · rw [entryOk_other hi]
    intro _
    exact rejected_of_recognise (md := md) (fun i hi' => h1 i (by omega))
  · cases g with
    | keyword k => simpa [recognise, Group.index, EntryOk] using h2
    | location k => simpa [recognise, Group.index, EntryOk] using h2
    | reportTime k => simpa [recognise, Group.index, EntryOk] using h2
    | trend k =>
      have h2 : TrendGroup.parse s p = some k := by
        simpa [recognise, Group.index, EntryOk] using h2
      exact fun hf => ⟨TrendGroup.parse_flags h2 hf, h2⟩
    | _ => simp [Group.index] at hi

/-- Effect of `append` on an entry: the kinds that matter are not touched, except for trends. -/
theorem entry_append {gi : GroupInfo} {tok : Str} {p : ReportPart} {md : ReportMetadata}
    {g : Group} {r : AppendResult} (h : EntryOk gi) (hi : gi.group.Inv)
    (ha : gi.group.append tok p md = .ok (g, r)) :
    elementOf g = elementOf gi.group ∧
    (r = .APPENDED → EntryOk { gi with group := g, rawString := gi.rawString ++ c!" " ++ tok }) ∧
    (r = .NOT_APPENDED → EntryOk { gi with group := g }) ∧
    (r = .GROUP_INVALIDATED → 4 ≤ gi.group.index ∧ g.index = gi.group.index) := by
  obtain ⟨q, hq, -, hidx⟩ := Group.append_ok hi tok p md
  rw [ha] at hq
  injection hq with hq
  subst hq
  simp only at hidx
  by_cases h4 : 4 ≤ gi.group.index
  · refine ⟨by rw [elementOf_other h4, elementOf_other (by omega)], fun _ => ?_, fun _ => ?_,
      fun _ => ⟨h4, hidx⟩⟩
    · rw [entryOk_other (by simp only; omega)]
      intro _
      exact rejected_of_space (by simp)
    · rw [entryOk_other (by simp only; omega)]
      exact (entryOk_other h4).mp h
  · obtain ⟨gg, pp, ss⟩ := gi
    simp only at h4 ha hidx
    cases gg with
    | keyword k =>
      simp only [Group.append, KeywordGroup.append, Except.ok.injEq, Prod.mk.injEq] at ha
      obtain ⟨rfl, rfl⟩ := ha
      exact ⟨rfl, by simp, fun _ => h, by simp⟩
    | location k =>
      simp only [Group.append, LocationGroup.append, Except.ok.injEq, Prod.mk.injEq] at ha
      obtain ⟨rfl, rfl⟩ := ha
      exact ⟨rfl, by simp, fun _ => h, by simp⟩
    | reportTime k =>
      simp only [Group.append, ReportTimeGroup.append, Except.ok.injEq, Prod.mk.injEq] at ha
      obtain ⟨rfl, rfl⟩ := ha
      exact ⟨rfl, by simp, fun _ => h, by simp⟩
    | trend k =>
      simp only [Group.append, Except.ok.injEq, Prod.mk.injEq] at ha
      obtain ⟨rfl, rfl⟩ := ha
      rcases TrendGroup.append_flags (g := k) (s := tok) (p := p) (g' := (k.append tok p).1)
        (r := (k.append tok p).2) (fun hf => (h hf).1) (Prod.ext rfl rfl) with ⟨h1, h2⟩ | ⟨h1, h2, h3⟩
      · rw [h1, h2]
        exact ⟨rfl, by simp, fun _ => h, by simp⟩
      · rw [h1]
        refine ⟨?_, fun _ => ?_, by simp, by simp⟩
        · simp only [elementOf, TrendGroup.span_of_flag h2, TrendGroup.span_of_flag h3]
        · intro hf
          rw [h3] at hf
          simp at hf
    | _ => simp [Group.index] at h4

theorem reparse_other {gi : GroupInfo} {md : ReportMetadata} {g rp : Group} (h : EntryOk gi)
    (hg : 4 ≤ gi.group.index) (hs : gi.rawString ≠ [])
    (hr : GroupParser.reparse gi.rawString gi.reportPart md g = .ok rp) : 4 ≤ rp.index := by
  obtain ⟨h1, h2, h3, h4⟩ := (entryOk_other hg).mp h hs
  obtain ⟨-, h5 | h5⟩ := GroupParser.reparse_first hr
  · by_contra hlt
    have h5 := h5.1
    cases rp with
    | keyword k => simp [recognise, Group.index, h1] at h5
    | location k => simp [recognise, Group.index, h2] at h5
    | reportTime k => simp [recognise, Group.index, h3] at h5
    | trend k => simp [recognise, Group.index, h4] at h5
    | _ => simp [Group.index] at hlt
  · subst h5; decide

end Metaf

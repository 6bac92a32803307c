import Verif.Spec.Keyword
import Verif.Proofs.ParserParts
import Verif.Proofs.ParserWords

/-!
Keywords become entries of their own.
-/

set_option linter.unusedSectionVars false

namespace Metaf

variable [FloatSem]

open Spec Grammar

theorem keyword_parse_iff {s : Str} {p : ReportPart} {k : KeywordType} :
    KeywordGroup.parse s p = some ⟨k⟩ ↔ IsKeyword p s k := by
  constructor
  · intro h
    unfold KeywordGroup.parse at h
    ite_cases h
    all_goals first
      | (simp at h; done)
      | (rename_i hc
         injection h with h; injection h with h; subst h
         first
          | (obtain ⟨hp, rfl⟩ := hc
             first
              | subst hp
              | (rcases hp with rfl | rfl)
              | (rcases hp with rfl | rfl | rfl)
             all_goals exact ⟨_, by simp [keywords]; rfl, by simp⟩)
          | (subst hc
             exact ⟨[.UNKNOWN, .HEADER, .METAR, .TAF, .RMK], by simp [keywords], by cases p <;> simp⟩))
  · rintro ⟨ps, hm, hp⟩
    simp only [keywords, List.mem_cons, Prod.mk.injEq, List.not_mem_nil, or_false] at hm
    rcases hm with h | h | h | h | h | h | h | h | h | h | h | h | h | h | h | h <;>
      obtain ⟨rfl, rfl, rfl⟩ := h <;> simp only [List.mem_cons, List.not_mem_nil, or_false] at hp
    all_goals first
      | (subst hp; rfl)
      | (rcases hp with rfl | rfl <;> rfl)
      | (rcases hp with rfl | rfl | rfl <;> rfl)
      | (cases p <;> rfl)

theorem isKeyword_inert {s : Str} {p : ReportPart} {k : KeywordType} (h : IsKeyword p s k) :
    s ∈ inertTexts := by
  obtain ⟨ps, hm, -⟩ := h
  simp only [keywords, List.mem_cons, Prod.mk.injEq, List.not_mem_nil, or_false] at hm
  rcases hm with h | h | h | h | h | h | h | h | h | h | h | h | h | h | h | h <;>
    obtain ⟨rfl, rfl, rfl⟩ := h <;> simp [inertTexts]

/-- A keyword is read as keyword. -/
theorem parse_keyword {s : Str} {p : ReportPart} {k : KeywordType} (h : IsKeyword p s k)
    {md : ReportMetadata} {g : Group} (hp : GroupParser.parse s p md = .ok g) :
    g = .keyword ⟨k⟩ := by
  have hk := keyword_parse_iff.mpr h
  obtain ⟨h1, h2⟩ := GroupParser.parse_first hp
  have hr : recognise 0 s p md = .ok (some (.keyword ⟨k⟩)) := by simp [recognise, hk]
  have h0 : g.index = 0 := by
    by_contra hne
    have := h1 0 (by omega)
    rw [hr] at this
    simp at this
  rw [h0, hr] at h2
  rcases h2 with h2 | h2
  · simpa using h2.symm
  · subst h2
    simp [Group.index] at h0

/-- A keyword among the words of an entry is the whole entry. -/
def KeyOk (gi : GroupInfo) : Prop :=
  ∀ w ∈ words gi.rawString, ∀ k, IsKeyword gi.reportPart w k →
    gi.group = .keyword ⟨k⟩ ∧ gi.rawString = w

namespace Parser

def EntriesKey (gs : List GroupInfo) : Prop := ∀ gi ∈ gs, KeyOk gi

theorem entriesKey_addGroup {gs : List GroupInfo} {g : Group} {p : ReportPart} {s : Str}
    (h : EntriesKey gs) (hp : PartsOk ((elementOf g, p) :: kinds gs))
    (hg : KeyOk { group := g, reportPart := p, rawString := s }) :
    EntriesKey (addGroupToResult gs g p s) := by
  cases gs with
  | nil => intro x hx; simp only [addGroupToResult, List.mem_singleton] at hx; subst hx; exact hg
  | cons last rest =>
    simp only [addGroupToResult]
    split
    · rename_i hb
      simp only [Bool.and_eq_true] at hb
      have hlast := h last (by simp)
      intro x hx
      rcases List.mem_cons.mp hx with rfl | hx
      · have hpp : p = last.reportPart := by
          simp only [kinds, List.map_cons, fallback_other hb.1, fallback_other hb.2] at hp
          exact nextPart_other_iff (partsOk_two hp)
        intro w hw k hk
        have hws : last.rawString ++ c!" " ++ s = last.rawString ++ ' ' :: s := by simp
        simp only [hws, words_append] at hw
        rcases List.mem_append.mp hw with hw | hw
        · have := (hlast w hw k hk).1
          rw [this] at hb
          simp [Group.isFallback] at hb
        · have := (hg w hw k (by rw [hpp]; exact hk)).1
          simp only at this
          rw [this] at hb
          simp [Group.isFallback] at hb
      · exact h x (by simp [hx])
    · intro x hx
      rcases List.mem_cons.mp hx with rfl | hx
      · exact hg
      · exact h x hx

theorem keyword_append {k : KeywordType} {tok : Str} {p : ReportPart} {md : ReportMetadata}
    {g : Group} {r : AppendResult}
    (h : (Group.keyword ⟨k⟩).append tok p md = .ok (g, r)) : g = .keyword ⟨k⟩ ∧ r = .NOT_APPENDED := by
  simp only [Group.append, KeywordGroup.append, Except.ok.injEq, Prod.mk.injEq] at h
  exact ⟨h.1.symm, h.2.symm⟩

theorem Appended.keys {tok : Str} {p : ReportPart} {md : ReportMetadata}
    {gs gs' : List GroupInfo} {b : Bool} (h : Appended tok p md gs gs' b) (ht : Tok tok ∨ tok = [])
    (hi : GroupsInv gs) (he : EntriesOk gs) (hh : HeadText gs) (hpo : PartsOk (kinds gs))
    (hm : EntriesKey gs) : EntriesKey gs' := by
  have keep : ∀ {x last : GroupInfo} {rest : List GroupInfo}, EntriesKey (last :: rest) →
      KeyOk x → EntriesKey (x :: rest) := by
    intro x last rest hl hx y hy
    rcases List.mem_cons.mp hy with rfl | hy
    · exact hx
    · exact hl y (by simp [hy])
  have hw : ∀ w ∈ words tok, w = tok := by
    rcases ht with ht | rfl
    · rw [ht.words]; simp
    · simp [words, wordsAux]
  have no : ∀ {last : GroupInfo} {g : Group} {r : AppendResult}, KeyOk last →
      last.group.append tok p md = .ok (g, r) → r ≠ .NOT_APPENDED →
      ∀ w ∈ words last.rawString, ∀ k, ¬ IsKeyword last.reportPart w k := by
    intro last g r hl ha hr w hw k hk
    rw [(hl w hw k hk).1] at ha
    exact hr (keyword_append ha).2
  have ext : ∀ {s : Str} {q : ReportPart}, (∀ w ∈ words s, ∀ k, ¬ IsKeyword q w k) →
      tok ∉ inertTexts →
      ∀ g, KeyOk { group := g, reportPart := q, rawString := s ++ c!" " ++ tok } := by
    intro s q hs hn g w hwm k hk
    have : s ++ c!" " ++ tok = s ++ ' ' :: tok := by simp
    simp only [this, words_append] at hwm
    rcases List.mem_append.mp hwm with h | h
    · exact absurd hk (hs w h k)
    · rw [hw w h] at hk
      exact absurd (isKeyword_inert hk) hn
  have same : ∀ {g g' : Group} {r : AppendResult}, g.isFallback = false → tok ∈ inertTexts →
      g.append tok p md = .ok (g', r) → r ≠ .APPENDED := fun hf hi ha =>
    Group.append_inert hf hi p md ha
  have sub : ∀ {s : Str} {q : ReportPart} (g : Group), (∀ w ∈ words s, ∀ k, ¬ IsKeyword q w k) →
      KeyOk { group := g, reportPart := q, rawString := s } := by
    intro s q g hs w hw k hk
    exact absurd hk (hs w hw k)
  cases h with
  | empty => exact hm
  | fallback => exact hm
  | @appended last rest g hf ha =>
    exact keep hm (ext (no (hm last (by simp)) ha (by simp)) (fun hi => same hf hi ha rfl) g)
  | @rejected last rest g hf ha =>
    refine keep hm ?_
    intro w hw k hk
    obtain ⟨h1, h2⟩ := hm last (by simp) w hw k hk
    rw [h1] at ha
    exact ⟨(keyword_append ha).1, h2⟩
  | @unknown last rest g rp hf ha hr hfb =>
    refine entriesKey_addGroup (fun x hx => hm x (by simp [hx])) ?_
      (sub _ (no (hm last (by simp)) ha (by simp)))
    have h4 := ((entry_append (he last (by simp)) (hi last (by simp)) ha).2.2.2 rfl).1
    rw [fallback_other hfb]
    have hk : kinds (last :: rest) = (.other, last.reportPart) :: kinds rest := by
      simp [kinds, elementOf_other h4]
    rw [← hk]
    exact hpo
  | @reAppended last rest g rp g2 hf ha hr hfb ha2 =>
    exact keep hm (ext (no (hm last (by simp)) ha (by simp)) (fun hi => same hfb hi ha2 rfl) g2)
  | @reRejected last rest g rp g2 hf ha hr hfb ha2 =>
    exact keep hm (sub _ (no (hm last (by simp)) ha (by simp)))
  | @reInvalidated last rest g rp g2 hf ha hr hfb ha2 =>
    intro x hx
    rcases List.mem_cons.mp hx with rfl | hx
    · exact sub _ (no (hm last (by simp)) ha (by simp))
    · refine keep hm ?_ x hx
      intro w hw
      simp [words, wordsAux] at hw

theorem Run.put {limit : Nat} {done : List Str} {v : Vars} (hr : Run limit done v)
    (he : v.status.isError = false) {tok : Str} {gs : List GroupInfo} {g : Group} {b : Bool}
    (ha : Appended tok v.status.getReportPart v.md v.groups gs b)
    (p : ReportPart) (hp : p = v.status.getReportPart ∨ (p = .METAR ∧ v.status.state = .TIME_SPAN)) :
    PartsOk ((elementOf g, p) :: kinds gs) := by
  have hnone : v.status.reportError = .NONE := by simpa [Status.isError] using he
  have ih := hr.parts
  have hs := (ha.syntax hr.inv hr.entriesOk hr.headText).2
  have h1 := ih.1.stutter hs
  have h2 := (ih.2.stutter ih.1 hs) hnone
  revert h1 h2
  cases kinds gs with
  | nil =>
    intro h1 h2
    have h2 : v.status.state = .REPORT_TYPE_OR_LOCATION := h2.2
    rcases hp with rfl | ⟨rfl, hp⟩
    · rw [Status.getReportPart, h2]
      exact .first
    · rw [h2] at hp; simp at hp
  | cons k r =>
    obtain ⟨e, q⟩ := k
    intro h1 h2
    have h2 := h2.2
    refine .next h1 ?_
    rcases hp with rfl | ⟨rfl, hp⟩
    · exact h2.1
    · obtain ⟨rfl, rfl⟩ := h2.2 hp
      simp [NextPart]

theorem Run.keys {limit : Nat} {done : List Str} {v : Vars} (h : Run limit done v) :
    EntriesKey v.groups := by
  induction h with
  | start => intro x hx; simp at hx
  | @step _ tok v v' hr he ht _ hst ih =>
    have hone : ∀ {g p}, GroupParser.parse tok p v.md = .ok g →
        KeyOk { group := g, reportPart := p, rawString := tok } := by
      intro g p hp w hw k hk
      simp only [ht.words, List.mem_singleton] at hw
      subst hw
      exact ⟨parse_keyword hk hp, rfl⟩
    have app : ∀ {gs b}, Appended tok v.status.getReportPart v.md v.groups gs b → EntriesKey gs :=
      fun ha => ha.keys (Or.inl ht) hr.inv hr.entriesOk hr.headText hr.parts.1 ih
    cases hst with
    | absorbed ha => exact app ha
    | parsed ha hp =>
      exact entriesKey_addGroup (app ha) (hr.put he ha _ (Or.inl rfl)) (hone hp)
    | reparsed ha hs _ _ _ _ _ hp =>
      exact entriesKey_addGroup (app ha) (hr.put he ha _ (Or.inr ⟨rfl, hs⟩)) (hone hp)

theorem result_keys {report : Str} {limit : Nat} {r : ParseResult}
    (h : parse report limit = .ok r) : ∀ gi ∈ r.groups, KeyOk gi := by
  obtain ⟨v, done, gs, hr, -, -, ha, hinv, hp⟩ := parse_spec report limit
  rw [h] at hp
  injection hp with hp
  subst hp
  intro gi hgi
  simp only [List.mem_reverse] at hgi
  exact ha.keys (Or.inr rfl) hr.inv hr.entriesOk hr.headText hr.parts.1 hr.keys gi hgi

end Parser

end Metaf

import Verif.Proofs.ParserPlaces

/-!
The report type along a run of the parser.
-/

set_option linter.unusedSectionVars false

namespace Metaf

variable [FloatSem]

open Spec Grammar

namespace Parser

theorem limitStatus_type {limit count : Nat} {st : Status} :
    (limitStatus limit count st).reportType = st.reportType := by
  unfold limitStatus
  split <;> rfl

theorem delta_transition_type (st : Status) (e : Element) :
    (delta st e).reportType = (st.transition (syn e)).reportType := by
  obtain ⟨s, t, er⟩ := st
  cases s <;> cases t <;> cases e <;> trans_simp

/-- The type is always the one given by the elements. -/
theorem Run.type {limit : Nat} {done : List Str} {v : Vars} (h : Run limit done v) :
    v.status.reportType = (Grammar.verdict (els v.groups)).reportType := by
  cases h with
  | start => rfl
  | @step _ tok v v' hr he _ _ hst =>
    have hnone : v.status.reportError = .NONE := by simpa [Status.isError] using he
    have hv := hr.verdict (by rw [hnone]; simp)
    cases hst with
    | @absorbed gs ha =>
      have := verdict_stutter (ha.syntax hr.inv hr.entriesOk hr.headText).2
      rw [← els_eq, ← els_eq, hv] at this
      simp only [this, limitStatus_type]
    | @parsed gs g ha hp hginv hrep =>
      have := verdict_stutter (ha.syntax hr.inv hr.entriesOk hr.headText).2
      rw [← els_eq, ← els_eq, hv] at this
      simp only [limitStatus_type, verdict_addGroup, this, delta_transition_type, syn_elementOf]
    | @reparsed gs g0 g ha hstate htype hp0 hn1 hn2 hlt hp hginv =>
      have := verdict_stutter (ha.syntax hr.inv hr.entriesOk hr.headText).2
      rw [← els_eq, ← els_eq, hv] at this
      have hg1 : getSyntaxGroup g ≠ .TIME_SPAN := fun hs => hn1 (reparse_not_span hp0 hp hs)
      have hg2 : getSyntaxGroup g ≠ .NIL := fun hs => hn2 (reparse_not_nil hp0 hp hs)
      have ht := transition_second hstate htype hg1 hg2
      simp only [limitStatus_type, verdict_addGroup, this, delta_transition_type, syn_elementOf, ht]
      cases getSyntaxGroup g <;> rfl

theorem delta_type {st : Status} (h : StatusOk st) (ht : st.reportType ≠ .UNKNOWN) (e : Element) :
    (delta st e).reportType = st.reportType := by
  obtain ⟨s, t, er⟩ := st
  revert h ht
  cases s <;> cases t <;> cases e <;> trans_simp <;> simp [StatusOk]

theorem delta_closed {st : Status} (hs : st.state = .NIL ∨ st.state = .ERROR) (e : Element) :
    ((delta st e).state = .NIL ∨ (delta st e).state = .ERROR) ∧
    (delta st e).reportType = st.reportType := by
  obtain ⟨s, t, er⟩ := st
  simp only at hs
  rcases hs with rfl | rfl <;> trans_simp

theorem foldl_type {st : Status} (h : StatusOk st) (ht : st.reportType ≠ .UNKNOWN)
    (l : List Element) : (l.foldl delta st).reportType = st.reportType := by
  induction l generalizing st with
  | nil => rfl
  | cons e l ih =>
    have hd := delta_type h ht e
    rw [List.foldl_cons, ih (statusOk_delta e h) (by rw [hd]; exact ht), hd]

theorem foldl_closed {st : Status} (hs : st.state = .NIL ∨ st.state = .ERROR)
    (l : List Element) : (l.foldl delta st).reportType = st.reportType := by
  induction l generalizing st with
  | nil => rfl
  | cons e l ih =>
    have hd := delta_closed hs e
    rw [List.foldl_cons, ih hd.1, hd.2]

theorem verdict_type_of {l m : List Element} (h : (Grammar.verdict l).reportType ≠ .UNKNOWN) :
    (Grammar.verdict (l ++ m)).reportType = (Grammar.verdict l).reportType := by
  rw [verdict_app]
  exact foldl_type (statusOk_verdict l) h m

theorem verdict_type_closed {l m : List Element}
    (h : (Grammar.verdict l).state = .NIL ∨ (Grammar.verdict l).state = .ERROR) :
    (Grammar.verdict (l ++ m)).reportType = (Grammar.verdict l).reportType := by
  rw [verdict_app]
  exact foldl_closed h m

/-- The type of a report without type keyword. -/
theorem verdict_type_untyped (m : List Element) :
    (Grammar.verdict (.location :: m)).reportType =
      match m with
      | .time :: .span :: _ => .TAF
      | .time :: .nil :: _ => .UNKNOWN
      | .time :: _ :: _ => .METAR
      | _ => .UNKNOWN := by
  cases m with
  | nil => rfl
  | cons a m =>
    by_cases ha : a = .time
    · subst ha
      cases m with
      | nil => rfl
      | cons b m =>
        by_cases hb : b = .nil
        · subst hb
          exact verdict_type_closed (l := [.location, .time, .nil]) (Or.inl rfl)
        · have hne : (Grammar.verdict [.location, .time, b]).reportType ≠ .UNKNOWN := by
            revert hb
            cases b <;> decide
          have := verdict_type_of (m := m) hne
          simp only [List.cons_append, List.nil_append] at this
          rw [this]
          revert hb
          cases b <;> first | (intro h; exact absurd rfl h) | (intro _; rfl)
    · have hc : (Grammar.verdict [.location, a]).state = .NIL ∨
          (Grammar.verdict [.location, a]).state = .ERROR := by
        revert ha
        cases a <;> decide
      have := verdict_type_closed (m := m) hc
      simp only [List.cons_append, List.nil_append] at this
      rw [this]
      revert ha
      cases a <;> first | (intro h; exact absurd rfl h) | (intro _; rfl)

theorem verdict_type_metar (m : List Element) :
    (Grammar.verdict (.metar :: m)).reportType = .METAR :=
  verdict_type_of (l := [.metar]) (by decide)

theorem verdict_type_speci (m : List Element) :
    (Grammar.verdict (.speci :: m)).reportType = .METAR :=
  verdict_type_of (l := [.speci]) (by decide)

theorem verdict_type_taf (m : List Element) :
    (Grammar.verdict (.taf :: m)).reportType = .TAF :=
  verdict_type_of (l := [.taf]) (by decide)

/-- The first group of the report decides on the first element. -/
theorem Run.first {limit : Nat} {done : List Str} {v : Vars} (h : Run limit done v) :
    ∀ t rest, done = t :: rest → ∀ g, (∀ md, GroupParser.parse t .HEADER md = .ok g) →
      elementOf g ≠ .other → ∃ l, els v.groups = elementOf g :: l := by
  induction h with
  | start => intro t rest h; simp at h
  | @step done tok v v' hr he _ _ hst ih =>
    intro t rest hd g hg hne
    cases hr with
    | start =>
      have ht : tok = t := by simpa using (List.cons.inj hd).1
      subst ht
      cases hst with
      | absorbed ha => cases ha
      | @parsed gs g' ha hp hginv hrep =>
        have : g' = g := by
          have := hg ({} : Vars).md
          rw [show ReportPart.HEADER = ({} : Vars).status.getReportPart from rfl, hp] at this
          injection this
        subst this
        cases ha
        exact ⟨[], rfl⟩
      | @reparsed gs g0 g' ha hstate => simp at hstate
    | @step done0 tok0 v0 v1 hr0 he0 ht0 hs0 hst0 =>
      have hr := Run.step hr0 he0 ht0 hs0 hst0
      obtain ⟨rest', hrest⟩ : ∃ rest', done0 ++ [tok0] = t :: rest' := by
        cases done0 with
        | nil => simp only [List.nil_append, List.cons_append] at hd ⊢; exact ⟨[], by rw [(List.cons.inj hd).1]⟩
        | cons a d => simp only [List.cons_append] at hd ⊢; exact ⟨d ++ [tok0], by rw [(List.cons.inj hd).1]⟩
      obtain ⟨l, hl⟩ := ih t rest' hrest g hg hne
      have stut : ∀ {k k'}, Stutter k k' → (∃ l, (k.map Prod.fst).reverse = elementOf g :: l) →
          ∃ l, (k'.map Prod.fst).reverse = elementOf g :: l := by
        rintro k k' hs ⟨l, hl⟩
        cases hs with
        | same => exact ⟨l, hl⟩
        | @double p r =>
          simp only [List.map_cons, List.reverse_cons] at hl ⊢
          rw [hl]; exact ⟨_, rfl⟩
        | @merge p q r =>
          simp only [List.map_cons, List.reverse_cons] at hl ⊢
          cases hrr : (List.map Prod.fst r).reverse with
          | nil =>
            rw [hrr] at hl
            simp only [List.nil_append, List.cons_append, List.cons.injEq] at hl
            exact absurd hl.1.symm hne
          | cons a b =>
            rw [hrr] at hl
            simp only [List.cons_append, List.cons.injEq] at hl
            exact ⟨b ++ [.other], by rw [hl.1]; rfl⟩
      have add : ∀ {gs : List GroupInfo} {g' : Group} {p : ReportPart} {s : Str},
          (∃ l, els gs = elementOf g :: l) →
          ∃ l, els (addGroupToResult gs g' p s) = elementOf g :: l := by
        rintro gs g' p s ⟨l, hl⟩
        cases gs with
        | nil => simp [els] at hl
        | cons last r =>
          simp only [addGroupToResult]
          split
          · exact ⟨l, by simpa [els] using hl⟩
          · refine ⟨l ++ [elementOf g'], ?_⟩
            have : els ({ group := g', reportPart := p, rawString := s } :: last :: r) =
              els (last :: r) ++ [elementOf g'] := by simp [els]
            rw [this, hl]; rfl
      have app : ∀ {gs b}, Appended tok v.status.getReportPart v.md v.groups gs b →
          ∃ l, els gs = elementOf g :: l := by
        intro gs b ha
        have := stut (ha.syntax hr.inv hr.entriesOk hr.headText).2 ⟨l, by rw [← els_eq]; exact hl⟩
        rw [← els_eq] at this
        exact this
      cases hst with
      | absorbed ha => exact app ha
      | parsed ha => exact add (app ha)
      | reparsed ha => exact add (app ha)

end Parser

end Metaf

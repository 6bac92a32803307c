import Verif.Proofs.ParserLoop
import Verif.Proofs.NoFault

/-!
The processing of one group of the report as a relation, and induction over the groups.
-/

set_option linter.unusedSectionVars false

namespace Metaf

variable [FloatSem]

namespace Parser

/-- All groups stored so far are safe. -/
def GroupsInv (gs : List GroupInfo) : Prop := ∀ gi ∈ gs, gi.group.Inv

/-- What `appendToLastResultGroup` can do with the groups so far (latest first). -/
inductive Appended (tok : Str) (part : ReportPart) (md : ReportMetadata) :
    List GroupInfo → List GroupInfo → Bool → Prop
  /-- There is no group yet. -/
  | empty : Appended tok part md [] [] false
  /-- The last group is unknown. -/
  | fallback {last rest} : last.group.isFallback = true →
      Appended tok part md (last :: rest) (last :: rest) false
  /-- The last group absorbs the text. -/
  | appended {last rest g} : last.group.isFallback = false →
      last.group.append tok part md = .ok (g, .APPENDED) →
      Appended tok part md (last :: rest)
        ({ last with group := g, rawString := last.rawString ++ c!" " ++ tok } :: rest) true
  /-- The last group does not absorb the text. -/
  | rejected {last rest g} : last.group.isFallback = false →
      last.group.append tok part md = .ok (g, .NOT_APPENDED) →
      Appended tok part md (last :: rest) ({ last with group := g } :: rest) false
  /-- The last group becomes unknown. -/
  | unknown {last rest g rp} : last.group.isFallback = false →
      last.group.append tok part md = .ok (g, .GROUP_INVALIDATED) →
      GroupParser.reparse last.rawString last.reportPart md g = .ok rp → rp.isFallback = true →
      Appended tok part md (last :: rest)
        (addGroupToResult rest rp last.reportPart last.rawString) false
  /-- The last group is parsed again differently and absorbs the text. -/
  | reAppended {last rest g rp g2} : last.group.isFallback = false →
      last.group.append tok part md = .ok (g, .GROUP_INVALIDATED) →
      GroupParser.reparse last.rawString last.reportPart md g = .ok rp → rp.isFallback = false →
      rp.append tok part md = .ok (g2, .APPENDED) →
      Appended tok part md (last :: rest)
        ({ group := g2, reportPart := last.reportPart,
           rawString := last.rawString ++ c!" " ++ tok } :: rest) true
  /-- The last group is parsed again differently and does not absorb the text. -/
  | reRejected {last rest g rp g2} : last.group.isFallback = false →
      last.group.append tok part md = .ok (g, .GROUP_INVALIDATED) →
      GroupParser.reparse last.rawString last.reportPart md g = .ok rp → rp.isFallback = false →
      rp.append tok part md = .ok (g2, .NOT_APPENDED) →
      Appended tok part md (last :: rest)
        ({ group := g2, reportPart := last.reportPart, rawString := last.rawString } :: rest) false
  /-- The last group is parsed again differently, and this second reading is invalid, too: it stays
  in the result without text, followed by an unknown group. -/
  | reInvalidated {last rest g rp g2} : last.group.isFallback = false →
      last.group.append tok part md = .ok (g, .GROUP_INVALIDATED) →
      GroupParser.reparse last.rawString last.reportPart md g = .ok rp → rp.isFallback = false →
      rp.append tok part md = .ok (g2, .GROUP_INVALIDATED) →
      Appended tok part md (last :: rest)
        ({ group := .unknown {}, reportPart := last.reportPart, rawString := last.rawString } ::
         { group := g2, reportPart := last.reportPart, rawString := [] } :: rest) false

theorem isFallback_iff {g : Group} : g.isFallback = true ↔ g.index = 21 := by
  cases g <;> simp [Group.isFallback, Group.index]

theorem isFallback_of_index {g g' : Group} (h : g.index = g'.index) :
    g.isFallback = g'.isFallback := by
  have h1 := isFallback_iff (g := g)
  have h2 := isFallback_iff (g := g')
  rw [h] at h1
  rw [Bool.eq_iff_iff, h1, h2]

theorem addGroup_not_fallback {gs : List GroupInfo} {g : Group} {p : ReportPart} {s : Str}
    (h : g.isFallback = false) :
    addGroupToResult gs g p s = { group := g, reportPart := p, rawString := s } :: gs := by
  cases gs <;> simp [addGroupToResult, h]

theorem addGroup_inv {gs : List GroupInfo} {g : Group} {p : ReportPart} {s : Str}
    (h : GroupsInv gs) (hg : g.Inv) : GroupsInv (addGroupToResult gs g p s) := by
  cases gs with
  | nil => intro x hx; simp only [addGroupToResult, List.mem_singleton] at hx; subst hx; exact hg
  | cons last rest =>
    simp only [addGroupToResult]
    split
    · intro x hx
      rcases List.mem_cons.mp hx with rfl | hx
      · exact h last (by simp)
      · exact h x (by simp [hx])
    · intro x hx
      rcases List.mem_cons.mp hx with rfl | hx
      · exact hg
      · exact h x hx

theorem append_cases {gs : List GroupInfo} (h : GroupsInv gs) (tok : Str) (part : ReportPart)
    (md : ReportMetadata) :
    ∃ gs' b, appendToLastResultGroup gs tok part md = .ok (gs', b) ∧
      Appended tok part md gs gs' b ∧ GroupsInv gs' := by
  cases gs with
  | nil => exact ⟨[], false, rfl, .empty, h⟩
  | cons last rest =>
    have hlast := h last (by simp)
    have hrest : GroupsInv rest := fun x hx => h x (by simp [hx])
    have hcons : ∀ x : GroupInfo, x.group.Inv → GroupsInv (x :: rest) := by
      intro x hx y hy
      rcases List.mem_cons.mp hy with rfl | hy
      · exact hx
      · exact hrest y hy
    simp only [appendToLastResultGroup]
    cases hf : last.group.isFallback with
    | true =>
      refine ⟨_, _, rfl, ?_, h⟩
      exact .fallback hf
    | false =>
      obtain ⟨⟨g, r⟩, ha, hinv, hidx⟩ := Group.append_ok hlast tok part md
      simp only [Bool.false_eq_true, if_false, ha]
      cases r with
      | APPENDED => exact ⟨_, _, rfl, .appended hf ha, hcons _ hinv⟩
      | NOT_APPENDED => exact ⟨_, _, rfl, .rejected hf ha, hcons _ hinv⟩
      | GROUP_INVALIDATED =>
        obtain ⟨rp, hrp, hrpinv⟩ := GroupParser.reparse_ok last.rawString last.reportPart md g
        simp only [hrp]
        cases hfb : rp.isFallback with
        | true =>
          exact ⟨_, _, rfl, .unknown hf ha hrp hfb, addGroup_inv hrest hrpinv⟩
        | false =>
          simp only [Bool.false_eq_true, if_false, addGroup_not_fallback hfb, appendNoReparse, hfb]
          obtain ⟨⟨g2, r2⟩, ha2, hinv2, hidx2⟩ := Group.append_ok hrpinv tok part md
          simp only [ha2]
          cases r2 with
          | APPENDED => exact ⟨_, _, rfl, .reAppended hf ha hrp hfb ha2, hcons _ hinv2⟩
          | NOT_APPENDED => exact ⟨_, _, rfl, .reRejected hf ha hrp hfb ha2, hcons _ hinv2⟩
          | GROUP_INVALIDATED =>
            have hg2 : g2.isFallback = false := by rw [isFallback_of_index hidx2]; exact hfb
            have : addGroupToResult
                ({ group := g2, reportPart := last.reportPart, rawString := [] } :: rest)
                (.unknown {}) last.reportPart last.rawString =
                { group := .unknown {}, reportPart := last.reportPart,
                  rawString := last.rawString } ::
                { group := g2, reportPart := last.reportPart, rawString := [] } :: rest := by
              simp [addGroupToResult, hg2]
            simp only [this]
            refine ⟨_, _, rfl, .reInvalidated hf ha hrp hfb ha2, ?_⟩
            intro x hx
            rcases List.mem_cons.mp hx with rfl | hx
            · exact trivial
            · exact hcons _ hinv2 x hx

/-- Status after counting a group. -/
def limitStatus (limit count : Nat) (st : Status) : Status :=
  if count ≥ limit then st.setError .REPORT_TOO_LARGE else st

/-- The status from which a group is parsed for the second time. -/
def repeatStatus (e : ReportError) : Status :=
  { state := .REPORT_BODY_BEGIN_METAR_REPEAT_PARSE, reportType := .METAR, reportError := e }

/-- The processing of one group of the report. -/
inductive Step (limit : Nat) (tok : Str) (v : Vars) : Vars → Prop
  /-- The group is absorbed by the last group of the result. -/
  | absorbed {gs} : Appended tok v.status.getReportPart v.md v.groups gs true →
      Step limit tok v
        { v with status := limitStatus limit (v.groupCount + 1) v.status,
                 groups := gs, groupCount := v.groupCount + 1 }
  /-- The group is parsed once. -/
  | parsed {gs g} : Appended tok v.status.getReportPart v.md v.groups gs false →
      GroupParser.parse tok v.status.getReportPart v.md = .ok g → g.Inv →
      ((v.status.transition (getSyntaxGroup g)).state = .REPORT_BODY_BEGIN_METAR_REPEAT_PARSE →
        v.groupCount + 1 ≥ limit) →
      Step limit tok v
        { status := limitStatus limit (v.groupCount + 1) (v.status.transition (getSyntaxGroup g)),
          md := updateMetadata g v.md,
          groups := addGroupToResult gs g v.status.getReportPart tok,
          groupCount := v.groupCount + 1 }
  /-- The group is parsed as a time span first and then, as it is none, as part of the body. -/
  | reparsed {gs g0 g} : Appended tok v.status.getReportPart v.md v.groups gs false →
      v.status.state = .TIME_SPAN → v.status.reportType = .UNKNOWN →
      GroupParser.parse tok .HEADER v.md = .ok g0 →
      getSyntaxGroup g0 ≠ .TIME_SPAN → getSyntaxGroup g0 ≠ .NIL →
      v.groupCount + 1 < limit →
      GroupParser.parse tok .METAR v.md = .ok g → g.Inv →
      Step limit tok v
        { status := limitStatus limit (v.groupCount + 2)
            ((repeatStatus v.status.reportError).transition (getSyntaxGroup g)),
          md := updateMetadata g v.md,
          groups := addGroupToResult gs g .METAR tok,
          groupCount := v.groupCount + 2 }

/-- Only the time span state of a report of unknown type leads to a second pass. -/
theorem transition_to_repeat {st : Status} {sg : SyntaxGroup}
    (h : (st.transition sg).state = .REPORT_BODY_BEGIN_METAR_REPEAT_PARSE) :
    st.state = .TIME_SPAN ∧ st.reportType = .UNKNOWN ∧ sg ≠ .TIME_SPAN ∧ sg ≠ .NIL ∧
      st.transition sg = (repeatStatus st.reportError) := by
  obtain ⟨s, t, e⟩ := st
  cases s <;> cases sg <;> cases t <;>
    simp_all [Status.transition, Status.transitionFromReportTypeOrLocation,
      Status.transitionFromCorrecton, Status.transitionFromReportTime,
      Status.transitionFromTimeSpan, Status.transitionFromReportBodyBeginMetar,
      Status.transitionFromReportBodyMetar, Status.transitionFromReportBodyBeginTaf,
      Status.transitionFromReportBodyTaf, Status.setState, Status.setError, Status.setReportType, repeatStatus]

theorem isError_eq (st : Status) : st.isError = true ↔ st.reportError ≠ .NONE := by
  simp [Status.isError]

/-- Processing a group of the report never fails and is described by `Step`. -/
theorem stepTok_spec {limit : Nat} {tok : Str} {v : Vars} (h : GroupsInv v.groups)
    (he : v.status.isError = false) :
    ∃ v', stepTok limit tok v = .ok v' ∧ Step limit tok v v' ∧ GroupsInv v'.groups := by
  obtain ⟨gs, b, ha, happ, hinv⟩ := append_cases h tok v.status.getReportPart v.md
  simp only [stepTok, step, ha]
  cases b with
  | true => exact ⟨_, rfl, .absorbed happ, hinv⟩
  | false =>
    obtain ⟨g, hg, hginv⟩ := GroupParser.parse_ok tok v.status.getReportPart v.md
    simp only [parseGroup, hg]
    by_cases hc : v.groupCount + 1 < limit ∧ (v.status.transition (getSyntaxGroup g)).state =
        .REPORT_BODY_BEGIN_METAR_REPEAT_PARSE
    · obtain ⟨hstate, htype, hn1, hn2, heq⟩ := transition_to_repeat hc.2
      have hpart : v.status.getReportPart = .HEADER := by simp [Status.getReportPart, hstate]
      have hlt : ¬ (v.groupCount + 1 ≥ limit) := by omega
      have hnone : v.status.reportError = .NONE := by simpa [Status.isError] using he
      have hst : (countGroup { v with status := v.status.transition (getSyntaxGroup g),
                                      groups := gs } limit) =
          { status := (repeatStatus v.status.reportError),
            md := v.md, groups := gs, groupCount := v.groupCount + 1 } := by
        simp only [countGroup, if_neg hlt, heq]
      simp only [hst]
      have hmet : (repeatStatus v.status.reportError).getReportPart = .METAR := rfl
      obtain ⟨g', hg', hginv'⟩ := GroupParser.parse_ok tok .METAR v.md
      have hnr : ∀ c, (limitStatus limit c
          (Status.transition (repeatStatus v.status.reportError)
            (getSyntaxGroup g'))).isReparseRequired = false := by
        intro c
        simp only [limitStatus]
        split
        · simp [Status.isReparseRequired, Status.setError]
        · simpa [Status.isReparseRequired] using transition_repeat (g := getSyntaxGroup g')
            (st := (repeatStatus v.status.reportError)) rfl
      have hnr' : (countGroup
          { status := (repeatStatus v.status.reportError).transition (getSyntaxGroup g'),
            md := v.md, groups := gs, groupCount := v.groupCount + 1 }
          limit).status.isReparseRequired = false := hnr (v.groupCount + 2)
      have hcond : ((repeatStatus v.status.reportError).isReparseRequired &&
          !(repeatStatus v.status.reportError).isError) = true := by
        simp [repeatStatus, Status.isReparseRequired, Status.isError, hnone]
      rw [if_pos hcond]
      simp only [hmet, hg', hnr', Bool.false_and, Bool.false_eq_true, if_false]
      rw [hpart] at hg
      have hstep := Step.reparsed (limit := limit) happ hstate htype hg hn1 hn2 hc.1 hg' hginv'
      exact ⟨_, rfl, hstep, addGroup_inv hinv hginv'⟩
    · have hnr : ((countGroup { v with status := v.status.transition (getSyntaxGroup g),
                                       groups := gs } limit).status.isReparseRequired) = false := by
        simp only [countGroup, Status.isReparseRequired]
        split
        · simp [Status.setError]
        · rename_i hlt
          simp only [not_and] at hc
          simpa using hc (by omega)
      simp only [hnr, Bool.false_and, Bool.false_eq_true, if_false]
      refine ⟨_, rfl, .parsed happ hg hginv ?_, addGroup_inv hinv hginv⟩
      intro hr
      by_contra hlt
      exact hc ⟨by omega, hr⟩

/-- A group text: not empty, without blanks and without the report end indicator. -/
def Tok (t : Str) : Prop := t ≠ [] ∧ ∀ c ∈ t, ¬ Spec.Blank c ∧ c ≠ '='

theorem tok_of_mem {s t : Str} (h : t ∈ tokens s) : Tok t := ⟨tokens_ne_nil h, tokens_chars h⟩

theorem foldTokens_induct {limit : Nat} {P : List Str → Vars → Prop}
    (hstep : ∀ done tok v v', P done v → GroupsInv v.groups → v.status.isError = false → Tok tok →
      Step limit tok v v' → P (done ++ [tok]) v') :
    ∀ (ts done0 : List Str) (v0 : Vars), (∀ t ∈ ts, Tok t) → P done0 v0 → GroupsInv v0.groups →
      ∃ v done, foldTokens limit ts v0 = .ok v ∧ P (done0 ++ done) v ∧ GroupsInv v.groups ∧
        done <+: ts ∧ (v.status.isError = true ∨ done = ts) := by
  intro ts
  induction ts with
  | nil => intro done0 v0 _ hP hI; exact ⟨v0, [], rfl, by simpa using hP, hI, by simp, Or.inr rfl⟩
  | cons t ts ih =>
    intro done0 v0 hts hP hI
    simp only [foldTokens]
    cases he : v0.status.isError with
    | true => exact ⟨v0, [], by simp, by simpa using hP, hI, by simp, Or.inl he⟩
    | false =>
      obtain ⟨v1, h1, hs, hI1⟩ := stepTok_spec (limit := limit) (tok := t) hI he
      simp only [Bool.false_eq_true, if_false, h1]
      obtain ⟨v, done, hf, hP', hI', hpre, hend⟩ := ih (done0 ++ [t]) v1
        (fun x hx => hts x (by simp [hx])) (hstep _ _ _ _ hP hI he (hts t (by simp)) hs) hI1
      refine ⟨v, t :: done, hf, by simpa using hP', hI', ?_, ?_⟩
      · exact (List.cons_prefix_cons).mpr ⟨rfl, hpre⟩
      · rcases hend with h | h
        · exact Or.inl h
        · right; rw [h]

end Parser

end Metaf

import Verif.Proofs.ParserText

/-!
Invariants of the parser about its status.
-/

set_option linter.unusedSectionVars false

namespace Metaf

variable [FloatSem]

namespace Parser

/-- Consistency of state, report type and error. -/
def StatusOk (st : Status) : Prop :=
  (st.state = .ERROR ↔ st.reportError ≠ .NONE) ∧
  st.reportError ≠ .EMPTY_REPORT ∧ st.reportError ≠ .UNEXPECTED_REPORT_END ∧
  match st.state with
  | .REPORT_TYPE_OR_LOCATION => st.reportType = .UNKNOWN
  | .CORRECTION | .LOCATION => st.reportType ≠ .UNKNOWN
  | .REPORT_TIME | .NIL | .ERROR => True
  | .TIME_SPAN => st.reportType ≠ .METAR
  | .REPORT_BODY_BEGIN_METAR | .REPORT_BODY_BEGIN_METAR_REPEAT_PARSE | .REPORT_BODY_METAR
  | .REMARK_METAR => st.reportType = .METAR
  | .REPORT_BODY_BEGIN_TAF | .REPORT_BODY_TAF | .REMARK_TAF | .CNL => st.reportType = .TAF

theorem statusOk_transition {st : Status} {sg : SyntaxGroup} (h : StatusOk st)
    (he : st.isError = false) : StatusOk (st.transition sg) := by
  obtain ⟨s, t, e⟩ := st
  have he' : e = .NONE := by simpa [Status.isError] using he
  subst he'
  cases s <;> cases sg <;> cases t <;>
    simp_all [StatusOk, Status.transition, Status.transitionFromReportTypeOrLocation,
      Status.transitionFromCorrecton, Status.transitionFromReportTime,
      Status.transitionFromTimeSpan, Status.transitionFromReportBodyBeginMetar,
      Status.transitionFromReportBodyMetar, Status.transitionFromReportBodyBeginTaf,
      Status.transitionFromReportBodyTaf, Status.setState, Status.setError, Status.setReportType]

theorem statusOk_limit {limit count : Nat} {st : Status} (h : StatusOk st) :
    StatusOk (limitStatus limit count st) := by
  unfold limitStatus
  split
  · simp [StatusOk, Status.setError]
  · exact h

theorem Run.statusOk {limit : Nat} {done : List Str} {v : Vars} (h : Run limit done v) :
    StatusOk v.status := by
  induction h with
  | start => simp [StatusOk]
  | @step _ _ v _ _ he _ _ hst ih =>
    cases hst with
    | absorbed => exact statusOk_limit ih
    | parsed => exact statusOk_limit (statusOk_transition ih he)
    | reparsed =>
      refine statusOk_limit (statusOk_transition ?_ ?_)
      · have : v.status.reportError = .NONE := by simpa [Status.isError] using he
        simp [StatusOk, repeatStatus, this]
      · simpa [repeatStatus, Status.isError] using he

theorem finalTransition_error {st : Status} (h : StatusOk st) :
    (st.finalTransition.reportError = st.reportError ∨
      st.reportError = .NONE ∧ (st.finalTransition.reportError = .EMPTY_REPORT ∨
        st.finalTransition.reportError = .UNEXPECTED_REPORT_END)) ∧
    st.finalTransition.reportType = st.reportType := by
  obtain ⟨s, t, e⟩ := st
  cases s <;> simp_all [StatusOk, Status.finalTransition, Status.setError]

end Parser

end Metaf

import Verif.Spec.Grammar
import Verif.Proofs.ParserStatus

/-!
The status automaton of the parser against the grammar of reports.
-/

set_option linter.unusedSectionVars false

namespace Metaf

variable [FloatSem]

open Spec

namespace Grammar

/-- The syntax group for an element. -/
def syn : Element → SyntaxGroup
  | .metar => .METAR | .speci => .SPECI | .taf => .TAF | .cor => .COR | .amd => .AMD
  | .location => .LOCATION | .time => .REPORT_TIME | .span => .TIME_SPAN | .nil => .NIL
  | .cnl => .CNL | .rmk => .RMK | .maintenance => .MAINTENANCE_INDICATOR | .other => .OTHER

theorem syn_elementOf (g : Group) : syn (elementOf g) = getSyntaxGroup g := by
  cases g with
  | keyword k => obtain ⟨t⟩ := k; cases t <;> rfl
  | trend t => simp only [elementOf, getSyntaxGroup]; split <;> rfl
  | _ => rfl

/-- One element, with the second pass for the first group of the body of an untyped report. -/
def delta (st : Status) (e : Element) : Status :=
  if (st.transition (syn e)).state = .REPORT_BODY_BEGIN_METAR_REPEAT_PARSE then
    (st.transition (syn e)).transition (syn e)
  else st.transition (syn e)

/-- The status after the elements. -/
def verdict (l : List Element) : Status := l.foldl delta {}

theorem verdict_append (l : List Element) (e : Element) :
    verdict (l ++ [e]) = delta (verdict l) e := by simp [verdict]

/-- What has been read in each state. -/
def Shape (st : Status) (l : List Element) : Prop :=
  match st.state with
  | .REPORT_TYPE_OR_LOCATION => l = [] ∧ st.reportType = .UNKNOWN
  | .CORRECTION => Mark st.reportType l ∧ l.length = 1 ∧ st.reportType ≠ .UNKNOWN
  | .LOCATION => Mark st.reportType l ∧ l.length = 2 ∧ st.reportType ≠ .UNKNOWN
  | .REPORT_TIME => Head st.reportType l
  | .TIME_SPAN => st.reportType ≠ .METAR ∧ ∃ d, Head st.reportType d ∧ l = d ++ [.time]
  | .REPORT_BODY_BEGIN_METAR => st.reportType = .METAR ∧ ∃ d, Head .METAR d ∧ l = d ++ [.time]
  | .REPORT_BODY_BEGIN_METAR_REPEAT_PARSE => False
  | .REPORT_BODY_METAR => st.reportType = .METAR ∧
      ∃ h e b, MetarStart h e ∧ (∀ x ∈ e :: b, InMetarBody x) ∧ l = h ++ e :: b
  | .REMARK_METAR => st.reportType = .METAR ∧
      ∃ h b r, MetarStart h (b.headD .rmk) ∧ (∀ x ∈ b, InMetarBody x) ∧ l = h ++ b ++ .rmk :: r
  | .REPORT_BODY_BEGIN_TAF => st.reportType = .TAF ∧ TafStart l
  | .REPORT_BODY_TAF => st.reportType = .TAF ∧
      ∃ h e b, TafStart h ∧ (∀ x ∈ e :: b, InTafBody x) ∧ l = h ++ e :: b
  | .REMARK_TAF => st.reportType = .TAF ∧
      ∃ h b r, TafStart h ∧ (∀ x ∈ b, InTafBody x) ∧ (∀ x ∈ r, InTafRemarks x) ∧
        l = h ++ b ++ .rmk :: r
  | .NIL => NilReport st.reportType l
  | .CNL => st.reportType = .TAF ∧ ∃ h, TafStart h ∧ l = h ++ [.cnl]
  | .ERROR => ∃ pre x post, l = pre ++ x :: post ∧ (verdict pre).reportError = .NONE ∧
      Reason st.reportError pre x

theorem mark_head {t : ReportType} {m : List Element} (h : Mark t m) :
    Head t (m ++ [.location]) := ⟨m, h, rfl⟩

theorem shape_error {l : List Element} {e : Element} {t : ReportType} {err : ReportError}
    (hv : (verdict l).reportError = .NONE) (h : Reason err l e) :
    Shape ⟨.ERROR, t, err⟩ (l ++ [e]) := ⟨l, e, [], rfl, hv, h⟩

/-- Unfold one transition. -/
macro "trans_simp" : tactic =>
  `(tactic| simp [delta, syn, Status.transition, Status.transitionFromReportTypeOrLocation,
      Status.transitionFromCorrecton, Status.transitionFromReportTime,
      Status.transitionFromTimeSpan, Status.transitionFromReportBodyBeginMetar,
      Status.transitionFromReportBodyMetar, Status.transitionFromReportBodyBeginTaf,
      Status.transitionFromReportBodyTaf, Status.setState, Status.setError, Status.setReportType])

theorem shape_step {st : Status} {l : List Element} (e : Element) (h : Shape st l)
    (hv : verdict l = st) (hs : Parser.StatusOk st) : Shape (delta st e) (l ++ [e]) := by
  obtain ⟨s, t, err⟩ := st
  by_cases hse : s = .ERROR
  · subst hse
    have : delta ⟨.ERROR, t, err⟩ e = ⟨.ERROR, t, err⟩ := by simp [delta, Status.transition]
    rw [this]
    obtain ⟨pre, x, post, h1, h2, h3⟩ := h
    exact ⟨pre, x, post ++ [e], by simp [h1], h2, h3⟩
  have he : err = .NONE := by
    have := hs.1
    simp only [hse, false_iff, ne_eq, Decidable.not_not] at this
    exact this
  subst he
  have hn : (verdict l).reportError = .NONE := by rw [hv]
  cases s with
  | ERROR => exact absurd rfl hse
  | REPORT_TYPE_OR_LOCATION =>
    obtain ⟨rfl, rfl⟩ := h
    cases e <;> trans_simp
    all_goals first
      | exact shape_error (l := []) hn (by simp [Reason])
      | simp [Shape, Mark, Head]
  | CORRECTION =>
    obtain ⟨h1, h2, h3⟩ := h
    cases t with
    | UNKNOWN => exact absurd rfl h3
    | METAR =>
      have hl : l = [.metar] ∨ l = [.speci] := by
        rcases h1 with h | h | h | h <;> simp_all
      cases e <;> trans_simp
      all_goals first
        | exact shape_error hn (by simp [Reason]; exact Or.inl h1)
        | exact shape_error hn (by simpa [Reason] using hl)
        | exact mark_head h1
        | (rcases hl with rfl | rfl <;> simp [Shape, Mark])
    | TAF =>
      have hl : l = [.taf] := by
        rcases h1 with h | h | h <;> simp_all
      cases e <;> trans_simp
      all_goals first
        | exact shape_error hn (by simp [Reason]; exact Or.inr h1)
        | exact mark_head h1
        | (subst hl; simp [Shape, Mark])
  | LOCATION =>
    obtain ⟨h1, h2, h3⟩ := h
    cases e <;> trans_simp
    all_goals first
      | exact mark_head h1
      | (refine shape_error hn ?_
         exact ⟨by decide, t, by cases t <;> simp_all, h1, by omega⟩)
  | REPORT_TIME =>
    have h1 : Head t l := h
    cases e <;> cases t <;> trans_simp
    all_goals first
      | exact .plain h1
      | exact ⟨rfl, l, h1, rfl⟩
      | exact ⟨ReportType.noConfusion, l, h1, rfl⟩
      | exact ⟨rfl, l, Or.inl ⟨h1, rfl⟩⟩
      | (refine shape_error hn ?_; exact ⟨by decide, by decide, _, h1, by decide⟩)
  | TIME_SPAN =>
    obtain ⟨h0, d, h1, hl⟩ := h
    have hnil : NilReport t (l ++ [.nil]) := by
      have := NilReport.time h1
      simpa [hl] using this
    cases t with
    | METAR => exact absurd rfl h0
    | UNKNOWN =>
      have hms : ∀ e, e ≠ .span → MetarStart l e := fun e he => ⟨d, hl, Or.inr ⟨h1, he⟩⟩
      cases e <;> trans_simp
      case nil => exact hnil
      case span => exact ⟨rfl, d, Or.inr ⟨Or.inr h1, by simp [hl]⟩⟩
      case rmk => exact ⟨rfl, l, [], [], hms _ (by decide), by simp, by simp⟩
      case cnl =>
        refine shape_error hn ?_
        exact ⟨rfl, hms _ (by decide)⟩
      all_goals
        refine ⟨rfl, l, _, [], ?_, ?_, rfl⟩
        · exact hms _ (by decide)
        · simp [InMetarBody]
    | TAF =>
      cases e <;> trans_simp
      case nil => exact hnil
      case span => exact ⟨rfl, d, Or.inr ⟨Or.inl h1, by simp [hl]⟩⟩
      all_goals
        refine shape_error hn ?_
        exact ⟨by decide, by decide, d, h1, hl⟩
  | REPORT_BODY_BEGIN_METAR =>
    obtain ⟨h0, d, h1, hl⟩ := h
    simp only at h0
    subst h0
    have hms : ∀ e, MetarStart l e := fun e => ⟨d, hl, Or.inl h1⟩
    cases e <;> trans_simp
    case nil =>
      have := NilReport.time h1
      simpa [hl, Shape] using this
    case cnl =>
      refine shape_error hn ?_
      exact ⟨rfl, hms _⟩
    case rmk => exact ⟨rfl, l, [], [], hms _, by simp, by simp⟩
    all_goals
      refine ⟨rfl, l, _, [], hms _, ?_, rfl⟩
      simp [InMetarBody]
  | REPORT_BODY_BEGIN_METAR_REPEAT_PARSE => exact absurd h (by simp [Shape])
  | REPORT_BODY_METAR =>
    obtain ⟨h0, hd, f, b, h1, h2, hl⟩ := h
    have ext : ∀ e, InMetarBody e → ∃ h e' b, MetarStart h e' ∧ (∀ x ∈ e' :: b, InMetarBody x) ∧
        l ++ [e] = h ++ e' :: b := by
      intro e he
      refine ⟨hd, f, b ++ [e], h1, ?_, by simp [hl]⟩
      intro x hx
      rcases List.mem_append.mp (show x ∈ (f :: b) ++ [_] from hx) with hx | hx
      · exact h2 x hx
      · simp only [List.mem_singleton] at hx
        subst hx
        exact he
    cases e <;> trans_simp
    case nil =>
      refine shape_error hn ?_
      exact ⟨by decide, Or.inl ⟨hd, f, b, h1, h2, hl⟩⟩
    case cnl =>
      refine shape_error hn ?_
      exact ⟨by decide, Or.inl ⟨hd, f, b, h1, h2, hl⟩⟩
    case rmk => exact ⟨h0, hd, f :: b, [], h1, h2, by simp [hl]⟩
    all_goals exact ⟨h0, ext _ (by simp [InMetarBody])⟩
  | REMARK_METAR =>
    obtain ⟨h0, hd, b, r, h1, h2, hl⟩ := h
    have hd' : delta ⟨.REMARK_METAR, t, .NONE⟩ e = ⟨.REMARK_METAR, t, .NONE⟩ := by
      simp [delta, Status.transition]
    rw [hd']
    exact ⟨h0, hd, b, r ++ [e], h1, h2, by simp [hl]⟩
  | REPORT_BODY_BEGIN_TAF =>
    obtain ⟨h0, h1⟩ := h
    simp only at h0
    subst h0
    cases e <;> trans_simp
    all_goals first
      | exact .span h1
      | exact ⟨rfl, _, h1, rfl⟩
      | exact ⟨rfl, l, [], [], h1, by simp, by simp, by simp⟩
      | (refine shape_error hn ?_; exact ⟨rfl, l, [], h1, by simp, by simp⟩)
      | exact ⟨rfl, l, _, [], h1, by simp [InTafBody], rfl⟩
  | REPORT_BODY_TAF =>
    obtain ⟨h0, hd, f, b, h1, h2, hl⟩ := h
    have ext : ∀ e, InTafBody e → ∃ h e' b, TafStart h ∧ (∀ x ∈ e' :: b, InTafBody x) ∧
        l ++ [e] = h ++ e' :: b := by
      intro e he
      refine ⟨hd, f, b ++ [e], h1, ?_, by simp [hl]⟩
      intro x hx
      rcases List.mem_append.mp (show x ∈ (f :: b) ++ [_] from hx) with hx | hx
      · exact h2 x hx
      · simp only [List.mem_singleton] at hx
        subst hx
        exact he
    cases e <;> trans_simp
    case nil =>
      refine shape_error hn ?_
      exact ⟨by decide, Or.inr ⟨hd, f, b, h1, h2, hl⟩⟩
    case cnl =>
      refine shape_error hn ?_
      exact ⟨by decide, Or.inr ⟨hd, f, b, h1, h2, hl⟩⟩
    case maintenance =>
      refine shape_error hn ?_
      exact ⟨rfl, hd, f :: b, h1, h2, Or.inl hl⟩
    case rmk => exact ⟨h0, hd, f :: b, [], h1, h2, by simp, by simp [hl]⟩
    all_goals exact ⟨h0, ext _ (by simp [InTafBody])⟩
  | REMARK_TAF =>
    obtain ⟨h0, hd, b, r, h1, h2, h3, hl⟩ := h
    by_cases hm : e = .maintenance
    · subst hm
      trans_simp
      refine shape_error hn ?_
      exact ⟨rfl, hd, b, h1, h2, Or.inr ⟨r, h3, hl⟩⟩
    · have hd' : delta ⟨.REMARK_TAF, t, .NONE⟩ e = ⟨.REMARK_TAF, t, .NONE⟩ := by
        cases e <;> simp_all [delta, Status.transition, syn]
      rw [hd']
      refine ⟨h0, hd, b, r ++ [e], h1, h2, ?_, by simp [hl]⟩
      intro x hx
      rcases List.mem_append.mp hx with hx | hx
      · exact h3 x hx
      · simp only [List.mem_singleton] at hx
        subst hx
        exact hm
  | NIL =>
    cases e <;> trans_simp
    all_goals exact shape_error hn ⟨_, h⟩
  | CNL =>
    obtain ⟨h0, p, h1, hp⟩ := h
    cases e <;> trans_simp
    all_goals exact shape_error hn ⟨p, h1, hp⟩

theorem statusOk_delta {st : Status} (e : Element) (h : Parser.StatusOk st) :
    Parser.StatusOk (delta st e) := by
  cases he : st.isError with
  | true =>
    have hs : st.state = .ERROR := h.1.mpr (by simpa [Status.isError] using he)
    have : delta st e = st := by
      have : st.transition (syn e) = st := by simp [Status.transition, hs]
      simp [delta, this, hs]
    rw [this]
    exact h
  | false =>
    have h1 := Parser.statusOk_transition (sg := syn e) h he
    unfold delta
    split
    · rename_i hr
      refine Parser.statusOk_transition h1 ?_
      have := h1.1
      rw [hr] at this
      simpa [Status.isError] using this
    · exact h1

theorem statusOk_verdict (l : List Element) : Parser.StatusOk (verdict l) := by
  induction l using List.reverseRecOn with
  | nil => simp [verdict, Parser.StatusOk]
  | append_singleton l e ih => rw [verdict_append]; exact statusOk_delta e ih

theorem shape_verdict (l : List Element) : Shape (verdict l) l := by
  induction l using List.reverseRecOn with
  | nil => exact ⟨rfl, rfl⟩
  | append_singleton l e ih =>
    rw [verdict_append]
    exact shape_step e ih rfl (statusOk_verdict l)

/-- Repeating an element that is none of the keywords changes nothing. -/
theorem delta_other_other (st : Status) : delta (delta st .other) .other = delta st .other := by
  obtain ⟨s, t, e⟩ := st
  cases s <;> cases t <;> trans_simp

theorem delta_error {st : Status} (h : st.state = .ERROR) (e : Element) : delta st e = st := by
  obtain ⟨s, t, err⟩ := st
  simp only at h
  subst h
  simp [delta, Status.transition]

theorem foldl_delta_error {st : Status} (h : st.state = .ERROR) (l : List Element) :
    l.foldl delta st = st := by
  induction l with
  | nil => rfl
  | cons e l ih => rw [List.foldl_cons, delta_error h]; exact ih

theorem verdict_app (l m : List Element) : verdict (l ++ m) = m.foldl delta (verdict l) := by
  simp [verdict]

/-! ### Reports of the grammar are accepted -/

theorem verdict_head {t : ReportType} {h : List Element} (hh : Head t h) :
    verdict h = ⟨.REPORT_TIME, t, .NONE⟩ := by
  obtain ⟨m, hm, rfl⟩ := hh
  cases t with
  | UNKNOWN => cases hm; rfl
  | METAR => rcases hm with rfl | rfl | rfl | rfl <;> rfl
  | TAF => rcases hm with rfl | rfl | rfl <;> rfl

theorem verdict_metarStart {h : List Element} {e : Element} (hs : MetarStart h e)
    (he : InMetarBody e) : verdict (h ++ [e]) = ⟨.REPORT_BODY_METAR, .METAR, .NONE⟩ := by
  obtain ⟨d, rfl, hd | ⟨hd, hne⟩⟩ := hs
  · rw [verdict_append, verdict_append, verdict_head hd]
    cases e <;> first | rfl | exact absurd rfl he.1 | exact absurd rfl he.2.1 |
      exact absurd rfl he.2.2
  · rw [verdict_append, verdict_append, verdict_head hd]
    cases e <;> first | rfl | exact absurd rfl he.1 | exact absurd rfl he.2.1 |
      exact absurd rfl he.2.2 | exact absurd rfl hne

theorem verdict_metarStart_rmk {h : List Element} (hs : MetarStart h .rmk) :
    verdict (h ++ [.rmk]) = ⟨.REMARK_METAR, .METAR, .NONE⟩ := by
  obtain ⟨d, rfl, hd | ⟨hd, hne⟩⟩ := hs
  · rw [verdict_append, verdict_append, verdict_head hd]; rfl
  · rw [verdict_append, verdict_append, verdict_head hd]; rfl

theorem verdict_tafStart {h : List Element} (hs : TafStart h) :
    verdict h = ⟨.REPORT_BODY_BEGIN_TAF, .TAF, .NONE⟩ := by
  obtain ⟨d, ⟨hd, rfl⟩ | ⟨hd | hd, rfl⟩⟩ := hs
  · rw [verdict_append, verdict_head hd]; rfl
  · rw [verdict_app, verdict_head hd]; rfl
  · rw [verdict_app, verdict_head hd]; rfl

theorem foldl_metarBody {b : List Element} (hb : ∀ x ∈ b, InMetarBody x) :
    b.foldl delta ⟨.REPORT_BODY_METAR, .METAR, .NONE⟩ = ⟨.REPORT_BODY_METAR, .METAR, .NONE⟩ := by
  induction b with
  | nil => rfl
  | cons e b ih =>
    have he := hb e (by simp)
    have : delta ⟨.REPORT_BODY_METAR, .METAR, .NONE⟩ e = ⟨.REPORT_BODY_METAR, .METAR, .NONE⟩ := by
      cases e <;> first | rfl | exact absurd rfl he.1 | exact absurd rfl he.2.1 |
        exact absurd rfl he.2.2
    rw [List.foldl_cons, this]
    exact ih (fun x hx => hb x (by simp [hx]))

theorem foldl_metarRemarks (b : List Element) :
    b.foldl delta ⟨.REMARK_METAR, .METAR, .NONE⟩ = ⟨.REMARK_METAR, .METAR, .NONE⟩ := by
  induction b with
  | nil => rfl
  | cons e b ih =>
    have : delta ⟨.REMARK_METAR, .METAR, .NONE⟩ e = ⟨.REMARK_METAR, .METAR, .NONE⟩ := by
      cases e <;> rfl
    rw [List.foldl_cons, this]
    exact ih

theorem foldl_tafBody {b : List Element} {s : State} (hs : s = .REPORT_BODY_BEGIN_TAF ∨ s = .REPORT_BODY_TAF)
    (hb : ∀ x ∈ b, InTafBody x) (hne : b ≠ []) :
    b.foldl delta ⟨s, .TAF, .NONE⟩ = ⟨.REPORT_BODY_TAF, .TAF, .NONE⟩ := by
  induction b generalizing s with
  | nil => exact absurd rfl hne
  | cons e b ih =>
    have he := hb e (by simp)
    have : delta ⟨s, .TAF, .NONE⟩ e = ⟨.REPORT_BODY_TAF, .TAF, .NONE⟩ := by
      rcases hs with rfl | rfl <;>
      cases e <;> first | rfl | exact absurd rfl he.1 | exact absurd rfl he.2.1 |
        exact absurd rfl he.2.2.1 | exact absurd rfl he.2.2.2
    rw [List.foldl_cons, this]
    by_cases hn : b = []
    · subst hn; rfl
    · exact ih (Or.inr rfl) (fun x hx => hb x (by simp [hx])) hn

theorem foldl_tafRemarks {b : List Element} (hb : ∀ x ∈ b, InTafRemarks x) :
    b.foldl delta ⟨.REMARK_TAF, .TAF, .NONE⟩ = ⟨.REMARK_TAF, .TAF, .NONE⟩ := by
  induction b with
  | nil => rfl
  | cons e b ih =>
    have he := hb e (by simp)
    have : delta ⟨.REMARK_TAF, .TAF, .NONE⟩ e = ⟨.REMARK_TAF, .TAF, .NONE⟩ := by
      cases e <;> first | rfl | exact absurd rfl he
    rw [List.foldl_cons, this]
    exact ih (fun x hx => hb x (by simp [hx]))

/-- A report of the grammar is accepted with its type. -/
theorem verdict_nilReport {t : ReportType} {l : List Element} (h : NilReport t l) :
    verdict l = ⟨.NIL, t, .NONE⟩ := by
  cases h with
  | plain hh => rw [verdict_append, verdict_head hh]; rfl
  | time hh => rw [verdict_app, verdict_head hh]; cases t <;> rfl
  | span hh => rw [verdict_append, verdict_tafStart hh]; rfl

theorem verdict_report {t : ReportType} {l : List Element} (h : Report t l) :
    (verdict l).finalTransition = verdict l ∧ (verdict l).reportError = .NONE ∧
      (verdict l).reportType = t := by
  have fin : ∀ s, (s = .REPORT_BODY_METAR ∨ s = .REPORT_BODY_TAF ∨ s = .REMARK_METAR ∨
      s = .REMARK_TAF ∨ s = .NIL ∨ s = .CNL) → verdict l = ⟨s, t, .NONE⟩ →
      (verdict l).finalTransition = verdict l ∧ (verdict l).reportError = .NONE ∧
      (verdict l).reportType = t := by
    intro s hs hv
    rw [hv]
    rcases hs with rfl | rfl | rfl | rfl | rfl | rfl <;> exact ⟨rfl, rfl, rfl⟩
  cases h with
  | nil hn => exact fin .NIL (by decide) (verdict_nilReport hn)
  | cnl hh =>
    refine fin .CNL (by decide) ?_
    rw [verdict_append, verdict_tafStart hh]
    rfl
  | @metar h e b hh hb =>
    refine fin .REPORT_BODY_METAR (by decide) ?_
    rw [← List.singleton_append, ← List.append_assoc, verdict_app,
      verdict_metarStart hh (hb e (by simp))]
    exact foldl_metarBody (fun x hx => hb x (by simp [hx]))
  | @metarRemarks h b r hh hb =>
    refine fin .REMARK_METAR (by decide) ?_
    cases b with
    | nil =>
      rw [List.append_nil, ← List.singleton_append, ← List.append_assoc, verdict_app,
        verdict_metarStart_rmk hh]
      exact foldl_metarRemarks r
    | cons e b =>
      have : h ++ e :: b ++ Element.rmk :: r = (h ++ [e]) ++ (b ++ ([.rmk] ++ r)) := by simp
      rw [this, verdict_app, verdict_metarStart (e := e) hh (hb e (by simp)), List.foldl_append,
        foldl_metarBody (fun x hx => hb x (by simp [hx])), List.foldl_append]
      exact foldl_metarRemarks r
  | @taf h e b hh hb =>
    refine fin .REPORT_BODY_TAF (by decide) ?_
    rw [verdict_app, verdict_tafStart hh]
    exact foldl_tafBody (Or.inl rfl) hb (by simp)
  | @tafRemarks h b r hh hb hr =>
    refine fin .REMARK_TAF (by decide) ?_
    rw [List.append_assoc, verdict_app, verdict_tafStart hh, List.foldl_append]
    by_cases hn : b = []
    · subst hn
      exact foldl_tafRemarks hr
    · rw [foldl_tafBody (Or.inl rfl) hb hn]
      exact foldl_tafRemarks hr

/-- What is accepted is a report of the grammar. -/
theorem report_of_verdict {l : List Element} (h : (verdict l).finalTransition.reportError = .NONE) :
    Report (verdict l).reportType l := by
  have hs := shape_verdict l
  have hok := statusOk_verdict l
  generalize hv : verdict l = st at *
  obtain ⟨s, t, e⟩ := st
  cases s <;> simp only [Status.finalTransition, Status.setError, reduceCtorEq] at h
  case REPORT_BODY_METAR =>
    obtain ⟨h0, hd, f, b, h1, h2, rfl⟩ := hs
    simp only at h0
    subst h0
    exact .metar h1 h2
  case REMARK_METAR =>
    obtain ⟨h0, hd, b, r, h1, h2, rfl⟩ := hs
    simp only at h0
    subst h0
    exact .metarRemarks h1 h2
  case REPORT_BODY_TAF =>
    obtain ⟨h0, hd, f, b, h1, h2, rfl⟩ := hs
    simp only at h0
    subst h0
    exact .taf h1 h2
  case REMARK_TAF =>
    obtain ⟨h0, hd, b, r, h1, h2, h3, rfl⟩ := hs
    simp only at h0
    subst h0
    exact .tafRemarks h1 h2 h3
  case NIL => exact .nil hs
  case CNL =>
    obtain ⟨h0, hd, h1, rfl⟩ := hs
    simp only at h0
    subst h0
    exact .cnl h1
  case ERROR =>
    have := hok.1.mp rfl
    exact absurd h this

/-- Without error, the elements can be completed to a report. -/
theorem viable_of_verdict {l : List Element} (h : (verdict l).reportError = .NONE) : Viable l := by
  -- the completion which is accepted from each state
  have complete : ∃ m, (verdict (l ++ m)).finalTransition.reportError = .NONE := by
    have hok := statusOk_verdict l
    simp only [verdict_app]
    generalize verdict l = st at h hok
    obtain ⟨s, t, e⟩ := st
    simp only at h
    subst h
    have hne := hok.1
    have ht := hok.2.2.2
    cases s with
    | ERROR => exact absurd rfl (hne.mp rfl)
    | REPORT_TYPE_OR_LOCATION => exact ⟨[.location, .nil], by cases t <;> rfl⟩
    | CORRECTION => exact ⟨[.location, .nil], by cases t <;> rfl⟩
    | LOCATION => exact ⟨[.location, .nil], by cases t <;> rfl⟩
    | REPORT_TIME => exact ⟨[.nil], by cases t <;> rfl⟩
    | TIME_SPAN => exact ⟨[.nil], by cases t <;> rfl⟩
    | REPORT_BODY_BEGIN_METAR => exact ⟨[.nil], by cases t <;> rfl⟩
    | REPORT_BODY_BEGIN_METAR_REPEAT_PARSE => exact ⟨[.nil], by cases t <;> rfl⟩
    | REPORT_BODY_BEGIN_TAF => exact ⟨[.nil], by cases t <;> rfl⟩
    | REPORT_BODY_METAR | REPORT_BODY_TAF | REMARK_METAR | REMARK_TAF | NIL | CNL => exact ⟨[], rfl⟩
  obtain ⟨m, hm⟩ := complete
  exact ⟨_, m, report_of_verdict hm⟩

theorem verdict_of_viable {l : List Element} (h : Viable l) : (verdict l).reportError = .NONE := by
  obtain ⟨t, m, hr⟩ := h
  by_contra hne
  have hs := (statusOk_verdict l).1.mpr hne
  have := (verdict_report hr).2.1
  rw [verdict_app, foldl_delta_error hs] at this
  exact hne this

/-! ### The reasons of errors -/

/-- The reason of an error leads to the error. -/
theorem reason_error {err : ReportError} {pre : List Element} {x : Element}
    (h : Reason err pre x) : (verdict (pre ++ [x])).reportError = err := by
  rw [verdict_append]
  cases err with
  | EXPECTED_REPORT_TYPE_OR_LOCATION =>
    obtain ⟨rfl, h1, h2, h3, h4⟩ := h
    cases x <;> first | rfl | exact absurd rfl h1 | exact absurd rfl h2 | exact absurd rfl h3 |
      exact absurd rfl h4
  | EXPECTED_LOCATION =>
    obtain ⟨h1, t, ht, hm, hx⟩ := h
    rcases ht with rfl | rfl
    · rcases hm with rfl | rfl | rfl | rfl <;> revert h1 hx <;> cases x <;> decide
    · rcases hm with rfl | rfl | rfl <;> revert h1 hx <;> cases x <;> decide
  | AMD_ALLOWED_IN_TAF_ONLY =>
    obtain ⟨rfl | rfl, rfl⟩ := h <;> rfl
  | EXPECTED_REPORT_TIME =>
    obtain ⟨h1, h2, t, hh, hx⟩ := h
    rw [verdict_head hh]
    revert h1 h2 hx
    cases t <;> cases x <;> trans_simp
  | EXPECTED_TIME_SPAN =>
    obtain ⟨h1, h2, d, hh, rfl⟩ := h
    rw [verdict_append, verdict_head hh]
    revert h1 h2
    cases x <;> trans_simp
  | CNL_ALLOWED_IN_TAF_ONLY =>
    obtain ⟨rfl, d, rfl, hd | ⟨hd, -⟩⟩ := h
    · rw [verdict_append, verdict_head hd]; rfl
    · rw [verdict_append, verdict_head hd]; rfl
  | UNEXPECTED_NIL_OR_CNL_IN_REPORT_BODY =>
    obtain ⟨hx, ⟨h, e, b, hs, hb, rfl⟩ | ⟨h, e, b, hs, hb, rfl⟩⟩ := h
    · rw [← List.singleton_append, ← List.append_assoc, verdict_app,
        verdict_metarStart hs (hb e (by simp)), foldl_metarBody (fun y hy => hb y (by simp [hy]))]
      rcases hx with rfl | rfl <;> rfl
    · rw [verdict_app, verdict_tafStart hs, foldl_tafBody (Or.inl rfl) hb (by simp)]
      rcases hx with rfl | rfl <;> rfl
  | MAINTENANCE_INDICATOR_ALLOWED_IN_METAR_ONLY =>
    obtain ⟨rfl, h, b, hs, hb, hl⟩ := h
    have hbody : verdict (h ++ b) = ⟨.REPORT_BODY_BEGIN_TAF, .TAF, .NONE⟩ ∨
        verdict (h ++ b) = ⟨.REPORT_BODY_TAF, .TAF, .NONE⟩ := by
      rw [verdict_app, verdict_tafStart hs]
      cases b with
      | nil => left; rfl
      | cons e b => right; exact foldl_tafBody (Or.inl rfl) hb (by simp)
    rcases hl with rfl | ⟨r, hr, rfl⟩
    · rcases hbody with hb | hb <;> rw [hb] <;> rfl
    · have : verdict (h ++ b ++ .rmk :: r) = ⟨.REMARK_TAF, .TAF, .NONE⟩ := by
        rw [verdict_app, List.foldl_cons]
        have : delta (verdict (h ++ b)) .rmk = ⟨.REMARK_TAF, .TAF, .NONE⟩ := by
          rcases hbody with hb | hb <;> rw [hb] <;> rfl
        rw [this]
        exact foldl_tafRemarks hr
      rw [this]
      rfl
  | UNEXPECTED_GROUP_AFTER_NIL =>
    obtain ⟨t, ht⟩ := h
    rw [verdict_nilReport ht]
    cases x <;> rfl
  | UNEXPECTED_GROUP_AFTER_CNL =>
    obtain ⟨h, ht, rfl⟩ := h
    rw [verdict_append, verdict_tafStart ht]
    cases x <;> rfl
  | _ => exact absurd h (by simp [Reason])

/-- The meaning of the outcome for a sequence of elements. -/
theorem verdict_outcome (l : List Element) :
    match (verdict l).finalTransition.reportError with
    | .NONE => Report (verdict l).reportType l
    | .EMPTY_REPORT => l = []
    | .UNEXPECTED_REPORT_END => l ≠ [] ∧ Viable l ∧ ¬ ∃ t, Report t l
    | .REPORT_TOO_LARGE => False
    | e => ∃ pre x post, l = pre ++ x :: post ∧ Viable pre ∧ ¬ Viable (pre ++ [x]) ∧
        Reason e pre x := by
  have hs := shape_verdict l
  have hok := statusOk_verdict l
  have hrep := @report_of_verdict _ l
  have hvia := @viable_of_verdict _ l
  have hcompl : ∀ t, Report t l → (verdict l).finalTransition.reportError = .NONE := by
    intro t h
    have := verdict_report h
    rw [this.1]
    exact this.2.1
  have hnil : l = [] → (verdict l).state = .REPORT_TYPE_OR_LOCATION := by rintro rfl; rfl
  generalize hv : verdict l = st at *
  obtain ⟨s, t, e⟩ := st
  by_cases hse : s = .ERROR
  · subst hse
    have hne := hok.1.mp rfl
    obtain ⟨pre, x, post, h1, h2, h3⟩ := hs
    have h4 := reason_error h3
    have : ∃ pre x post, l = pre ++ x :: post ∧ Viable pre ∧ ¬ Viable (pre ++ [x]) ∧
        Reason e pre x := by
      refine ⟨pre, x, post, h1, viable_of_verdict h2, fun hvi => ?_, h3⟩
      rw [verdict_of_viable hvi] at h4
      exact hne h4.symm
    simp only [Status.finalTransition]
    cases e with
    | NONE => exact absurd rfl hne
    | EMPTY_REPORT => exact absurd h3 (by simp [Reason])
    | UNEXPECTED_REPORT_END => exact absurd h3 (by simp [Reason])
    | REPORT_TOO_LARGE => exact absurd h3 (by simp [Reason])
    | _ => exact this
  · have he : e = .NONE := by
      have := hok.1
      simp only [hse, false_iff, ne_eq, Decidable.not_not] at this
      exact this
    subst he
    cases s with
    | ERROR => exact absurd rfl hse
    | REPORT_TYPE_OR_LOCATION => exact hs.1
    | REPORT_BODY_METAR | REPORT_BODY_TAF | REMARK_METAR | REMARK_TAF | NIL | CNL =>
      exact hrep rfl
    | CORRECTION | LOCATION | REPORT_TIME | TIME_SPAN | REPORT_BODY_BEGIN_METAR
    | REPORT_BODY_BEGIN_METAR_REPEAT_PARSE | REPORT_BODY_BEGIN_TAF =>
      refine ⟨fun h => by simpa using hnil h, hvia rfl, ?_⟩
      rintro ⟨t', ht'⟩
      have := hcompl t' ht'
      simp [Status.finalTransition, Status.setError] at this

end Grammar

end Metaf

import Verif.Model.Parser

/-!
The grammar of reports, in terms of the groups of a parse result.

Reports are described as in the documentation of the project: a report type, a correction or
amendment mark, a location, a release time, a validity time span (TAF), the report body and remarks,
with the forms NIL (no report) and CNL (report cancelled).
-/

namespace Metaf.Spec

variable [FloatSem]

/-- The role of a group in the grammar. -/
inductive Element
  | metar | speci | taf | cor | amd | location | time | span | nil | cnl | rmk | maintenance | other
  deriving DecidableEq, Repr

/-- The role of a group, as seen by a user of the library. -/
def elementOf : Group → Element
  | .keyword ⟨.METAR⟩ => .metar
  | .keyword ⟨.SPECI⟩ => .speci
  | .keyword ⟨.TAF⟩ => .taf
  | .keyword ⟨.COR⟩ => .cor
  | .keyword ⟨.AMD⟩ => .amd
  | .keyword ⟨.NIL⟩ => .nil
  | .keyword ⟨.CNL⟩ => .cnl
  | .keyword ⟨.RMK⟩ => .rmk
  | .keyword ⟨.MAINTENANCE_INDICATOR⟩ => .maintenance
  | .location _ => .location
  | .reportTime _ => .time
  | .trend t => if t.isTimeSpanGroup then .span else .other
  | _ => .other

/-- The elements of a parse result in order. -/
def elements (gs : List GroupInfo) : List Element := gs.map (fun gi => elementOf gi.group)

/-- The groups in front of the location for a report of the given type. -/
def Mark : ReportType → List Element → Prop
  | .METAR, h => h = [.metar] ∨ h = [.speci] ∨ h = [.metar, .cor] ∨ h = [.speci, .cor]
  | .TAF, h => h = [.taf] ∨ h = [.taf, .cor] ∨ h = [.taf, .amd]
  | .UNKNOWN, h => h = []

/-- The groups up to the location for a report announced as the given type, or of no type. -/
def Head (t : ReportType) (h : List Element) : Prop := ∃ m, Mark t m ∧ h = m ++ [.location]

/-- The groups of a METAR report in front of its body, which begins with `first`: type and
correction are optional, but without type a time span announces a TAF. -/
def MetarStart (h : List Element) (first : Element) : Prop :=
  ∃ d, h = d ++ [.time] ∧ (Head .METAR d ∨ Head .UNKNOWN d ∧ first ≠ .span)

/-- The groups of a TAF report in front of its body: type, correction or amendment are optional,
but the release time may only be left out of a report with a type. -/
def TafStart (h : List Element) : Prop :=
  ∃ d, (Head .TAF d ∧ h = d ++ [.span]) ∨
    ((Head .TAF d ∨ Head .UNKNOWN d) ∧ h = d ++ [.time, .span])

/-- An element of the body of a METAR. -/
def InMetarBody (e : Element) : Prop := e ≠ .nil ∧ e ≠ .cnl ∧ e ≠ .rmk

/-- An element of the body of a TAF. -/
def InTafBody (e : Element) : Prop := e ≠ .nil ∧ e ≠ .cnl ∧ e ≠ .rmk ∧ e ≠ .maintenance

/-- An element of the remarks of a TAF. -/
def InTafRemarks (e : Element) : Prop := e ≠ .maintenance

/-- A NIL report of the type `t`: instead of a report. The type may be unknown. -/
inductive NilReport : ReportType → List Element → Prop
  /-- Without time. -/
  | plain {t h} : Head t h → NilReport t (h ++ [.nil])
  /-- With release time. -/
  | time {t h} : Head t h → NilReport t (h ++ [.time, .nil])
  /-- A TAF with time span. -/
  | span {h} : TafStart h → NilReport .TAF (h ++ [.nil])

/-- The grammar: `Report t l` if `l` is a complete report of the type `t`. The type of a NIL report
may be unknown. -/
inductive Report : ReportType → List Element → Prop
  /-- No report. -/
  | nil {t l} : NilReport t l → Report t l
  /-- Cancelled TAF report. -/
  | cnl {h} : TafStart h → Report .TAF (h ++ [.cnl])
  /-- METAR report without remarks. -/
  | metar {h e b} : MetarStart h e → (∀ x ∈ e :: b, InMetarBody x) → Report .METAR (h ++ e :: b)
  /-- METAR report with remarks. -/
  | metarRemarks {h b r} : MetarStart h (b.headD .rmk) → (∀ x ∈ b, InMetarBody x) →
      Report .METAR (h ++ b ++ .rmk :: r)
  /-- TAF report without remarks. -/
  | taf {h e b} : TafStart h → (∀ x ∈ e :: b, InTafBody x) → Report .TAF (h ++ e :: b)
  /-- TAF report with remarks. -/
  | tafRemarks {h b r} : TafStart h → (∀ x ∈ b, InTafBody x) → (∀ x ∈ r, InTafRemarks x) →
      Report .TAF (h ++ b ++ .rmk :: r)

/-- The beginning of some report. -/
def Viable (l : List Element) : Prop := ∃ t m, Report t (l ++ m)

/-- Why the element `x` is in error after `pre`: the documented meaning of each error. -/
def Reason : ReportError → List Element → Element → Prop
  | .EXPECTED_REPORT_TYPE_OR_LOCATION, pre, x =>
    pre = [] ∧ x ≠ .metar ∧ x ≠ .speci ∧ x ≠ .taf ∧ x ≠ .location
  | .EXPECTED_LOCATION, pre, x =>
    x ≠ .location ∧ ∃ t, (t = .METAR ∨ t = .TAF) ∧ Mark t pre ∧
      (pre.length = 1 → x ≠ .cor ∧ x ≠ .amd)
  | .AMD_ALLOWED_IN_TAF_ONLY, pre, x => (pre = [.metar] ∨ pre = [.speci]) ∧ x = .amd
  | .EXPECTED_REPORT_TIME, pre, x =>
    x ≠ .time ∧ x ≠ .nil ∧ ∃ t, Head t pre ∧ (t = .TAF → x ≠ .span)
  | .EXPECTED_TIME_SPAN, pre, x =>
    x ≠ .span ∧ x ≠ .nil ∧ ∃ d, Head .TAF d ∧ pre = d ++ [.time]
  | .CNL_ALLOWED_IN_TAF_ONLY, pre, x => x = .cnl ∧ MetarStart pre x
  | .UNEXPECTED_NIL_OR_CNL_IN_REPORT_BODY, pre, x =>
    (x = .nil ∨ x = .cnl) ∧
      ((∃ h e b, MetarStart h e ∧ (∀ y ∈ e :: b, InMetarBody y) ∧ pre = h ++ e :: b) ∨
       (∃ h e b, TafStart h ∧ (∀ y ∈ e :: b, InTafBody y) ∧ pre = h ++ e :: b))
  | .MAINTENANCE_INDICATOR_ALLOWED_IN_METAR_ONLY, pre, x =>
    x = .maintenance ∧ ∃ h b, TafStart h ∧ (∀ y ∈ b, InTafBody y) ∧
      (pre = h ++ b ∨ ∃ r, (∀ y ∈ r, InTafRemarks y) ∧ pre = h ++ b ++ .rmk :: r)
  | .UNEXPECTED_GROUP_AFTER_NIL, pre, _ => ∃ t, NilReport t pre
  | .UNEXPECTED_GROUP_AFTER_CNL, pre, _ => ∃ h, TafStart h ∧ pre = h ++ [.cnl]
  | _, _, _ => False

end Metaf.Spec

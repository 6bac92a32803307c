import Verif.Spec.Grammar

/-!
The parts of a report.
-/

namespace Metaf.Spec

variable [FloatSem]

/-- The report part of the group after the element `e` of part `p`. The header ends with the release
time (METAR) or with the validity time span (TAF), the body ends with RMK, and NIL and CNL end the
report. -/
def NextPart (p : ReportPart) (e : Element) (q : ReportPart) : Prop :=
  match p, e with
  | .HEADER, .time => q = .HEADER ∨ q = .METAR
  | .HEADER, .span => q = .TAF
  | .HEADER, .nil => q = .UNKNOWN
  | .HEADER, .cnl => False
  | .HEADER, .rmk => False
  | .HEADER, .maintenance => False
  | .HEADER, _ => q = .HEADER
  | .METAR, .nil => q = .UNKNOWN
  | .METAR, .cnl => False
  | .METAR, .rmk => q = .RMK
  | .METAR, _ => q = .METAR
  | .TAF, .nil => q = .UNKNOWN
  | .TAF, .cnl => q = .UNKNOWN
  | .TAF, .rmk => q = .RMK
  | .TAF, .maintenance => False
  | .TAF, _ => q = .TAF
  | .RMK, _ => q = .RMK
  | .UNKNOWN, .other => q = .UNKNOWN
  | .UNKNOWN, _ => False

/-- The report parts of the groups of a result follow each other as documented. -/
def PartsInOrder : List GroupInfo → Prop
  | [] => True
  | [x] => x.reportPart = .HEADER
  | x :: y :: r => x.reportPart = .HEADER ∧ Chain x (y :: r)
where
  /-- Every group after `x` is in the part due after its predecessor. -/
  Chain (x : GroupInfo) : List GroupInfo → Prop
  | [] => True
  | y :: r => NextPart x.reportPart (elementOf x.group) y.reportPart ∧ Chain y r

/-- The elements that may stand in a part of the report. -/
def Allowed (p : ReportPart) (e : Element) : Prop :=
  match e with
  | .metar | .speci | .taf | .amd | .location | .time => p = .HEADER
  | .cor => p = .HEADER ∨ p = .METAR
  | .nil | .cnl | .span => p = .HEADER ∨ p = .METAR ∨ p = .TAF
  | .rmk => p = .METAR ∨ p = .TAF
  | .maintenance | .other => True

/-- The elements of the body of an accepted METAR. -/
def MetarBody (e : Element) : Prop := e = .other ∨ e = .span ∨ e = .cor ∨ e = .maintenance

/-- The elements of the body of an accepted TAF. -/
def TafBody (e : Element) : Prop := e = .other ∨ e = .span

/-- The forms of accepted reports: as `Report`, but body and remarks hold nothing that belongs to
another part of the report. -/
inductive Accepted : ReportType → List Element → Prop
  /-- No report. -/
  | nil {t l} : NilReport t l → Accepted t l
  /-- Cancelled TAF report. -/
  | cnl {h} : TafStart h → Accepted .TAF (h ++ [.cnl])
  /-- METAR report without remarks. -/
  | metar {h e b} : MetarStart h e → (∀ x ∈ e :: b, MetarBody x) → Accepted .METAR (h ++ e :: b)
  /-- METAR report with remarks. -/
  | metarRemarks {h b r} : MetarStart h (b.headD .rmk) → (∀ x ∈ b, MetarBody x) →
      (∀ x ∈ r, x = .other ∨ x = .maintenance) → Accepted .METAR (h ++ b ++ .rmk :: r)
  /-- TAF report without remarks. -/
  | taf {h e b} : TafStart h → (∀ x ∈ e :: b, TafBody x) → Accepted .TAF (h ++ e :: b)
  /-- TAF report with remarks. -/
  | tafRemarks {h b r} : TafStart h → (∀ x ∈ b, TafBody x) → (∀ x ∈ r, x = .other) →
      Accepted .TAF (h ++ b ++ .rmk :: r)

end Metaf.Spec

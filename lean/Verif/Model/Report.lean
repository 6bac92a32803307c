import Verif.Model.Phenomena

/-!
Report-level enumerations and metadata. Source: `/repo/include/metaf.hpp`.
-/

namespace Metaf

/-- `ReportType`, metaf.hpp:822-826. -/
inductive ReportType | UNKNOWN | METAR | TAF
  deriving DecidableEq, Repr

/-- `ReportPart`, metaf.hpp:828-834. -/
inductive ReportPart | UNKNOWN | HEADER | METAR | TAF | RMK
  deriving DecidableEq, Repr

/-- `ReportError`, metaf.hpp:836-851. -/
inductive ReportError
  | NONE | EMPTY_REPORT | EXPECTED_REPORT_TYPE_OR_LOCATION | EXPECTED_LOCATION
  | EXPECTED_REPORT_TIME | EXPECTED_TIME_SPAN | UNEXPECTED_REPORT_END
  | UNEXPECTED_GROUP_AFTER_NIL | UNEXPECTED_GROUP_AFTER_CNL
  | UNEXPECTED_NIL_OR_CNL_IN_REPORT_BODY | AMD_ALLOWED_IN_TAF_ONLY | CNL_ALLOWED_IN_TAF_ONLY
  | MAINTENANCE_INDICATOR_ALLOWED_IN_METAR_ONLY | REPORT_TOO_LARGE
  deriving DecidableEq, Repr

/-- `ReportMetadata`, metaf.hpp:853-872. -/
structure ReportMetadata where
  type : ReportType := .UNKNOWN
  error : ReportError := .NONE
  reportTime : Option MetafTime := none
  icaoLocation : Str := []
  isSpeci : Bool := false
  isNospeci : Bool := false
  isAutomated : Bool := false
  isAo1 : Bool := false
  isAo1a : Bool := false
  isAo2 : Bool := false
  isAo2a : Bool := false
  isNil : Bool := false
  isCancelled : Bool := false
  isAmended : Bool := false
  isCorrectional : Bool := false
  correctionNumber : Option Nat := some 0
  maintenanceIndicator : Bool := false
  timeSpanFrom : Option MetafTime := none
  timeSpanUntil : Option MetafTime := none
  deriving DecidableEq, Repr

/-- `AppendResult`, metaf.hpp:879-903. -/
inductive AppendResult | APPENDED | NOT_APPENDED | GROUP_INVALIDATED
  deriving DecidableEq, Repr

end Metaf

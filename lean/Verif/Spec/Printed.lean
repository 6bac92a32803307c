import Verif.Model.Parser

/-!
What the program of the tutorial prints: the texts for errors, types of reports and kinds of groups.
Written without use of the functions of the model.
-/

namespace Metaf.Spec

open Metaf

/-- The lines of a text. -/
def linesOf : Str → List Str
  | [] => [[]]
  | c :: s =>
    if c = '\n' then [] :: linesOf s
    else match linesOf s with
      | l :: ls => (c :: l) :: ls
      | [] => [[c]]

example : linesOf c!"one\ntwo\n" = [c!"one", c!"two", []] := by decide

/-- The text for each error. -/
def errorTexts : List (ReportError × Str) := [
  (.NONE, c!"no error, parsed succesfully"),
  (.EMPTY_REPORT, c!"empty report"),
  (.EXPECTED_REPORT_TYPE_OR_LOCATION, c!"expected report type or ICAO location"),
  (.EXPECTED_LOCATION, c!"expected ICAO location"),
  (.EXPECTED_REPORT_TIME, c!"expected report time"),
  (.EXPECTED_TIME_SPAN, c!"expected time span"),
  (.UNEXPECTED_REPORT_END, c!"unexpected report end"),
  (.UNEXPECTED_GROUP_AFTER_NIL, c!"unexpected group after NIL"),
  (.UNEXPECTED_GROUP_AFTER_CNL, c!"unexpected group after CNL"),
  (.UNEXPECTED_NIL_OR_CNL_IN_REPORT_BODY, c!"unexpected NIL or CNL in report body"),
  (.AMD_ALLOWED_IN_TAF_ONLY, c!"AMD is allowed in TAF only"),
  (.CNL_ALLOWED_IN_TAF_ONLY, c!"CNL is allowed in TAF only"),
  (.MAINTENANCE_INDICATOR_ALLOWED_IN_METAR_ONLY, c!"Maintenance indicator is allowed only in METAR reports"),
  (.REPORT_TOO_LARGE, c!"Report has too many groups and may be malformed")]

/-- The text for each type of report. -/
def typeTexts : List (ReportType × Str) :=
  [(.UNKNOWN, c!"unable to detect"), (.METAR, c!"METAR"), (.TAF, c!"TAF")]

/-- `Named g t`: groups of the kind of `g` are called `t`. -/
inductive Named : Group → Str → Prop
  | keyword {g} : Named (.keyword g) c!"Keyword"
  | location {g} : Named (.location g) c!"ICAO location"
  | reportTime {g} : Named (.reportTime g) c!"Report Release Time"
  | trend {g} : Named (.trend g) c!"Trend Header"
  | wind {g} : Named (.wind g) c!"Wind"
  | visibility {g} : Named (.visibility g) c!"Visibility"
  | cloud {g} : Named (.cloud g) c!"Cloud Data"
  | weather {g} : Named (.weather g) c!"Weather Phenomena"
  | temperature {g} : Named (.temperature g) c!"Temperature and Dew Point"
  | pressure {g} : Named (.pressure g) c!"Pressure"
  | runwayState {g} : Named (.runwayState g) c!"State of Runway"
  | seaSurface {g} : Named (.seaSurface g) c!"Sea Surface"
  | minMaxTemperature {g} : Named (.minMaxTemperature g) c!"Minimum/Maximum Temperature"
  | precipitation {g} : Named (.precipitation g) c!"Precipitation"
  | layerForecast {g} : Named (.layerForecast g) c!"Atmospheric Layer Forecast"
  | pressureTendency {g} : Named (.pressureTendency g) c!"Pressure Tendency"
  | cloudTypes {g} : Named (.cloudTypes g) c!"Cloud Types"
  | lowMidHighCloud {g} : Named (.lowMidHighCloud g) c!"Low, middle, and high cloud layers"
  | lightning {g} : Named (.lightning g) c!"Lightning data"
  | vicinity {g} : Named (.vicinity g) c!"Events in vicinity"
  | misc {g} : Named (.misc g) c!"Miscellaneous Data"
  | unknown {g} : Named (.unknown g) c!"Not recognised by the parser"

/-- The line for an entry of the result: what its kind is called, a colon and its text. -/
def LineFor (x : GroupInfo) (l : Str) : Prop :=
  ∃ t, Named x.group t ∧ (l = t ++ c!": " ++ x.rawString ∨ (l = t ++ c!":" ++ x.rawString ∧ ∃ g, x.group = .runwayState g))

end Metaf.Spec

import Verif.Model.Explain

/-!
Model of the example program `/repo/examples/tutorial.cpp`, which prints the groups of a report with the
kind of each. Simplification: the report, a constant in the source, is an argument, and what the program
prints is the value. The stream `std::cout` is not modelled.
-/

namespace Metaf.Tutorial

variable [FloatSem]

/-- `errorMessage`, tutorial.cpp:11-55. -/
def errorMessage : ReportError → Str
  | .NONE => c!"no error, parsed succesfully"
  | .EMPTY_REPORT => c!"empty report"
  | .EXPECTED_REPORT_TYPE_OR_LOCATION => c!"expected report type or ICAO location"
  | .EXPECTED_LOCATION => c!"expected ICAO location"
  | .EXPECTED_REPORT_TIME => c!"expected report time"
  | .EXPECTED_TIME_SPAN => c!"expected time span"
  | .UNEXPECTED_REPORT_END => c!"unexpected report end"
  | .UNEXPECTED_GROUP_AFTER_NIL => c!"unexpected group after NIL"
  | .UNEXPECTED_GROUP_AFTER_CNL => c!"unexpected group after CNL"
  | .UNEXPECTED_NIL_OR_CNL_IN_REPORT_BODY => c!"unexpected NIL or CNL in report body"
  | .AMD_ALLOWED_IN_TAF_ONLY => c!"AMD is allowed in TAF only"
  | .CNL_ALLOWED_IN_TAF_ONLY => c!"CNL is allowed in TAF only"
  | .MAINTENANCE_INDICATOR_ALLOWED_IN_METAR_ONLY => c!"Maintenance indicator is allowed only in METAR reports"
  | .REPORT_TOO_LARGE => c!"Report has too many groups and may be malformed"

/-- `reportTypeMessage`, tutorial.cpp:57-68. -/
def reportTypeMessage : ReportType → Str
  | .UNKNOWN => c!"unable to detect"
  | .METAR => c!"METAR"
  | .TAF => c!"TAF"

/-- `MyVisitor`, tutorial.cpp:70-268. -/
def myVisitor : Visitor Str where
  visitKeywordGroup _ _ rawString := c!"Keyword: " ++ rawString
  visitLocationGroup _ _ rawString := c!"ICAO location: " ++ rawString
  visitReportTimeGroup _ _ rawString := c!"Report Release Time: " ++ rawString
  visitTrendGroup _ _ rawString := c!"Trend Header: " ++ rawString
  visitWindGroup _ _ rawString := c!"Wind: " ++ rawString
  visitVisibilityGroup _ _ rawString := c!"Visibility: " ++ rawString
  visitCloudGroup _ _ rawString := c!"Cloud Data: " ++ rawString
  visitWeatherGroup _ _ rawString := c!"Weather Phenomena: " ++ rawString
  visitTemperatureGroup _ _ rawString := c!"Temperature and Dew Point: " ++ rawString
  visitPressureGroup _ _ rawString := c!"Pressure: " ++ rawString
  visitRunwayStateGroup _ _ rawString := c!"State of Runway:" ++ rawString
  visitSeaSurfaceGroup _ _ rawString := c!"Sea Surface: " ++ rawString
  visitMinMaxTemperatureGroup _ _ rawString := c!"Minimum/Maximum Temperature: " ++ rawString
  visitPrecipitationGroup _ _ rawString := c!"Precipitation: " ++ rawString
  visitLayerForecastGroup _ _ rawString := c!"Atmospheric Layer Forecast: " ++ rawString
  visitPressureTendencyGroup _ _ rawString := c!"Pressure Tendency: " ++ rawString
  visitCloudTypesGroup _ _ rawString := c!"Cloud Types: " ++ rawString
  visitLowMidHighCloudGroup _ _ rawString := c!"Low, middle, and high cloud layers: " ++ rawString
  visitLightningGroup _ _ rawString := c!"Lightning data: " ++ rawString
  visitVicinityGroup _ _ rawString := c!"Events in vicinity: " ++ rawString
  visitMiscGroup _ _ rawString := c!"Miscellaneous Data: " ++ rawString
  visitUnknownGroup _ _ rawString := c!"Not recognised by the parser: " ++ rawString

/-- `main`, tutorial.cpp:270-284: what is printed for a report. -/
def main (report : Str) : Res Str := do
  let result ← Parser.parse report
  .ok (c!"Parsing report: " ++ report ++ c!"\n" ++
    c!"Parse error: " ++ errorMessage result.reportMetadata.error ++ c!"\n" ++
    c!"Detected report type: " ++ reportTypeMessage result.reportMetadata.type ++ c!"\n" ++
    Explain.showNat result.groups.length ++ c!" groups parsed\n" ++
    result.groups.flatMap fun groupInfo => myVisitor.visitInfo groupInfo ++ c!"\n")

end Metaf.Tutorial

import Verif.Base
import Verif.Regex
import Verif.RegexSyntax
import Verif.Float
import Verif.Model.Basic
import Verif.Model.Distance
import Verif.Model.Amounts
import Verif.Model.Phenomena
import Verif.Model.Report
import Verif.Model.GroupsA
import Verif.Model.GroupsB
import Verif.Model.GroupsC
import Verif.Model.GroupsD
import Verif.Model.Parser
import Verif.Spec.Tokens
import Verif.Proofs.Util
import Verif.Proofs.Regex
import Verif.Proofs.Tokens
import Verif.Proofs.ParserLoop
import Verif.Proofs.Weather
import Verif.Proofs.NoFault
import Verif.Proofs.ParserStep
import Verif.Spec.Words
import Verif.Proofs.Inert
import Verif.Proofs.ParserRun
import Verif.Proofs.ParserText
import Verif.Proofs.ParserStatus
import Verif.Proofs.ParserCount
import Verif.Proofs.ParserKeep
import Verif.Props.Text
import Verif.Spec.Grammar
import Verif.Spec.Recognise
import Verif.Proofs.Grammar
import Verif.Proofs.Recognise
import Verif.Proofs.ParserEntry
import Verif.Proofs.ParserSyntax
import Verif.Spec.Parts
import Verif.Proofs.ParserParts
import Verif.Proofs.ParserMeta
import Verif.Proofs.ParserPlaces
import Verif.Proofs.ParserType
import Verif.Proofs.ParserResult
import Verif.Proofs.ParserWords
import Verif.Props.Grammar
import Verif.Spec.Keyword
import Verif.Proofs.ParserKeyword
import Verif.Props.ReportType
import Verif.Props.Metadata
import Verif.Props.Visitor
import Verif.Spec.Decimal
import Verif.Proofs.Decimal
import Verif.Props.Numbers
import Verif.Spec.Values
import Verif.Props.Values
import Verif.Proofs.Float
import Verif.Proofs.Tenths
import Verif.Props.Amounts
import Verif.Spec.Miles
import Verif.Props.Distance
import Verif.Props.DistanceText
import Verif.Ieee
import Verif.Props.Conversion
import Verif.Props.Climate
import Verif.Spec.Weather
import Verif.Props.Weather
import Verif.Proofs.RegexText
import Verif.Proofs.RegexSyntax
import Verif.Props.Location
import Verif.Spec.ForecastTemperature
import Verif.Props.MinMax
import Verif.Spec.Trend
import Verif.Props.Trend
import Verif.Spec.Wind
import Verif.Props.Wind
import Verif.Proofs.RegexPriority
import Verif.Spec.Visibility
import Verif.Props.Visibility
import Verif.Spec.Clouds
import Verif.Props.Clouds
import Verif.Props.CloudTypes
import Verif.Spec.WeatherEvents
import Verif.Props.WeatherEvents
import Verif.Spec.Temperature
import Verif.Props.Temperature
import Verif.Props.Pressure
import Verif.Props.RunwayState
import Verif.Props.SeaSurface
import Verif.Props.Precipitation
import Verif.Props.LayerForecast
import Verif.Props.Sectors
import Verif.Props.Headings
import Verif.Props.Lightning
import Verif.Props.Vicinity
import Verif.Props.Misc
import Verif.Props.WindRemarks
import Verif.Props.VisibilityWords
import Verif.Props.VisibilityRemarks
import Verif.Props.Reparse
import Verif.Props.Kinds
import Verif.Props.Body
import Verif.Props.TrendMeaning
import Verif.Proofs.Words
import Verif.Props.Written
import Verif.Props.Division
import Verif.Props.Decoding
import Verif.Props.Validity
import Verif.Props.CloudRemarks
import Verif.Props.RemarkTable
import Verif.Props.RemarkEnds
import Verif.Props.RemarkDivision
import Verif.Props.RemarkValidity
import Verif.Props.AnyReport
import Verif.Props.Accessors
import Verif.Props.Contents
import Verif.Props.Measurements
import Verif.Props.Outcome
import Verif.Props.Accepted
import Verif.Model.Summary
import Verif.Spec.Summary
import Verif.Proofs.Summary
import Verif.Props.SummaryCodes
import Verif.Props.Modest
import Verif.Props.Summary
import Verif.Props.SummaryTotal
import Verif.Props.SummaryMembers
import Verif.Props.SummaryExact
import Verif.Model.ExplainText
import Verif.Model.Explain
import Verif.Proofs.Explain
import Verif.Props.Heights
import Verif.Props.ExplainTotal
import Verif.Props.ExplainTable
import Verif.Props.ExplainPlain
import Verif.Props.ExplainMarkup
import Verif.Proofs.Numerals
import Verif.Props.ExplainNumbers
import Verif.Props.ExplainExact
import Verif.Props.ExplainWords
import Verif.Spec.Explanation
import Verif.Props.ExplainLines
import Verif.Spec.Vocabulary
import Verif.Props.ExplainVocabulary
import Verif.Spec.WeatherWords
import Verif.Props.ExplainWeather
import Verif.Spec.Shown
import Verif.Props.ExplainValues
import Verif.Props.Limits
import Verif.Props.WithRemarks
import Verif.Props.SummaryRemarks
import Verif.Spec.Printed
import Verif.Model.Tutorial
import Verif.Props.Tutorial
import Verif.Proofs.Insertion
import Verif.Props.Insertion
import Verif.Props.AccessorValues
import Verif.Spec.Performance
import Verif.Model.Performance
import Verif.Proofs.Batches
import Verif.Proofs.Frequencies
import Verif.Proofs.Archives
import Verif.Proofs.PerformanceRun
import Verif.Proofs.PerformanceText
import Verif.Proofs.PerformanceLists
import Verif.Proofs.PerformanceGroups
import Verif.Proofs.PerformanceMain
import Verif.Props.Performance
import Verif.Props.ExplainData
import Verif.Model.Page
import Verif.Spec.Page
import Verif.Spec.PageIcon
import Verif.Proofs.Page
import Verif.Props.PageText
import Verif.Props.PageTime
import Verif.Props.PageIcon
import Verif.Spec.PageWidget
import Verif.Spec.PageStations
import Verif.Props.PageWidget
import Verif.Props.PageStations
import Verif.Props.PageWhole
import Verif.Props.Characters
import Verif.Props.ReportHours
import Verif.Spec.ExplainPage
import Verif.Props.ExplainPage
import Verif.Props.PageOptions
import Verif.Props.Ranges
import Verif.Model.PageRequests
import Verif.Props.PageRequests
import Verif.Model.PageDistance
import Verif.Props.PageDistance
import Verif.Props.Places
import Verif.Proofs.Replacement
import Verif.Props.Replacement
import Verif.Props.PlacesAccepted
import Verif.Props.Offending
import Verif.Spec.Climate
import Verif.Proofs.Perceived
import Verif.Proofs.PerceivedPow
import Verif.Proofs.PerceivedWind
import Verif.Proofs.PerceivedHumidity
import Verif.Props.Perceived
import Verif.Props.PartNames
import Verif.Props.SectorEnds
import Verif.Props.CeilingPlace
import Verif.Spec.Felt
import Verif.Props.Felt
import Verif.Props.VicinityEnds
import Verif.Props.Exceptions
import Verif.Props.TrueAge
import Verif.Props.PageExceptions
import Verif.Proofs.RemarkReplacement
import Verif.Props.RemarkReplacement
import Verif.Props.AnyLink
import Verif.Props.Sizes
import Verif.Props.WrittenRemarks
import Verif.Props.HeaderChange
import Verif.Props.SummaryTafRemarks
import Verif.Props.FirstReplacement
import Verif.Props.Cases
import Verif.Props.ShownNumbers
import Verif.Props.SummaryDepends
import Verif.Props.PerformanceExact
import Verif.Props.OtherCharacters
import Verif.Props.HeaderMetadata
import Verif.Props.SummaryTafInsertion
import Verif.Props.ExplainEdit
import Verif.Props.SummaryTafOrder
import Verif.Props.WrittenSummary
import Verif.Props.WrittenForecast
import Verif.Props.WrittenExtremes
import Verif.Props.SameText
import Verif.Props.SummaryOfRemarked
import Verif.Props.AcrossParts
import Verif.Props.MilesInMetres
import Verif.Props.PressureAcross
import Verif.Props.WrittenUnits

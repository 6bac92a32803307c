import Verif.Model.Parser

/-!
What the program for the check of performance does with files, counts and times. Written without use of the
functions of the model of that program.
-/

namespace Metaf.Spec

open Metaf

/-! ### Files -/

/-- `FileLines text ls`: the lines of a text file are `ls`. The last one may lack its end. -/
inductive FileLines : Str → List Str → Prop
  | nil : FileLines [] []
  | last {s} : s ≠ [] → '\n' ∉ s → FileLines s [s]
  | cons {s text ls} : '\n' ∉ s → FileLines text ls → FileLines (s ++ '\n' :: text) (s :: ls)

/-- What is processed of a list which is read in batches of `k`: all if it is shorter than one batch, otherwise
the batches which are full. -/
def inFullBatches {α : Type} (k : Nat) (ls : List α) : List α :=
  if ls.length < k then ls else ls.take (k * (ls.length / k))

/-- The batches of a list which is read in batches of `k`. -/
def InBatches {α : Type} (k : Nat) (ls : List α) (bs : List (List α)) : Prop :=
  if ls.length < k then bs = [ls] else bs.flatten = ls.take (k * (ls.length / k)) ∧ ∀ b ∈ bs, b.length = k

/-- The text of a file which holds the lines `ls`. -/
def fileOf (ls : List Str) : Str := ls.flatMap fun s => s ++ ['\n']

example : FileLines c!"one\n\ntwo" [c!"one", [], c!"two"] :=
  .cons (s := c!"one") (by decide) (.cons (s := []) (by decide) (.last (by decide) (by decide)))

example : inFullBatches 2 [1, 2, 3, 4, 5] = [1, 2, 3, 4] := by decide

example : InBatches 2 [1, 2, 3, 4, 5] [[1, 2], [3, 4]] := by unfold InBatches; decide

example : fileOf [c!"one", c!"two"] = c!"one\ntwo\n" := by decide

/-! ### Names -/

/-- The kinds of groups. -/
def kinds : List Str :=
  [c!"KeywordGroup", c!"LocationGroup", c!"ReportTimeGroup", c!"TrendGroup", c!"WindGroup", c!"VisibilityGroup",
    c!"CloudGroup", c!"WeatherGroup", c!"TemperatureGroup", c!"PressureGroup", c!"RunwayStateGroup",
    c!"SeaSurfaceGroup", c!"MinMaxTemperatureGroup", c!"PrecipitationGroup", c!"LayerForecastGroup",
    c!"PressureTendencyGroup", c!"CloudTypesGroup", c!"LowMidHighCloudGroup", c!"LightningGroup", c!"VicinityGroup",
    c!"MiscGroup", c!"UnknownGroup"]

/-- The kind of a group. -/
def kindOf : Group → Str
  | .keyword _ => c!"KeywordGroup"
  | .location _ => c!"LocationGroup"
  | .reportTime _ => c!"ReportTimeGroup"
  | .trend _ => c!"TrendGroup"
  | .wind _ => c!"WindGroup"
  | .visibility _ => c!"VisibilityGroup"
  | .cloud _ => c!"CloudGroup"
  | .weather _ => c!"WeatherGroup"
  | .temperature _ => c!"TemperatureGroup"
  | .pressure _ => c!"PressureGroup"
  | .runwayState _ => c!"RunwayStateGroup"
  | .seaSurface _ => c!"SeaSurfaceGroup"
  | .minMaxTemperature _ => c!"MinMaxTemperatureGroup"
  | .precipitation _ => c!"PrecipitationGroup"
  | .layerForecast _ => c!"LayerForecastGroup"
  | .pressureTendency _ => c!"PressureTendencyGroup"
  | .cloudTypes _ => c!"CloudTypesGroup"
  | .lowMidHighCloud _ => c!"LowMidHighCloudGroup"
  | .lightning _ => c!"LightningGroup"
  | .vicinity _ => c!"VicinityGroup"
  | .misc _ => c!"MiscGroup"
  | .unknown _ => c!"UnknownGroup"

/-- The parts of a report. -/
def partsOf : List (ReportPart × Str) :=
  [(.UNKNOWN, c!"unknown"), (.HEADER, c!"header"), (.METAR, c!"metar"), (.TAF, c!"taf"), (.RMK, c!"remark")]

/-- The files which the program writes when it reads reports from a file. -/
def ownFiles : List Str :=
  c!"reportError" :: kinds.flatMap fun k => partsOf.map fun p => k ++ c!"-" ++ p.2 ++ c!".txt"

/-- The text for each error. -/
def errorNames : List (ReportError × Str) := [
  (.NONE, c!"no error"),
  (.EMPTY_REPORT, c!"empty report"),
  (.EXPECTED_REPORT_TYPE_OR_LOCATION, c!"expected report_type_or_location"),
  (.EXPECTED_LOCATION, c!"expected location"),
  (.EXPECTED_REPORT_TIME, c!"expected report time"),
  (.EXPECTED_TIME_SPAN, c!"expected time span"),
  (.UNEXPECTED_REPORT_END, c!"unexpected report end"),
  (.UNEXPECTED_GROUP_AFTER_NIL, c!"unexpected group after NIL"),
  (.UNEXPECTED_GROUP_AFTER_CNL, c!"unexpected group after CNL"),
  (.UNEXPECTED_NIL_OR_CNL_IN_REPORT_BODY, c!"unexpected NIL or CNL in report body"),
  (.AMD_ALLOWED_IN_TAF_ONLY, c!"unexpected AMD in non TAF report"),
  (.CNL_ALLOWED_IN_TAF_ONLY, c!"unexpected CNL in non TAF report"),
  (.MAINTENANCE_INDICATOR_ALLOWED_IN_METAR_ONLY, c!"unexpected maintenance indicator in TAF report"),
  (.REPORT_TOO_LARGE, c!"report too large")]

/-- The text for an error. -/
def errorName (e : ReportError) : Str := ((errorNames.find? fun x => x.1 = e).map Prod.snd).getD []

/-! ### The command line -/

/-- The input file: the last argument, unless its first or second character is `-`. -/
def inputFile (args : List Str) : Option Str :=
  match args.getLast? with
  | none => none
  | some last => if last[0]? = some '-' ∨ last[1]? = some '-' then none else some last

example : inputFile [c!"--nosize", c!"reports.txt"] = some c!"reports.txt" := by decide

example : inputFile [c!"reports.txt", c!"--nosize"] = none := by decide

/-! ### Reports -/

/-- The reports of the internal data. -/
def internalReports (data : List (Str × Str)) : List Str := data.flatMap fun d => [d.1, d.2].filter fun s => s ≠ []

/-- The files when the reports are read: those of the program itself are empty if there is an input file. -/
def opened (disk : Str → Option Str) (input : Option Str) : Str → Option Str :=
  fun n => if input ≠ none ∧ n ∈ ownFiles then some [] else disk n

/-- The batches of reports processed: the internal data 300 times, or the lines of the file in batches of 64000. -/
def Processed (disk : Str → Option Str) (data : List (Str × Str)) (input : Option Str) (bs : List (List Str)) : Prop :=
  match input with
  | none => bs = List.replicate 300 (internalReports data)
  | some name => ∃ text ls, opened disk input name = some text ∧ FileLines text ls ∧ InBatches 64000 ls bs

/-- The size of the test set which is announced. -/
def announced (disk : Str → Option Str) (data : List (Str × Str)) (input : Option Str) : Nat :=
  match input with
  | none => (internalReports data).length * 300
  | some name => ((opened disk input name).getD []).count '\n'

/-- Reports with their results. -/
def Parsed [FloatSem] (rs : List (ParseResult × Str)) : Prop := ∀ r ∈ rs, Parser.parse r.2 = .ok r.1

/-- The groups of all results. -/
def allGroups (rs : List (ParseResult × Str)) : List GroupInfo := rs.flatMap fun r => r.1.groups

/-- The texts of the groups of a kind in a part of the report. -/
def textsOf (kind : Str) (part : ReportPart) (gs : List GroupInfo) : List Str :=
  (gs.filter fun x => kindOf x.group = kind ∧ x.reportPart = part).map GroupInfo.rawString

/-- Texts kept by the program when they are read again: from a file in batches of 1000. -/
def again (input : Option Str) (ls : List Str) : List Str := if input ≠ none then inFullBatches 1000 ls else ls

/-! ### What is printed -/

/-- A number in decimal notation. -/
def num (n : Nat) : Str := Nat.toDigits 10 n

/-- A number of things. -/
def countText (name : Str) (n : Nat) : Str :=
  if n = 0 then c!"<1 " ++ name else if n = 1 then c!"1 " ++ name else num n ++ c!" " ++ name ++ c!"s"

example : countText c!"group" 12 = c!"12 groups" := by decide

/-- The line on the time needed for things. The rate is computed with 64 bits. -/
def rateLine (name : Str) (items time : Nat) : Str :=
  if items = 0 then c!"No processed " ++ name ++ c!"s.\n"
  else countText c!"microsecond" time ++ c!", " ++ countText name items ++ c!", " ++
    countText name (1000000 * items % 2 ^ 64 / time) ++ c!" per second.\n"

example : rateLine c!"report" 3 2000 = c!"2000 microseconds, 3 reports, 1500 reports per second.\n" := by decide

/-- The lines on the progress, one for each batch. -/
def progressText (size : Nat) (bs : List (List (ParseResult × Str))) : Str :=
  (List.range bs.length).flatMap fun i =>
    let rs := (bs.take (i + 1)).flatten
    c!"Processed " ++ num rs.length ++ c!" reports of " ++ num size ++ c!" (" ++ num (rs.length * 100 / size) ++
      c!"%), " ++ num (allGroups rs).length ++ c!" groups parsed\n"

/-- The time of `n` measurements after the first `start`, with 64 bits. -/
def timeFrom (clock : Nat → Nat) (start n : Nat) : Nat := ((List.range n).map fun i => clock (start + i)).sum % 2 ^ 64

/-- The first section: all reports. -/
def overallText (wasm : Bool) (clock : Nat → Nat) (size : Nat) (input : Option Str)
    (bs : List (List (ParseResult × Str))) : Str :=
  let rs := bs.flatten
  let time := timeFrom clock 0 bs.length
  c!"Checking overall parser performance\n" ++
  (match input with
    | none => c!"Using internal data set\n"
    | some name => c!"Using data set from file " ++ name ++ c!"\n") ++
  c!"Test set size is " ++ num size ++ c!"\n" ++ (if wasm then [] else progressText size bs) ++ c!"\n" ++
  rateLine c!"report" rs.length time ++ rateLine c!"group" (allGroups rs).length time ++ c!"\n"

/-- The reports with an error, each with the name of its error before it. -/
def errorLines (rs : List (ParseResult × Str)) : List Str :=
  rs.flatMap fun r => if r.1.reportMetadata.error = .NONE then [] else [errorName r.1.reportMetadata.error, r.2]

/-- The second section: reports with errors. -/
def errorText (input : Option Str) (rs : List (ParseResult × Str)) : Str :=
  let bad := rs.filter fun r => r.1.reportMetadata.error ≠ .NONE
  c!"Reports not recognised by the parser:\n" ++
  (if bad = [] then c!"no report errors, all reports parsed successfully\n"
    else c!"Reports with errors: " ++ num bad.length ++ c!"\n" ++ fileOf (again input (errorLines rs))) ++ c!"\n"

/-- `Tally texts lines`: the lines tell for each of the texts how often it occurs, the most frequent first, those
with the same number in reverse order of the alphabet. -/
structure Tally (texts : List Str) (lines : List (Nat × Str)) : Prop where
  counted : ∀ n s, (n, s) ∈ lines ↔ s ∈ texts ∧ n = texts.count s
  order : lines.Pairwise fun a b => b.1 < a.1 ∨ b.1 = a.1 ∧ b.2 < a.2

/-- The texts of groups not recognised. -/
def unknownTexts (input : Option Str) (gs : List GroupInfo) : List Str :=
  partsOf.flatMap fun p => again input (textsOf c!"UnknownGroup" p.1 gs)

/-- The third section: groups not recognised. -/
def unknownText (lines : List (Nat × Str)) : Str :=
  c!"Groups not recognised by the parser (by occurrence number):\n" ++
  (lines.flatMap fun l => num l.1 ++ c!": " ++ l.2 ++ c!"\n") ++ c!"\n"

/-- The kinds of groups which are tested one by one: neither weather nor groups not recognised. -/
def testedKinds : List Str := kinds.filter fun k => k ≠ c!"WeatherGroup" ∧ k ≠ c!"UnknownGroup"

/-- The number of groups of a kind tested. -/
def testedNumber (input : Option Str) (gs : List GroupInfo) (kind : Str) : Nat :=
  (partsOf.map fun p => ((again input (textsOf kind p.1 gs)).filter fun s => s ≠ []).length).sum

/-- The number of measurements for a kind: one for each part of the report, or for each batch of 1000. -/
def measurements (input : Option Str) (gs : List GroupInfo) (kind : Str) : Nat :=
  (partsOf.map fun p => if input ≠ none then max 1 ((textsOf kind p.1 gs).length / 1000) else 1).sum

/-- The time of a kind. The kinds are measured one after the other. -/
def kindTime (clock : Nat → Nat) (start : Nat) (input : Option Str) (gs : List GroupInfo) (kind : Str) : Nat :=
  timeFrom clock (start + ((testedKinds.takeWhile fun k => k ≠ kind).map (measurements input gs)).sum)
    (measurements input gs kind)

/-- The fourth section: groups of each kind. -/
def groupText (clock : Nat → Nat) (start : Nat) (input : Option Str) (gs : List GroupInfo) : Str :=
  c!"Checking group performance\n" ++ (testedKinds.flatMap fun k => c!"Testing " ++ k ++ c!"\n") ++ c!"\n" ++
  (kinds.flatMap fun k =>
    if k ∈ testedKinds then rateLine k (testedNumber input gs k) (kindTime clock start input gs k)
    else c!"No performance stats exist for " ++ k ++ c!".\n") ++ c!"\n"

/-- The last section: sizes. -/
def sizeText (sizeOf : Str → Nat) : Str :=
  let line (name : Str) : Str := c!"Size of " ++ name ++ c!" " ++ num (sizeOf name) ++ c!"\n"
  c!"Data type sizes:\n" ++
  [c!"Runway", c!"MetafTime", c!"Temperature", c!"Speed", c!"Distance", c!"Direction", c!"Pressure",
    c!"Precipitation", c!"SurfaceFriction", c!"WaveHeight", c!"WeatherPhenomena", c!"CloudType"].flatMap line ++
  c!"\n" ++ line c!"Group" ++ c!"\n" ++ c!"Group sizes:\n" ++ kinds.flatMap line ++ c!"\n"

/-- The reports counted in the third section: the internal data once. -/
def counted (input : Option Str) (rss : List (List (ParseResult × Str))) : List (ParseResult × Str) :=
  match input with
  | none => rss.headD []
  | some _ => rss.flatten

/-- All sections. -/
def printedText (args : List Str) (clock : Nat → Nat) (sizeOf : Str → Nat) (size : Nat) (input : Option Str)
    (rss : List (List (ParseResult × Str))) (lines : List (Nat × Str)) : Str :=
  overallText false clock size input rss ++
  (if c!"--noerror" ∈ args then [] else errorText input rss.flatten) ++
  (if c!"--nounkn" ∈ args then [] else unknownText lines) ++
  (if c!"--nogroups" ∈ args then [] else groupText clock rss.length input (allGroups rss.flatten)) ++
  (if c!"--nosize" ∈ args then [] else sizeText sizeOf)

/-! ### When the program ends well -/

/-- The reports can be dealt with: the size announced is not zero, no empty text is to be written to a file, and
time has passed if there was something to measure. -/
structure FineReports (wasm : Bool) (disk : Str → Option Str) (data : List (Str × Str)) (clock : Nat → Nat)
    (input : Option Str) (rss : List (List (ParseResult × Str))) : Prop where
  size : wasm = false → announced disk data input ≠ 0
  full : input ≠ none → ∀ r ∈ rss.flatten,
    (r.1.reportMetadata.error ≠ .NONE → r.2 ≠ []) ∧ ∀ x ∈ r.1.groups, x.rawString ≠ []
  time : (rss.flatten = [] ∧ allGroups rss.flatten = []) ∨ timeFrom clock 0 rss.length ≠ 0

/-- The groups can be measured: time has passed for each kind of which there are groups. -/
def FineGroups (clock : Nat → Nat) (start : Nat) (input : Option Str) (gs : List GroupInfo) : Prop :=
  ∀ k ∈ testedKinds, testedNumber input gs k = 0 ∨ kindTime clock start input gs k ≠ 0

end Metaf.Spec

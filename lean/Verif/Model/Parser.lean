import Verif.Model.GroupsD

/-!
Model of `Group`, `GroupParser`, `Parser` and `Visitor`. Source: `/repo/include/metaf.hpp`.
-/

namespace Metaf

variable [FloatSem]

/-! ### Group -/

/-- `Group`, metaf.hpp:62-85, alternatives in the order of the variant. -/
inductive Group
  | keyword (g : KeywordGroup)
  | location (g : LocationGroup)
  | reportTime (g : ReportTimeGroup)
  | trend (g : TrendGroup)
  | wind (g : WindGroup)
  | visibility (g : VisibilityGroup)
  | cloud (g : CloudGroup)
  | weather (g : WeatherGroup)
  | temperature (g : TemperatureGroup)
  | pressure (g : PressureGroup)
  | runwayState (g : RunwayStateGroup)
  | seaSurface (g : SeaSurfaceGroup)
  | minMaxTemperature (g : MinMaxTemperatureGroup)
  | precipitation (g : PrecipitationGroup)
  | layerForecast (g : LayerForecastGroup)
  | pressureTendency (g : PressureTendencyGroup)
  | cloudTypes (g : CloudTypesGroup)
  | lowMidHighCloud (g : LowMidHighCloudGroup)
  | lightning (g : LightningGroup)
  | vicinity (g : VicinityGroup)
  | misc (g : MiscGroup)
  | unknown (g : UnknownGroup)
  deriving DecidableEq, Repr

namespace Group

/-- `std::variant::index` of a `Group`, metaf.hpp:62-85. -/
def index : Group → Nat
  | keyword _ => 0 | location _ => 1 | reportTime _ => 2 | trend _ => 3 | wind _ => 4
  | visibility _ => 5 | cloud _ => 6 | weather _ => 7 | temperature _ => 8 | pressure _ => 9
  | runwayState _ => 10 | seaSurface _ => 11 | minMaxTemperature _ => 12 | precipitation _ => 13
  | layerForecast _ => 14 | pressureTendency _ => 15 | cloudTypes _ => 16 | lowMidHighCloud _ => 17
  | lightning _ => 18 | vicinity _ => 19 | misc _ => 20 | unknown _ => 21

/-- `std::holds_alternative<FallbackGroup>`, used in metaf.hpp:6819, 6849, 6864. -/
def isFallback : Group → Bool
  | unknown _ => true
  | _ => false

/-- `std::visit` of `append` on a group, metaf.hpp:6824-6827. -/
def append (g : Group) (group : Str) (reportPart : ReportPart) (md : ReportMetadata) :
    Res (Group × AppendResult) :=
  match g with
  | keyword x => let r := x.append group; .ok (keyword r.1, r.2)
  | location x => let r := x.append group; .ok (location r.1, r.2)
  | reportTime x => let r := x.append group; .ok (reportTime r.1, r.2)
  | trend x => let r := x.append group reportPart; .ok (trend r.1, r.2)
  | wind x => let r := x.append group md; .ok (wind r.1, r.2)
  | visibility x => let r := x.append group; .ok (visibility r.1, r.2)
  | cloud x => let r := x.append group; .ok (cloud r.1, r.2)
  | weather x => let r := x.append group reportPart; .ok (weather r.1, r.2)
  | temperature x => let r := x.append group; .ok (temperature r.1, r.2)
  | pressure x => let r := x.append group; .ok (pressure r.1, r.2)
  | runwayState x => let r := x.append group; .ok (runwayState r.1, r.2)
  | seaSurface x => let r := x.append group; .ok (seaSurface r.1, r.2)
  | minMaxTemperature x =>
    match x.append group with
    | .error f => .error f
    | .ok r => .ok (minMaxTemperature r.1, r.2)
  | precipitation x => let r := x.append group; .ok (precipitation r.1, r.2)
  | layerForecast x => let r := x.append group; .ok (layerForecast r.1, r.2)
  | pressureTendency x => let r := x.append group; .ok (pressureTendency r.1, r.2)
  | cloudTypes x =>
    match x.append group with
    | .error f => .error f
    | .ok r => .ok (cloudTypes r.1, r.2)
  | lowMidHighCloud x => let r := x.append group; .ok (lowMidHighCloud r.1, r.2)
  | lightning x => let r := x.append group; .ok (lightning r.1, r.2)
  | vicinity x => let r := x.append group; .ok (vicinity r.1, r.2)
  | misc x => let r := x.append group; .ok (misc r.1, r.2)
  | unknown x => let r := x.append group; .ok (unknown r.1, r.2)

end Group

/-- `GroupInfo`, metaf.hpp:2063-2069. -/
structure GroupInfo where
  group : Group
  reportPart : ReportPart
  rawString : Str
  deriving DecidableEq, Repr

/-! ### SyntaxGroup -/

/-- `SyntaxGroup`, metaf.hpp:2074-2088. -/
inductive SyntaxGroup
  | OTHER | METAR | SPECI | TAF | COR | AMD | LOCATION | REPORT_TIME | TIME_SPAN | CNL | NIL | RMK
  | MAINTENANCE_INDICATOR
  deriving DecidableEq, Repr

/-- `getSyntaxGroup`, metaf.hpp:6727-6752. -/
def getSyntaxGroup : Group → SyntaxGroup
  | .keyword k =>
    match k.t with
    | .METAR => .METAR
    | .SPECI => .SPECI
    | .TAF => .TAF
    | .COR => .COR
    | .AMD => .AMD
    | .NIL => .NIL
    | .CNL => .CNL
    | .RMK => .RMK
    | .MAINTENANCE_INDICATOR => .MAINTENANCE_INDICATOR
    | _ => .OTHER
  | .location _ => .LOCATION
  | .reportTime _ => .REPORT_TIME
  | .trend t => if t.isTimeSpanGroup then .TIME_SPAN else .OTHER
  | _ => .OTHER

/-! ### GroupParser -/

namespace GroupParser

/-- The parse function of one alternative, `Alternative::parse`, used in metaf.hpp:2119, 2138. -/
abbrev Alternative := Str → ReportPart → ReportMetadata → Res (Option Group)

/-- The non-fallback alternatives of the variant with their indices, metaf.hpp:62-85. -/
def alternatives : List (Nat × Alternative) :=
  [(0, fun s p _ => .ok ((KeywordGroup.parse s p).map .keyword)),
   (1, fun s p _ => .ok ((LocationGroup.parse s p).map .location)),
   (2, fun s p _ => .ok ((ReportTimeGroup.parse s p).map .reportTime)),
   (3, fun s p _ => .ok ((TrendGroup.parse s p).map .trend)),
   (4, fun s p _ => .ok ((WindGroup.parse s p).map .wind)),
   (5, fun s p _ => .ok ((VisibilityGroup.parse s p).map .visibility)),
   (6, fun s p _ => .ok ((CloudGroup.parse s p).map .cloud)),
   (7, fun s p md =>
      match WeatherGroup.parse s p md with
      | .error f => .error f
      | .ok r => .ok (r.map .weather)),
   (8, fun s p _ => .ok ((TemperatureGroup.parse s p).map .temperature)),
   (9, fun s p _ => .ok ((PressureGroup.parse s p).map .pressure)),
   (10, fun s p _ => .ok ((RunwayStateGroup.parse s p).map .runwayState)),
   (11, fun s p _ => .ok ((SeaSurfaceGroup.parse s p).map .seaSurface)),
   (12, fun s p _ => .ok ((MinMaxTemperatureGroup.parse s p).map .minMaxTemperature)),
   (13, fun s p md => .ok ((PrecipitationGroup.parse s p md).map .precipitation)),
   (14, fun s p _ => .ok ((LayerForecastGroup.parse s p).map .layerForecast)),
   (15, fun s p _ => .ok ((PressureTendencyGroup.parse s p).map .pressureTendency)),
   (16, fun s p _ => .ok ((CloudTypesGroup.parse s p).map .cloudTypes)),
   (17, fun s p _ => .ok ((LowMidHighCloudGroup.parse s p).map .lowMidHighCloud)),
   (18, fun s p _ => .ok ((LightningGroup.parse s p).map .lightning)),
   (19, fun s p _ => .ok ((VicinityGroup.parse s p).map .vicinity)),
   (20, fun s p _ => .ok ((MiscGroup.parse s p).map .misc))]

/-- `GroupParser::parseAlternative`, metaf.hpp:2112-2127. -/
def parseAlternative (s : Str) (p : ReportPart) (md : ReportMetadata) :
    List (Nat × Alternative) → Res Group
  | [] => .ok (.unknown {})
  | (_, f) :: rest =>
    match f s p md with
    | .error e => .error e
    | .ok (some g) => .ok g
    | .ok none => parseAlternative s p md rest

/-- `GroupParser::reparseAlternative`, metaf.hpp:2129-2147. -/
def reparseAlternative (s : Str) (p : ReportPart) (md : ReportMetadata) (ignoreIndex : Nat) :
    List (Nat × Alternative) → Res Group
  | [] => .ok (.unknown {})
  | (i, f) :: rest =>
    if i ≠ ignoreIndex then
      match f s p md with
      | .error e => .error e
      | .ok (some g) => .ok g
      | .ok none => reparseAlternative s p md ignoreIndex rest
    else reparseAlternative s p md ignoreIndex rest

/-- `GroupParser::parse`, metaf.hpp:2097-2102. -/
def parse (s : Str) (p : ReportPart) (md : ReportMetadata) : Res Group :=
  parseAlternative s p md alternatives

/-- `GroupParser::reparse`, metaf.hpp:2104-2110. -/
def reparse (s : Str) (p : ReportPart) (md : ReportMetadata) (previous : Group) : Res Group :=
  reparseAlternative s p md previous.index alternatives

end GroupParser

/-! ### Parser::ReportInput -/

/-- `Parser::ReportInput`, metaf.hpp:2173-2185. `rest` is the text of the report from `pos`. -/
structure ReportInput where
  rest : Str
  finished : Bool := false
  deriving DecidableEq, Repr

namespace ReportInput

/-- The test `c <= ' '` of `getNextGroup`, metaf.hpp:6882 and 6891. The type `char` is signed (as
with the compilers supported on x86), so codes from 128 are negative and count as delimiters. -/
def isDelim (c : Char) : Bool := c.toNat ≤ 32 || c.toNat ≥ 128

/-- The second loop of `getNextGroup`, metaf.hpp:6891-6903: the group, the text after it, and
whether the report end character was met. The second argument is `groupLen`. At the end of the text
C++ reads a zero, which ends the loop. -/
def scanGroup : Str → Nat → Str × Str × Bool
  | [], _ => ([], [], false)
  | c :: cs, groupLen =>
    if isDelim c then ([], c :: cs, false)
    else if c = '=' then ([], c :: cs, true)
    else if groupLen ≠ 0 ∧ c = '+' then ([c], cs, false)
    else
      let r := scanGroup cs (groupLen + 1)
      (c :: r.1, r.2.1, r.2.2)

/-- `Parser::ReportInput::getNextGroup`, metaf.hpp:6878-6906. -/
def getNextGroup (input : ReportInput) : Str × ReportInput :=
  if input.finished then ([], input)
  else
    match input.rest.dropWhile isDelim with
    | [] => ([], { rest := [], finished := true })
    | s =>
      let r := scanGroup s 0
      (r.1, { rest := r.2.1, finished := r.2.2 })

end ReportInput

/-! ### Parser::Status -/

/-- `Parser::Status::State`, metaf.hpp:2205-2222. -/
inductive State
  | REPORT_TYPE_OR_LOCATION | CORRECTION | LOCATION | REPORT_TIME | TIME_SPAN
  | REPORT_BODY_BEGIN_METAR | REPORT_BODY_BEGIN_METAR_REPEAT_PARSE | REPORT_BODY_METAR
  | REPORT_BODY_BEGIN_TAF | REPORT_BODY_TAF | REMARK_METAR | REMARK_TAF | NIL | CNL | ERROR
  deriving DecidableEq, Repr

/-- `Parser::Status`, metaf.hpp:2188-2238. -/
structure Status where
  state : State := .REPORT_TYPE_OR_LOCATION
  reportType : ReportType := .UNKNOWN
  reportError : ReportError := .NONE
  deriving DecidableEq, Repr

namespace Status

/-- `Parser::Status::isError`, metaf.hpp:2196. -/
def isError (st : Status) : Bool := st.reportError != .NONE

/-- `Parser::Status::isReparseRequired`, metaf.hpp:2200-2202. -/
def isReparseRequired (st : Status) : Bool := st.state == .REPORT_BODY_BEGIN_METAR_REPEAT_PARSE

/-- `Parser::Status::setError`, metaf.hpp:2203. -/
def setError (st : Status) (e : ReportError) : Status := { st with state := .ERROR, reportError := e }

/-- `Parser::Status::setState`, metaf.hpp:2224. -/
def setState (st : Status) (s : State) : Status := { st with state := s }

/-- `Parser::Status::setReportType`, metaf.hpp:2225. -/
def setReportType (st : Status) (t : ReportType) : Status := { st with reportType := t }

/-- `Parser::Status::getReportPart`, metaf.hpp:6909-6936. -/
def getReportPart (st : Status) : ReportPart :=
  match st.state with
  | .REPORT_TYPE_OR_LOCATION | .CORRECTION | .LOCATION | .REPORT_TIME | .TIME_SPAN => .HEADER
  | .REPORT_BODY_BEGIN_METAR | .REPORT_BODY_BEGIN_METAR_REPEAT_PARSE | .REPORT_BODY_METAR => .METAR
  | .REPORT_BODY_BEGIN_TAF | .REPORT_BODY_TAF => .TAF
  | .REMARK_METAR | .REMARK_TAF => .RMK
  | .NIL | .CNL | .ERROR => .UNKNOWN

/-- `Parser::Status::transitionFromReportTypeOrLocation`, metaf.hpp:6998-7019. -/
def transitionFromReportTypeOrLocation (st : Status) : SyntaxGroup → Status
  | .METAR | .SPECI => (st.setReportType .METAR).setState .CORRECTION
  | .TAF => (st.setReportType .TAF).setState .CORRECTION
  | .LOCATION => st.setState .REPORT_TIME
  | _ => st.setError .EXPECTED_REPORT_TYPE_OR_LOCATION

/-- `Parser::Status::transitionFromCorrecton`, metaf.hpp:7021-7041. -/
def transitionFromCorrecton (st : Status) : SyntaxGroup → Status
  | .AMD =>
    let st := st.setState .LOCATION
    if st.reportType ≠ .TAF then st.setError .AMD_ALLOWED_IN_TAF_ONLY else st
  | .COR => st.setState .LOCATION
  | .LOCATION => st.setState .REPORT_TIME
  | _ => st.setError .EXPECTED_LOCATION

/-- `Parser::Status::transitionFromReportTime`, metaf.hpp:7043-7069. -/
def transitionFromReportTime (st : Status) : SyntaxGroup → Status
  | .REPORT_TIME =>
    if st.reportType = .METAR then st.setState .REPORT_BODY_BEGIN_METAR else st.setState .TIME_SPAN
  | .TIME_SPAN =>
    if st.reportType = .TAF then st.setState .REPORT_BODY_BEGIN_TAF
    else st.setError .EXPECTED_REPORT_TIME
  | .NIL => st.setState .NIL
  | _ => st.setError .EXPECTED_REPORT_TIME

/-- `Parser::Status::transitionFromTimeSpan`, metaf.hpp:7071-7091. -/
def transitionFromTimeSpan (st : Status) : SyntaxGroup → Status
  | .TIME_SPAN => (st.setReportType .TAF).setState .REPORT_BODY_BEGIN_TAF
  | .NIL => st.setState .NIL
  | _ =>
    if st.reportType = .UNKNOWN then
      (st.setReportType .METAR).setState .REPORT_BODY_BEGIN_METAR_REPEAT_PARSE
    else st.setError .EXPECTED_TIME_SPAN

/-- `Parser::Status::transitionFromReportBodyBeginMetar`, metaf.hpp:7093-7111. -/
def transitionFromReportBodyBeginMetar (st : Status) : SyntaxGroup → Status
  | .NIL => st.setState .NIL
  | .CNL => st.setError .CNL_ALLOWED_IN_TAF_ONLY
  | .RMK => st.setState .REMARK_METAR
  | _ => st.setState .REPORT_BODY_METAR

/-- `Parser::Status::transitionFromReportBodyMetar`, metaf.hpp:7113-7127. -/
def transitionFromReportBodyMetar (st : Status) : SyntaxGroup → Status
  | .RMK => st.setState .REMARK_METAR
  | .NIL | .CNL => st.setError .UNEXPECTED_NIL_OR_CNL_IN_REPORT_BODY
  | _ => st

/-- `Parser::Status::transitionFromReportBodyBeginTaf`, metaf.hpp:7129-7151. -/
def transitionFromReportBodyBeginTaf (st : Status) : SyntaxGroup → Status
  | .NIL => st.setState .NIL
  | .CNL => st.setState .CNL
  | .RMK => st.setState .REMARK_TAF
  | .MAINTENANCE_INDICATOR => st.setError .MAINTENANCE_INDICATOR_ALLOWED_IN_METAR_ONLY
  | _ => st.setState .REPORT_BODY_TAF

/-- `Parser::Status::transitionFromReportBodyTaf`, metaf.hpp:7153-7171. -/
def transitionFromReportBodyTaf (st : Status) : SyntaxGroup → Status
  | .RMK => st.setState .REMARK_TAF
  | .NIL | .CNL => st.setError .UNEXPECTED_NIL_OR_CNL_IN_REPORT_BODY
  | .MAINTENANCE_INDICATOR => st.setError .MAINTENANCE_INDICATOR_ALLOWED_IN_METAR_ONLY
  | _ => st

/-- `Parser::Status::transition`, metaf.hpp:6938-6996. -/
def transition (st : Status) (group : SyntaxGroup) : Status :=
  match st.state with
  | .REPORT_TYPE_OR_LOCATION => st.transitionFromReportTypeOrLocation group
  | .CORRECTION => st.transitionFromCorrecton group
  | .LOCATION =>
    if group = .LOCATION then st.setState .REPORT_TIME else st.setError .EXPECTED_LOCATION
  | .REPORT_TIME => st.transitionFromReportTime group
  | .TIME_SPAN => st.transitionFromTimeSpan group
  | .REPORT_BODY_BEGIN_METAR | .REPORT_BODY_BEGIN_METAR_REPEAT_PARSE =>
    st.transitionFromReportBodyBeginMetar group
  | .REPORT_BODY_METAR => st.transitionFromReportBodyMetar group
  | .REPORT_BODY_BEGIN_TAF => st.transitionFromReportBodyBeginTaf group
  | .REPORT_BODY_TAF => st.transitionFromReportBodyTaf group
  | .REMARK_TAF =>
    if group = .MAINTENANCE_INDICATOR then
      st.setError .MAINTENANCE_INDICATOR_ALLOWED_IN_METAR_ONLY
    else st
  | .NIL => st.setError .UNEXPECTED_GROUP_AFTER_NIL
  | .CNL => st.setError .UNEXPECTED_GROUP_AFTER_CNL
  | .REMARK_METAR | .ERROR => st

/-- `Parser::Status::finalTransition`, metaf.hpp:7173-7198. -/
def finalTransition (st : Status) : Status :=
  match st.state with
  | .REPORT_BODY_METAR | .REPORT_BODY_TAF | .REMARK_METAR | .REMARK_TAF | .NIL | .CNL | .ERROR => st
  | .REPORT_TYPE_OR_LOCATION => st.setError .EMPTY_REPORT
  | .CORRECTION | .LOCATION | .REPORT_TIME | .TIME_SPAN | .REPORT_BODY_BEGIN_METAR
  | .REPORT_BODY_BEGIN_METAR_REPEAT_PARSE | .REPORT_BODY_BEGIN_TAF =>
    st.setError .UNEXPECTED_REPORT_END

end Status

/-! ### Parser -/

/-- `ParseResult`, metaf.hpp:2150-2153. -/
structure ParseResult where
  reportMetadata : ReportMetadata := {}
  groups : List GroupInfo := []
  deriving DecidableEq, Repr

namespace Parser

/-- The changes to the metadata made for a keyword, metaf.hpp:7201-7252. -/
def keywordMetadata (k : KeywordType) (md : ReportMetadata) : ReportMetadata :=
  match k with
  | .SPECI => { md with isSpeci := true }
  | .NOSPECI => { md with isNospeci := true }
  | .AUTO => { md with isAutomated := true }
  | .AO1 => { md with isAo1 := true }
  | .AO1A => { md with isAo1a := true }
  | .AO2 => { md with isAo2 := true }
  | .AO2A => { md with isAo2a := true }
  | .NIL => { md with isNil := true }
  | .CNL => { md with isCancelled := true }
  | .AMD => { md with isAmended := true }
  | .COR => { md with isCorrectional := true }
  | .MAINTENANCE_INDICATOR => { md with maintenanceIndicator := true }
  | _ => md

/-- `Parser::updateMetadata`, metaf.hpp:7200-7275. The conversion of the `float` data to an unsigned
number drops the fraction. -/
def updateMetadata (group : Group) (md : ReportMetadata) : ReportMetadata :=
  match group with
  | .keyword k => keywordMetadata k.t md
  | .reportTime t => { md with reportTime := some t.t }
  | .location l => { md with icaoLocation := l.toString }
  | .misc m =>
    if m.groupType = .CORRECTED_WEATHER_OBSERVATION then
      match m.groupData with
      | some v => { md with isCorrectional := true, correctionNumber := some v.floor.toNat }
      | none => md
    else md
  | .trend t =>
    if md.type ≠ .METAR ∧ t.t = .TIME_SPAN ∧ md.timeSpanFrom = none ∧ md.timeSpanUntil = none then
      { md with timeSpanFrom := t.tFrom, timeSpanUntil := t.tTill }
    else md
  | _ => md

/-- `Parser::addGroupToResult`, metaf.hpp:6859-6875. The groups of the result are kept latest
first while parsing. -/
def addGroupToResult (groups : List GroupInfo) (group : Group) (reportPart : ReportPart)
    (groupString : Str) : List GroupInfo :=
  match groups with
  | last :: rest =>
    if group.isFallback && last.group.isFallback then
      { last with rawString := last.rawString ++ c!" " ++ groupString } :: rest
    else { group := group, reportPart := reportPart, rawString := groupString } :: last :: rest
  | [] => [{ group := group, reportPart := reportPart, rawString := groupString }]

/-- `Parser::appendToLastResultGroup` with `allowReparse = false`, metaf.hpp:6807-6857. A string
that was moved from is empty. -/
def appendNoReparse (groups : List GroupInfo) (groupStr : Str) (reportPart : ReportPart)
    (md : ReportMetadata) : Res (List GroupInfo × Bool) :=
  match groups with
  | [] => .ok ([], false)
  | last :: rest =>
    if last.group.isFallback then .ok (last :: rest, false)
    else
      match last.group.append groupStr reportPart md with
      | .error f => .error f
      | .ok (g, .APPENDED) =>
        .ok ({ last with group := g, rawString := last.rawString ++ c!" " ++ groupStr } :: rest, true)
      | .ok (g, .NOT_APPENDED) => .ok ({ last with group := g } :: rest, false)
      | .ok (g, .GROUP_INVALIDATED) =>
        .ok (addGroupToResult ({ last with group := g, rawString := [] } :: rest) (.unknown {})
          last.reportPart last.rawString, false)

/-- `Parser::appendToLastResultGroup` with `allowReparse = true`, metaf.hpp:6807-6857. -/
def appendToLastResultGroup (groups : List GroupInfo) (groupStr : Str) (reportPart : ReportPart)
    (md : ReportMetadata) : Res (List GroupInfo × Bool) :=
  match groups with
  | [] => .ok ([], false)
  | last :: rest =>
    if last.group.isFallback then .ok (last :: rest, false)
    else
      match last.group.append groupStr reportPart md with
      | .error f => .error f
      | .ok (g, .APPENDED) =>
        .ok ({ last with group := g, rawString := last.rawString ++ c!" " ++ groupStr } :: rest, true)
      | .ok (g, .NOT_APPENDED) => .ok ({ last with group := g } :: rest, false)
      | .ok (g, .GROUP_INVALIDATED) =>
        match GroupParser.reparse last.rawString last.reportPart md g with
        | .error f => .error f
        | .ok reparsed =>
          let groups := addGroupToResult rest reparsed last.reportPart last.rawString
          if reparsed.isFallback then .ok (groups, false)
          else appendNoReparse groups groupStr reportPart md

/-- Local variables of `Parser::parse`, metaf.hpp:6757-6763. -/
structure Vars where
  status : Status := {}
  md : ReportMetadata := {}
  groups : List GroupInfo := []
  groupCount : Nat := 0
  deriving DecidableEq, Repr

/-- `groupCount++; if (groupCount >= groupLimit) status.setError(REPORT_TOO_LARGE)`,
metaf.hpp:6782-6783 and 6789-6790. `groupCount` has 64 bits and does not overflow. -/
def countGroup (v : Vars) (groupLimit : Nat) : Vars :=
  let count := v.groupCount + 1
  { v with groupCount := count,
           status := if count ≥ groupLimit then v.status.setError .REPORT_TOO_LARGE else v.status }

/-- The `do ... while` loop of `Parser::parse`, metaf.hpp:6774-6784. The first argument bounds the
number of iterations. The result is the group and the report part of the last iteration. -/
def parseGroup (groupLimit : Nat) (groupStr : Str) : Nat → Vars → Res (Vars × Group × ReportPart)
  | 0, _ => .error .timeout
  | n + 1, v =>
    let reportPart := v.status.getReportPart
    match GroupParser.parse groupStr reportPart v.md with
    | .error f => .error f
    | .ok group =>
      let v := countGroup { v with status := v.status.transition (getSyntaxGroup group) } groupLimit
      if v.status.isReparseRequired && !v.status.isError then parseGroup groupLimit groupStr n v
      else .ok (v, group, reportPart)

/-- The body of the loop over the groups of the report, metaf.hpp:6769-6792. -/
def step (fuel : Nat) (groupLimit : Nat) (groupStr : Str) (v : Vars) : Res Vars :=
  let reportPart := v.status.getReportPart
  match appendToLastResultGroup v.groups groupStr reportPart v.md with
  | .error f => .error f
  | .ok (groups, true) => .ok (countGroup { v with groups := groups } groupLimit)
  | .ok (groups, false) =>
    match parseGroup groupLimit groupStr fuel { v with groups := groups } with
    | .error f => .error f
    | .ok (v, group, reportPart) =>
      .ok { v with md := updateMetadata group v.md,
                   groups := addGroupToResult v.groups group reportPart groupStr }

/-- The loop over the groups of the report, metaf.hpp:6766-6795; `reportEnd` is never set. The
first argument bounds the number of iterations of this loop and of the inner loop. -/
def loop (groupLimit : Nat) : Nat → Str → ReportInput → Vars → Res Vars
  | 0, groupStr, _, v =>
    if groupStr.isEmpty || v.status.isError then .ok v else .error .timeout
  | n + 1, groupStr, input, v =>
    if groupStr.isEmpty || v.status.isError then .ok v
    else
      match step (n + 1) groupLimit groupStr v with
      | .error f => .error f
      | .ok v =>
        let r := input.getNextGroup
        loop groupLimit n r.1 r.2 v

/-- The end of `Parser::parse`, metaf.hpp:6795-6805. -/
def finish (v : Vars) : Res ParseResult :=
  let final (groups : List GroupInfo) : ParseResult :=
    let status := v.status.finalTransition
    { reportMetadata := { v.md with type := status.reportType, error := status.reportError },
      groups := groups.reverse }
  match v.groups with
  | [] => .ok (final [])
  | _ =>
    match appendToLastResultGroup v.groups [] v.status.getReportPart v.md with
    | .error f => .error f
    | .ok ([], _) => .error .outOfRange
    | .ok (last :: rest, _) =>
      if last.rawString.isEmpty then .ok (final rest) else .ok (final (last :: rest))

/-- `Parser::parse`, metaf.hpp:6756-6805, with a bound on the iterations of its loops. -/
def run (fuel : Nat) (report : Str) (groupLimit : Nat) : Res ParseResult :=
  let r := ReportInput.getNextGroup { rest := report }
  match loop groupLimit fuel r.1 r.2 {} with
  | .error f => .error f
  | .ok v => finish v

/-- `Parser::parse`, metaf.hpp:6756-6805. The bound is shown sufficient for every report. -/
def parse (report : Str) (groupLimit : Nat := 200) : Res ParseResult :=
  run (report.length + 2) report groupLimit

end Parser

/-! ### Visitor -/

/-- `Visitor<T>`, metaf.hpp:2244-2319: the methods a user supplies. -/
structure Visitor (T : Type) where
  visitKeywordGroup : KeywordGroup → ReportPart → Str → T
  visitLocationGroup : LocationGroup → ReportPart → Str → T
  visitReportTimeGroup : ReportTimeGroup → ReportPart → Str → T
  visitTrendGroup : TrendGroup → ReportPart → Str → T
  visitWindGroup : WindGroup → ReportPart → Str → T
  visitVisibilityGroup : VisibilityGroup → ReportPart → Str → T
  visitCloudGroup : CloudGroup → ReportPart → Str → T
  visitWeatherGroup : WeatherGroup → ReportPart → Str → T
  visitTemperatureGroup : TemperatureGroup → ReportPart → Str → T
  visitPressureGroup : PressureGroup → ReportPart → Str → T
  visitRunwayStateGroup : RunwayStateGroup → ReportPart → Str → T
  visitSeaSurfaceGroup : SeaSurfaceGroup → ReportPart → Str → T
  visitMinMaxTemperatureGroup : MinMaxTemperatureGroup → ReportPart → Str → T
  visitPrecipitationGroup : PrecipitationGroup → ReportPart → Str → T
  visitLayerForecastGroup : LayerForecastGroup → ReportPart → Str → T
  visitPressureTendencyGroup : PressureTendencyGroup → ReportPart → Str → T
  visitCloudTypesGroup : CloudTypesGroup → ReportPart → Str → T
  visitLowMidHighCloudGroup : LowMidHighCloudGroup → ReportPart → Str → T
  visitLightningGroup : LightningGroup → ReportPart → Str → T
  visitVicinityGroup : VicinityGroup → ReportPart → Str → T
  visitMiscGroup : MiscGroup → ReportPart → Str → T
  visitUnknownGroup : UnknownGroup → ReportPart → Str → T

namespace Group

/-- `std::get_if<KeywordGroup>` on a `Group`, metaf.hpp:62-85. -/
def getIfKeyword : Group → Option KeywordGroup
  | .keyword g => some g
  | _ => none

/-- `std::get_if<LocationGroup>` on a `Group`, metaf.hpp:62-85. -/
def getIfLocation : Group → Option LocationGroup
  | .location g => some g
  | _ => none

/-- `std::get_if<ReportTimeGroup>` on a `Group`, metaf.hpp:62-85. -/
def getIfReportTime : Group → Option ReportTimeGroup
  | .reportTime g => some g
  | _ => none

/-- `std::get_if<TrendGroup>` on a `Group`, metaf.hpp:62-85. -/
def getIfTrend : Group → Option TrendGroup
  | .trend g => some g
  | _ => none

/-- `std::get_if<WindGroup>` on a `Group`, metaf.hpp:62-85. -/
def getIfWind : Group → Option WindGroup
  | .wind g => some g
  | _ => none

/-- `std::get_if<VisibilityGroup>` on a `Group`, metaf.hpp:62-85. -/
def getIfVisibility : Group → Option VisibilityGroup
  | .visibility g => some g
  | _ => none

/-- `std::get_if<CloudGroup>` on a `Group`, metaf.hpp:62-85. -/
def getIfCloud : Group → Option CloudGroup
  | .cloud g => some g
  | _ => none

/-- `std::get_if<WeatherGroup>` on a `Group`, metaf.hpp:62-85. -/
def getIfWeather : Group → Option WeatherGroup
  | .weather g => some g
  | _ => none

/-- `std::get_if<TemperatureGroup>` on a `Group`, metaf.hpp:62-85. -/
def getIfTemperature : Group → Option TemperatureGroup
  | .temperature g => some g
  | _ => none

/-- `std::get_if<PressureGroup>` on a `Group`, metaf.hpp:62-85. -/
def getIfPressure : Group → Option PressureGroup
  | .pressure g => some g
  | _ => none

/-- `std::get_if<RunwayStateGroup>` on a `Group`, metaf.hpp:62-85. -/
def getIfRunwayState : Group → Option RunwayStateGroup
  | .runwayState g => some g
  | _ => none

/-- `std::get_if<SeaSurfaceGroup>` on a `Group`, metaf.hpp:62-85. -/
def getIfSeaSurface : Group → Option SeaSurfaceGroup
  | .seaSurface g => some g
  | _ => none

/-- `std::get_if<MinMaxTemperatureGroup>` on a `Group`, metaf.hpp:62-85. -/
def getIfMinMaxTemperature : Group → Option MinMaxTemperatureGroup
  | .minMaxTemperature g => some g
  | _ => none

/-- `std::get_if<PrecipitationGroup>` on a `Group`, metaf.hpp:62-85. -/
def getIfPrecipitation : Group → Option PrecipitationGroup
  | .precipitation g => some g
  | _ => none

/-- `std::get_if<LayerForecastGroup>` on a `Group`, metaf.hpp:62-85. -/
def getIfLayerForecast : Group → Option LayerForecastGroup
  | .layerForecast g => some g
  | _ => none

/-- `std::get_if<PressureTendencyGroup>` on a `Group`, metaf.hpp:62-85. -/
def getIfPressureTendency : Group → Option PressureTendencyGroup
  | .pressureTendency g => some g
  | _ => none

/-- `std::get_if<CloudTypesGroup>` on a `Group`, metaf.hpp:62-85. -/
def getIfCloudTypes : Group → Option CloudTypesGroup
  | .cloudTypes g => some g
  | _ => none

/-- `std::get_if<LowMidHighCloudGroup>` on a `Group`, metaf.hpp:62-85. -/
def getIfLowMidHighCloud : Group → Option LowMidHighCloudGroup
  | .lowMidHighCloud g => some g
  | _ => none

/-- `std::get_if<LightningGroup>` on a `Group`, metaf.hpp:62-85. -/
def getIfLightning : Group → Option LightningGroup
  | .lightning g => some g
  | _ => none

/-- `std::get_if<VicinityGroup>` on a `Group`, metaf.hpp:62-85. -/
def getIfVicinity : Group → Option VicinityGroup
  | .vicinity g => some g
  | _ => none

/-- `std::get_if<MiscGroup>` on a `Group`, metaf.hpp:62-85. -/
def getIfMisc : Group → Option MiscGroup
  | .misc g => some g
  | _ => none

/-- `std::get_if<UnknownGroup>` on a `Group`, metaf.hpp:62-85. -/
def getIfUnknown : Group → Option UnknownGroup
  | .unknown g => some g
  | _ => none

end Group

namespace Visitor

/-- `Visitor<T>::visit(group, reportPart, rawString)`, metaf.hpp:2323-2394, and its specialisation
for `void`, metaf.hpp:2396-2491, which calls the same methods in the same order of tests. The value
`T()` at the end is the default value of the type. -/
def visit {T : Type} [Inhabited T] (v : Visitor T) (group : Group) (p : ReportPart) (raw : Str) : T :=
  match group.getIfKeyword with
  | some gr => v.visitKeywordGroup gr p raw
  | none =>
  match group.getIfLocation with
  | some gr => v.visitLocationGroup gr p raw
  | none =>
  match group.getIfReportTime with
  | some gr => v.visitReportTimeGroup gr p raw
  | none =>
  match group.getIfTrend with
  | some gr => v.visitTrendGroup gr p raw
  | none =>
  match group.getIfWind with
  | some gr => v.visitWindGroup gr p raw
  | none =>
  match group.getIfVisibility with
  | some gr => v.visitVisibilityGroup gr p raw
  | none =>
  match group.getIfCloud with
  | some gr => v.visitCloudGroup gr p raw
  | none =>
  match group.getIfWeather with
  | some gr => v.visitWeatherGroup gr p raw
  | none =>
  match group.getIfTemperature with
  | some gr => v.visitTemperatureGroup gr p raw
  | none =>
  match group.getIfPressure with
  | some gr => v.visitPressureGroup gr p raw
  | none =>
  match group.getIfRunwayState with
  | some gr => v.visitRunwayStateGroup gr p raw
  | none =>
  match group.getIfSeaSurface with
  | some gr => v.visitSeaSurfaceGroup gr p raw
  | none =>
  match group.getIfMinMaxTemperature with
  | some gr => v.visitMinMaxTemperatureGroup gr p raw
  | none =>
  match group.getIfPrecipitation with
  | some gr => v.visitPrecipitationGroup gr p raw
  | none =>
  match group.getIfLayerForecast with
  | some gr => v.visitLayerForecastGroup gr p raw
  | none =>
  match group.getIfPressureTendency with
  | some gr => v.visitPressureTendencyGroup gr p raw
  | none =>
  match group.getIfCloudTypes with
  | some gr => v.visitCloudTypesGroup gr p raw
  | none =>
  match group.getIfLowMidHighCloud with
  | some gr => v.visitLowMidHighCloudGroup gr p raw
  | none =>
  match group.getIfLightning with
  | some gr => v.visitLightningGroup gr p raw
  | none =>
  match group.getIfVicinity with
  | some gr => v.visitVicinityGroup gr p raw
  | none =>
  match group.getIfMisc with
  | some gr => v.visitMiscGroup gr p raw
  | none =>
  match group.getIfUnknown with
  | some gr => v.visitUnknownGroup gr p raw
  | none =>
  default

/-- `Visitor<T>::visit(groupInfo)`, metaf.hpp:2249-2251 and 2493-2496. -/
def visitInfo {T : Type} [Inhabited T] (v : Visitor T) (gi : GroupInfo) : T :=
  v.visit gi.group gi.reportPart gi.rawString

end Visitor

end Metaf

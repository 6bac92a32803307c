import Verif.Model.Report

/-!
Model of the groups `KeywordGroup`, `LocationGroup`, `ReportTimeGroup`, `TrendGroup`, `WindGroup`.
Source: `/repo/include/metaf.hpp`.

`parse` functions return the parsed group or `none`. `append` functions return the group after the
call together with the `AppendResult`; a member function that returns `bool` and changes the object
only when it returns `true` is modelled by an `Option` of the changed object.
-/

namespace Metaf

variable [FloatSem]

/-! ### KeywordGroup -/

/-- `KeywordGroup::Type`, metaf.hpp:921-938. -/
inductive KeywordType
  | METAR | SPECI | TAF | AMD | NIL | CNL | COR | AUTO | CAVOK | RMK | MAINTENANCE_INDICATOR
  | AO1 | AO2 | AO1A | AO2A | NOSPECI
  deriving DecidableEq, Repr

/-- `KeywordGroup`, metaf.hpp:919-953. -/
structure KeywordGroup where
  t : KeywordType
  deriving DecidableEq, Repr

namespace KeywordGroup

/-- `KeywordGroup::isValid`, metaf.hpp:940. -/
def isValid (_ : KeywordGroup) : Bool := true

/-- `KeywordGroup::parse`, metaf.hpp:4133-4169. -/
def parse (group : Str) (reportPart : ReportPart) : Option KeywordGroup :=
  if reportPart = .HEADER ∧ group = c!"METAR" then some ⟨.METAR⟩
  else if reportPart = .HEADER ∧ group = c!"SPECI" then some ⟨.SPECI⟩
  else if reportPart = .HEADER ∧ group = c!"TAF" then some ⟨.TAF⟩
  else if reportPart = .HEADER ∧ group = c!"AMD" then some ⟨.AMD⟩
  else if (reportPart = .HEADER ∨ reportPart = .METAR) ∧ group = c!"COR" then some ⟨.COR⟩
  else if (reportPart = .HEADER ∨ reportPart = .METAR ∨ reportPart = .TAF) ∧ group = c!"NIL" then
    some ⟨.NIL⟩
  else if (reportPart = .HEADER ∨ reportPart = .METAR ∨ reportPart = .TAF) ∧ group = c!"CNL" then
    some ⟨.CNL⟩
  else if reportPart = .METAR ∧ group = c!"AUTO" then some ⟨.AUTO⟩
  else if (reportPart = .METAR ∨ reportPart = .TAF) ∧ group = c!"CAVOK" then some ⟨.CAVOK⟩
  else if (reportPart = .METAR ∨ reportPart = .TAF) ∧ group = c!"RMK" then some ⟨.RMK⟩
  else if reportPart = .RMK ∧ group = c!"AO1" then some ⟨.AO1⟩
  else if reportPart = .RMK ∧ group = c!"AO2" then some ⟨.AO2⟩
  else if reportPart = .RMK ∧ group = c!"AO1A" then some ⟨.AO1A⟩
  else if reportPart = .RMK ∧ group = c!"AO2A" then some ⟨.AO2A⟩
  else if reportPart = .RMK ∧ group = c!"NOSPECI" then some ⟨.NOSPECI⟩
  else if group = c!"$" then some ⟨.MAINTENANCE_INDICATOR⟩
  else none

/-- `KeywordGroup::append`, metaf.hpp:4171-4177. -/
def append (g : KeywordGroup) (_ : Str) : KeywordGroup × AppendResult := (g, .NOT_APPENDED)

end KeywordGroup

/-! ### LocationGroup -/

/-- `LocationGroup`, metaf.hpp:955-971. The zero-terminated array of four characters is the
text. -/
structure LocationGroup where
  location : Str := []
  deriving DecidableEq, Repr

namespace LocationGroup

/-- `LocationGroup::toString`, metaf.hpp:957. -/
def toString (g : LocationGroup) : Str := g.location

/-- `LocationGroup::isValid`, metaf.hpp:958. -/
def isValid (_ : LocationGroup) : Bool := true

/-- Regular expression of `LocationGroup::parse`, metaf.hpp:4188. -/
def rgx : Rx := .AZ ⬝ .rep (.set [('A', 'Z'), ('0', '9')]) 3

/-- `LocationGroup::parse`, metaf.hpp:4181-4194. -/
def parse (group : Str) (reportPart : ReportPart) : Option LocationGroup :=
  if reportPart ≠ .HEADER then none
  else if (regexMatch rgx group).isNone then none
  else some { location := group.take 4 }

/-- `LocationGroup::append`, metaf.hpp:4196-4202. -/
def append (g : LocationGroup) (_ : Str) : LocationGroup × AppendResult := (g, .NOT_APPENDED)

end LocationGroup

/-! ### ReportTimeGroup -/

/-- `ReportTimeGroup`, metaf.hpp:973-989. -/
structure ReportTimeGroup where
  t : MetafTime := {}
  deriving DecidableEq, Repr

namespace ReportTimeGroup

/-- `ReportTimeGroup::isValid`, metaf.hpp:976. -/
def isValid (g : ReportTimeGroup) : Bool := g.t.isValid && g.t.dayValue.isSome

/-- Regular expression of `ReportTimeGroup::parse`, metaf.hpp:4212. -/
def rgx : Rx := .d ⬝ .d ⬝ .d ⬝ .d ⬝ .d ⬝ .d ⬝ .chr 'Z'

/-- `ReportTimeGroup::parse`, metaf.hpp:4206-4222. -/
def parse (group : Str) (reportPart : ReportPart) : Option ReportTimeGroup :=
  if reportPart ≠ .HEADER then none
  else if (regexMatch rgx group).isNone then none
  else
    match MetafTime.fromStringDDHHMM (substr group 0 6) with
    | none => none
    | some tm => if tm.dayValue.isNone then none else some { t := tm }

/-- `ReportTimeGroup::append`, metaf.hpp:4224-4230. -/
def append (g : ReportTimeGroup) (_ : Str) : ReportTimeGroup × AppendResult := (g, .NOT_APPENDED)

end ReportTimeGroup

/-! ### TrendGroup -/

/-- `TrendGroup::Type`, metaf.hpp:993-1003. -/
inductive TrendType | NOSIG | BECMG | TEMPO | INTER | FROM | UNTIL | AT | TIME_SPAN | PROB
  deriving DecidableEq, Repr

/-- `TrendGroup::Probability`, metaf.hpp:1004-1008. -/
inductive Probability | NONE | PROB_30 | PROB_40
  deriving DecidableEq, Repr

/-- `TrendGroup`, metaf.hpp:991-1059. -/
structure TrendGroup where
  t : TrendType := .NOSIG
  prob : Probability := .NONE
  isTafTimeSpanGroup : Bool := false
  tFrom : Option MetafTime := none
  tTill : Option MetafTime := none
  tAt : Option MetafTime := none
  deriving DecidableEq, Repr

namespace TrendGroup

/-- `TrendGroup::isValid`, metaf.hpp:1014-1020. -/
def isValid (g : TrendGroup) : Bool :=
  if g.t = .PROB then false
  else if g.tFrom.any (fun x => !x.isValid) then false
  else if g.tTill.any (fun x => !x.isValid) then false
  else if g.tAt.any (fun x => !x.isValid) then false
  else true

/-- Regular expression of `fromTimeSpan` and `fromTimeSpanHHMM`, metaf.hpp:4287 and 4305. -/
def timeSpanRgx : Rx :=
  .cap 1 (.d ⬝ .d ⬝ .d ⬝ .d) ⬝ .chr '/' ⬝ .cap 2 (.d ⬝ .d ⬝ .d ⬝ .d)

/-- `TrendGroup::fromTimeSpan`, metaf.hpp:4285-4301. -/
def fromTimeSpan (s : Str) : Option TrendGroup :=
  match regexMatch timeSpanRgx s with
  | none => none
  | some m =>
    match MetafTime.fromStringDDHH (m.str 1), MetafTime.fromStringDDHH (m.str 2) with
    | some f, some t =>
      some { t := .TIME_SPAN, isTafTimeSpanGroup := true, tFrom := some f, tTill := some t }
    | _, _ => none

/-- `TrendGroup::fromTimeSpanHHMM`, metaf.hpp:4303-4319. -/
def fromTimeSpanHHMM (s : Str) : Option TrendGroup :=
  match regexMatch timeSpanRgx s with
  | none => none
  | some m =>
    match MetafTime.fromStringDDHHMM (m.str 1), MetafTime.fromStringDDHHMM (m.str 2) with
    | some f, some t =>
      some { t := .TIME_SPAN, isTafTimeSpanGroup := true, tFrom := some f, tTill := some t }
    | _, _ => none

/-- Regular expression of `fromFm`, metaf.hpp:4323. -/
def fmRgx : Rx := .lit c!"FM" ⬝ .d ⬝ .d ⬝ .d ⬝ .d ⬝ .d ⬝ .d

/-- `TrendGroup::fromFm`, metaf.hpp:4321-4333. -/
def fromFm (s : Str) : Option TrendGroup :=
  if (regexMatch fmRgx s).isNone then none
  else
    match MetafTime.fromStringDDHHMM (substr s 2 6) with
    | none => none
    | some time => some { t := .FROM, tFrom := some time }

/-- Regular expression of `fromTrendTime`, metaf.hpp:4337. -/
def trendTimeRgx : Rx :=
  .cap 1 (.oneOf c!"FTA" ⬝ .oneOf c!"MLT") ⬝ .cap 2 (.d ⬝ .d ⬝ .d ⬝ .d)

/-- `TrendGroup::fromTrendTime`, metaf.hpp:4335-4360. -/
def fromTrendTime (s : Str) : Option TrendGroup :=
  match regexMatch trendTimeRgx s with
  | none => none
  | some m =>
    match MetafTime.fromStringDDHHMM (m.str 2) with
    | none => none
    | some time =>
      if m.str 1 = c!"FM" then some { t := .FROM, tFrom := some time }
      else if m.str 1 = c!"TL" then some { t := .UNTIL, tTill := some time }
      else if m.str 1 = c!"AT" then some { t := .AT, tAt := some time }
      else none

/-- `TrendGroup::parse`, metaf.hpp:4234-4268. -/
def parse (group : Str) (reportPart : ReportPart) : Option TrendGroup :=
  if (reportPart = .METAR ∨ reportPart = .TAF) ∧ group = c!"BECMG" then some { t := .BECMG }
  else if (reportPart = .METAR ∨ reportPart = .TAF) ∧ group = c!"TEMPO" then some { t := .TEMPO }
  else if (reportPart = .METAR ∨ reportPart = .TAF) ∧ group = c!"INTER" then some { t := .INTER }
  else
    match reportPart with
    | .TAF =>
      if group = c!"PROB30" then some { t := .PROB, prob := .PROB_30 }
      else if group = c!"PROB40" then some { t := .PROB, prob := .PROB_40 }
      else
        match fromTimeSpan group with
        | some g => some g
        | none =>
          match fromFm group with
          | some g => some g
          | none => fromTimeSpan group
    | .METAR =>
      if group = c!"NOSIG" then some { t := .NOSIG }
      else
        match fromTrendTime group with
        | some g => some g
        | none => fromTimeSpanHHMM group
    | .HEADER => fromTimeSpan group
    | _ => none

/-- `TrendGroup::isProbabilityGroup`, metaf.hpp:4399-4407. -/
def isProbabilityGroup (g : TrendGroup) : Bool :=
  if g.t ≠ .PROB then false
  else if g.prob = .NONE then false
  else if g.tFrom.isSome || g.tTill.isSome then false
  else if g.tAt.isSome then false
  else true

/-- `TrendGroup::isTrendTypeGroup`, metaf.hpp:4409-4419. -/
def isTrendTypeGroup (g : TrendGroup) : Bool :=
  if g.t ≠ .BECMG ∧ g.t ≠ .TEMPO ∧ g.t ≠ .INTER then false
  else if g.prob ≠ .NONE then false
  else if g.tFrom.isSome || g.tTill.isSome then false
  else if g.tAt.isSome then false
  else true

/-- `TrendGroup::isTrendTimeGroup`, metaf.hpp:4421-4432. -/
def isTrendTimeGroup (g : TrendGroup) : Bool :=
  if g.t ≠ .FROM ∧ g.t ≠ .UNTIL ∧ g.t ≠ .AT then false
  else if g.prob ≠ .NONE then false
  else if !g.tFrom.isSome && !g.tTill.isSome && !g.tAt.isSome then false
  else if g.tFrom.isSome && g.tTill.isSome then false
  else if g.tFrom.isSome && g.tAt.isSome then false
  else if g.tTill.isSome && g.tAt.isSome then false
  else true

/-- `TrendGroup::isTimeSpanGroup`, metaf.hpp:4434-4446. -/
def isTimeSpanGroup (g : TrendGroup) : Bool :=
  if g.t ≠ .TIME_SPAN ∨ g.isTafTimeSpanGroup = false ∨ g.prob ≠ .NONE ∨ g.tFrom = none ∨
     g.tTill = none then false
  else if g.tAt.isSome then false
  else true

/-- `TrendGroup::canCombineTime`, metaf.hpp:4448-4459. -/
def canCombineTime (g1 g2 : TrendGroup) : Bool :=
  if g1.tFrom.isSome && g2.tFrom.isSome then false
  else if g1.tTill.isSome && g2.tTill.isSome then false
  else if g1.tAt.isSome && g2.tAt.isSome then false
  else if g1.tAt.isSome && (g2.tFrom.isSome || g2.tTill.isSome) then false
  else if g2.tAt.isSome && (g1.tFrom.isSome || g1.tTill.isSome) then false
  else true

/-- `TrendGroup::combineTime`, metaf.hpp:4461-4465. -/
def combineTime (g next : TrendGroup) : TrendGroup :=
  { g with
    tFrom := if g.tFrom.isSome then g.tFrom else next.tFrom
    tTill := if g.tTill.isSome then g.tTill else next.tTill
    tAt := if g.tAt.isSome then g.tAt else next.tAt }

/-- `TrendGroup::combineProbAndTrendTypeGroups`, metaf.hpp:4362-4369. -/
def combineProbAndTrendTypeGroups (g next : TrendGroup) : Option TrendGroup :=
  if !g.isProbabilityGroup then none
  else if !next.isTrendTypeGroup then none
  else if next.t ≠ .TEMPO ∧ next.t ≠ .INTER then none
  else some { g with t := next.t }

/-- `TrendGroup::combineTrendTypeAndTimeGroup`, metaf.hpp:4371-4380. -/
def combineTrendTypeAndTimeGroup (g next : TrendGroup) : Option TrendGroup :=
  if g.t ≠ .BECMG ∧ g.t ≠ .TEMPO ∧ g.t ≠ .INTER then none
  else if !next.isTimeSpanGroup && !next.isTrendTimeGroup then none
  else if !canCombineTime g next then none
  else some (g.combineTime next)

/-- `TrendGroup::combineProbAndTimeSpanGroups`, metaf.hpp:4382-4388. -/
def combineProbAndTimeSpanGroups (g next : TrendGroup) : Option TrendGroup :=
  if !g.isProbabilityGroup then none
  else if !next.isTimeSpanGroup then none
  else some { g.combineTime next with t := .TIME_SPAN }

/-- `TrendGroup::combineIncompleteGroups`, metaf.hpp:4390-4397. -/
def combineIncompleteGroups (g next : TrendGroup) : Option TrendGroup :=
  if g.prob ≠ .NONE ∨ g.t ≠ .FROM ∨ next.t ≠ .UNTIL then none
  else some { g with t := .TIME_SPAN, tTill := next.tTill }

/-- `TrendGroup::append`, metaf.hpp:4270-4283. -/
def append (g : TrendGroup) (group : Str) (reportPart : ReportPart) : TrendGroup × AppendResult :=
  if g.t = .NOSIG then (g, .NOT_APPENDED)
  else
    match parse group reportPart with
    | none => (g, .NOT_APPENDED)
    | some next =>
      match combineProbAndTrendTypeGroups g next with
      | some g' => (g', .APPENDED)
      | none =>
        match combineTrendTypeAndTimeGroup g next with
        | some g' => (g', .APPENDED)
        | none =>
          match combineProbAndTimeSpanGroups g next with
          | some g' => (g', .APPENDED)
          | none =>
            match combineIncompleteGroups g next with
            | some g' => (g', .APPENDED)
            | none => (g, .NOT_APPENDED)

end TrendGroup

/-! ### WindGroup -/

/-- `WindGroup::Type`, metaf.hpp:1063-1075. -/
inductive WindType
  | SURFACE_WIND | SURFACE_WIND_CALM | VARIABLE_WIND_SECTOR | SURFACE_WIND_WITH_VARIABLE_SECTOR
  | WIND_SHEAR | WIND_SHEAR_IN_LOWER_LAYERS | WIND_SHIFT | WIND_SHIFT_FROPA | PEAK_WIND | WSCONDS
  | WND_MISG
  deriving DecidableEq, Repr

/-- `WindGroup::IncompleteText`, metaf.hpp:1096-1103. -/
inductive WindIncomplete | NONE | PK | PK_WND | WND | WS | WS_ALL
  deriving DecidableEq, Repr

/-- `WindGroup`, metaf.hpp:1061-1126. -/
structure WindGroup where
  windType : WindType
  windDir : Direction := {}
  wSpeed : Speed := {}
  gSpeed : Speed := {}
  wShHeight : Distance := {}
  vsecBegin : Direction := {}
  vsecEnd : Direction := {}
  evTime : Option MetafTime := none
  rw : Option Runway := none
  incompleteText : WindIncomplete := .NONE
  deriving DecidableEq, Repr

namespace WindGroup

/-- Regular expression of `parseVariableSector`, metaf.hpp:4586. -/
def varWindRgx : Rx :=
  .cap 1 (.d ⬝ .d ⬝ .chr '0') ⬝ .chr 'V' ⬝ .cap 2 (.d ⬝ .d ⬝ .chr '0')

/-- `WindGroup::parseVariableSector`, metaf.hpp:4584-4600. -/
def parseVariableSector (group : Str) : Option WindGroup :=
  match regexMatch varWindRgx group with
  | none => none
  | some m =>
    match Direction.fromDegreesString (m.str 1) with
    | none => none
    | some b =>
      match Direction.fromDegreesString (m.str 2) with
      | none => none
      | some e => some { windType := .VARIABLE_WIND_SECTOR, vsecBegin := b, vsecEnd := e }

/-- `[1-9]?\d\d`, a part of the expressions at metaf.hpp:4494-4495 and 4616. -/
def speedRx : Rx := .opt (.set [('1', '9')]) ⬝ .d ⬝ .d

/-- Regular expression of `WindGroup::parse`, metaf.hpp:4494-4495. -/
def windRgx : Rx :=
  .opt (.lit c!"WS" ⬝ .cap 1 (.d ⬝ .d ⬝ .d) ⬝ .chr '/') ⬝
  .cap 2 ((.d ⬝ .d ⬝ .chr '0') ∥ .lit c!"VRB" ∥ .lit c!"///") ⬝
  .cap 3 (speedRx ∥ .lit c!"//") ⬝
  .opt (.chr 'G' ⬝ .cap 4 speedRx) ⬝
  .cap 5 (.oneOf c!"KM" ⬝ .oneOf c!"TMP" ⬝ .opt (.oneOf c!"HS"))

/-- Wind part of `WindGroup::parse`, metaf.hpp:4493-4536. -/
def parseWind (group : Str) : Option WindGroup :=
  match regexMatch windRgx group with
  | none => none
  | some m =>
    match Speed.unitFromString (m.str 5) with
    | none => none
    | some speedUnit =>
      match Speed.fromString (m.str 3) speedUnit with
      | none => none
      | some speed =>
        if (m.str 1).isEmpty ∧ (m.str 4).isEmpty ∧ m.str 2 = c!"000" ∧ m.str 3 = c!"00" then
          some { windType := .SURFACE_WIND_CALM, wSpeed := speed }
        else
          match Direction.fromDegreesString (m.str 2) with
          | none => none
          | some dir =>
            let gSpeed := (Speed.fromString (m.str 4) speedUnit).getD {}
            match Distance.fromHeightString (m.str 1) with
            | none => some { windType := .SURFACE_WIND, windDir := dir, wSpeed := speed,
                             gSpeed := gSpeed }
            | some h => some { windType := .WIND_SHEAR, windDir := dir, wSpeed := speed,
                               gSpeed := gSpeed, wShHeight := h }

/-- `WindGroup::parse`, metaf.hpp:4469-4535. -/
def parse (group : Str) (reportPart : ReportPart) : Option WindGroup :=
  if reportPart = .METAR ∧ group = c!"WS" then
    some { windType := .WIND_SHEAR_IN_LOWER_LAYERS, incompleteText := .WS }
  else if reportPart = .TAF ∧ group = c!"WSCONDS" then some { windType := .WSCONDS }
  else if reportPart = .RMK ∧ group = c!"WSHFT" then some { windType := .WIND_SHIFT }
  else if reportPart = .RMK ∧ group = c!"PK" then
    some { windType := .PEAK_WIND, incompleteText := .PK }
  else if reportPart = .RMK ∧ group = c!"WND" then
    some { windType := .WND_MISG, incompleteText := .WND }
  else if reportPart ≠ .METAR ∧ reportPart ≠ .TAF then none
  else
    match parseVariableSector group with
    | some g => some g
    | none => parseWind group

/-- `WindGroup::appendVariableSector`, metaf.hpp:4602-4610. -/
def appendVariableSector (g : WindGroup) (group : Str) : WindGroup × AppendResult :=
  match parseVariableSector group with
  | some vs => ({ g with windType := .SURFACE_WIND_WITH_VARIABLE_SECTOR,
                         vsecBegin := vs.vsecBegin, vsecEnd := vs.vsecEnd }, .APPENDED)
  | none => (g, .NOT_APPENDED)

/-- Regular expression of `appendPeakWind`, metaf.hpp:4616. -/
def pkWndRgx : Rx :=
  .cap 1 (.d ⬝ .d ⬝ .chr '0') ⬝ .cap 2 speedRx ⬝ .chr '/' ⬝ .opt (.cap 3 (.d ⬝ .d)) ⬝
    .cap 4 (.d ⬝ .d)

/-- `WindGroup::appendPeakWind`, metaf.hpp:4612-4643. -/
def appendPeakWind (g : WindGroup) (group : Str) (md : ReportMetadata) : WindGroup × AppendResult :=
  match regexMatch pkWndRgx group with
  | none => (g, .GROUP_INVALIDATED)
  | some m =>
    let g := { g with windType := .PEAK_WIND }
    match Direction.fromDegreesString (m.str 1) with
    | none => (g, .GROUP_INVALIDATED)
    | some dir =>
      let g := { g with windDir := dir }
      match Speed.fromString (m.str 2) .KNOTS with
      | none => (g, .GROUP_INVALIDATED)
      | some speed =>
        let g := { g with wSpeed := speed }
        let minute := WeatherPhenomena.stoi (m.str 4)
        if (m.str 3).isEmpty then
          match md.reportTime with
          | none => (g, .GROUP_INVALIDATED)
          | some rt => ({ g with evTime := some { hourValue := rt.hourValue, minuteValue := minute },
                                 incompleteText := .NONE }, .APPENDED)
        else
          ({ g with evTime := some { hourValue := WeatherPhenomena.stoi (m.str 3),
                                     minuteValue := minute },
                    incompleteText := .NONE }, .APPENDED)

/-- `WindGroup::appendWindShift`, metaf.hpp:4645-4676. -/
def appendWindShift (g : WindGroup) (group : Str) (md : ReportMetadata) :
    WindGroup × AppendResult :=
  if group = c!"FROPA" then ({ g with windType := .WIND_SHIFT_FROPA }, .APPENDED)
  else if g.evTime.isSome then (g, .NOT_APPENDED)
  else
    match md.reportTime, group.length with
    | some rt, 2 =>
      match strToUint group 0 2 with
      | none => (g, .NOT_APPENDED)
      | some minute =>
        ({ g with evTime := some { hourValue := rt.hourValue, minuteValue := minute } }, .APPENDED)
    | _, 4 =>
      match strToUint group 0 4 with
      | none => (g, .NOT_APPENDED)
      | some hm =>
        ({ g with evTime := some { hourValue := hm / 100, minuteValue := hm % 100 } }, .APPENDED)
    | _, _ => (g, .NOT_APPENDED)

/-- `WindGroup::append`, metaf.hpp:4537-4582. -/
def append (g : WindGroup) (group : Str) (md : ReportMetadata) : WindGroup × AppendResult :=
  match g.incompleteText with
  | .NONE =>
    match g.windType with
    | .SURFACE_WIND => g.appendVariableSector group
    | .WIND_SHIFT => g.appendWindShift group md
    | _ => (g, .NOT_APPENDED)
  | .PK =>
    if group ≠ c!"WND" then (g, .GROUP_INVALIDATED)
    else ({ g with incompleteText := .PK_WND }, .APPENDED)
  | .PK_WND => g.appendPeakWind group md
  | .WND =>
    if group ≠ c!"MISG" then (g, .GROUP_INVALIDATED)
    else ({ g with incompleteText := .NONE }, .APPENDED)
  | .WS_ALL =>
    if group ≠ c!"RWY" then (g, .GROUP_INVALIDATED)
    else ({ g with incompleteText := .NONE, rw := some Runway.makeAllRunways }, .APPENDED)
  | .WS =>
    if group = c!"ALL" then ({ g with incompleteText := .WS_ALL }, .APPENDED)
    else
      match Runway.fromString group true with
      | some r => ({ g with incompleteText := .NONE, rw := some r }, .APPENDED)
      | none => (g, .GROUP_INVALIDATED)

/-- `WindGroup::isValid`, metaf.hpp:4678-4690. `Distance::isValid` is always true
(metaf.hpp:274). -/
def isValid (g : WindGroup) : Bool :=
  if g.incompleteText ≠ .NONE then false
  else if g.gSpeed.speedValue.getD 1 = 0 then false
  else if g.wShHeight.distance.getD 1 = 0 then false
  else if !(g.rw.getD {}).isValid then false
  else if !(g.evTime.getD {}).isValid then false
  else if g.wSpeed.speedValue.getD 0 ≥ g.gSpeed.speedValue.getD 999 then false
  else g.windDir.isValid && g.vsecBegin.isValid && g.vsecEnd.isValid

end WindGroup

end Metaf

import Verif.Model.GroupsA

/-!
Model of the groups `VisibilityGroup`, `CloudGroup`, `WeatherGroup`.
Source: `/repo/include/metaf.hpp`.
-/

namespace Metaf

variable [FloatSem]

/-! ### VisibilityGroup -/

/-- `VisibilityGroup::Type`, metaf.hpp:1130-1148. -/
inductive VisibilityType
  | PREVAILING | PREVAILING_NDV | DIRECTIONAL | RUNWAY | RVR | SURFACE | TOWER | SECTOR
  | VARIABLE_PREVAILING | VARIABLE_DIRECTIONAL | VARIABLE_RUNWAY | VARIABLE_RVR | VARIABLE_SECTOR
  | VIS_MISG | RVR_MISG | RVRNO | VISNO
  deriving DecidableEq, Repr

/-- `VisibilityGroup::Trend`, metaf.hpp:1149-1155. -/
inductive RvrTrend | NONE | NOT_REPORTED | UPWARD | NEUTRAL | DOWNWARD
  deriving DecidableEq, Repr

/-- `VisibilityGroup::IncompleteText`, metaf.hpp:1185-1201. -/
inductive VisIncomplete
  | NONE | INTEGER | VIS | VIS_INTEGER | VIS_FRACTION_OR_METERS | VIS_VAR_MAX_INT | VIS_VAR
  | VIS_DIR | VIS_DIR_INTEGER | VIS_DIR_VAR_MAX_INT | SFC_OR_TWR | SFC_OR_TWR_VIS
  | SFC_OR_TWR_VIS_INTEGER | RVR | VISNO
  deriving DecidableEq, Repr

/-- `VisibilityGroup`, metaf.hpp:1128-1263. -/
structure VisibilityGroup where
  visType : VisibilityType := .PREVAILING
  vis : Distance := {}
  visMax : Distance := {}
  rvrTrend : RvrTrend := .NONE
  dir : Option Direction := none
  rw : Option Runway := none
  dirSecFrom : Option Direction := none
  dirSecTo : Option Direction := none
  incompleteText : VisIncomplete := .NONE
  deriving DecidableEq, Repr

namespace VisibilityGroup

/-- `VisibilityGroup::isVariable`, metaf.hpp:1205-1216. -/
def isVariable (g : VisibilityGroup) : Bool :=
  match g.visType with
  | .VARIABLE_PREVAILING | .VARIABLE_DIRECTIONAL | .VARIABLE_RUNWAY | .VARIABLE_RVR
  | .VARIABLE_SECTOR => true
  | _ => false

/-- `VisibilityGroup::visibility`, metaf.hpp:1157-1160. -/
def visibility (g : VisibilityGroup) : Distance := if g.isVariable then {} else g.vis

/-- `VisibilityGroup::minVisibility`, metaf.hpp:1161-1164. -/
def minVisibility (g : VisibilityGroup) : Distance := if !g.isVariable then {} else g.vis

/-- `VisibilityGroup::maxVisibility`, metaf.hpp:1165. -/
def maxVisibility (g : VisibilityGroup) : Distance := g.visMax

/-- `VisibilityGroup::sectorDirections`, metaf.hpp:1168-1172, with a bound on loop iterations. -/
def sectorDirections (g : VisibilityGroup) (fuel : Nat) : Option (List Direction) :=
  Direction.sectorCardinalDirToVector fuel (g.dirSecFrom.getD {}) (g.dirSecTo.getD {})

/-- `VisibilityGroup::makeVariable`, metaf.hpp:1218-1225. -/
def makeVariable (g : VisibilityGroup) : VisibilityGroup :=
  match g.visType with
  | .PREVAILING => { g with visType := .VARIABLE_PREVAILING }
  | .DIRECTIONAL => { g with visType := .VARIABLE_DIRECTIONAL }
  | .SECTOR => { g with visType := .VARIABLE_SECTOR }
  | _ => g

/-- `VisibilityGroup::trendFromString`, metaf.hpp:5029-5035. -/
def trendFromString (s : Str) : RvrTrend :=
  if s = c!"/" then .NOT_REPORTED
  else if s = c!"U" then .UPWARD
  else if s = c!"N" then .NEUTRAL
  else if s = c!"D" then .DOWNWARD
  else .NONE

/-- `VisibilityGroup::appendInteger`, metaf.hpp:4934-4943. -/
def appendInteger (g : VisibilityGroup) (group : Str) (next : VisIncomplete := .NONE) :
    Option VisibilityGroup :=
  if group.isEmpty || group.length > 3 then none
  else if (findFrom group '/' 0).isSome then none
  else if g.vis.isReported then none
  else
    match Distance.fromMileString group true with
    | none => none
    | some v => some { g with vis := v, incompleteText := next }

/-- `VisibilityGroup::fromIncompleteInteger`, metaf.hpp:4829-4838. -/
def fromIncompleteInteger (group : Str) : Option VisibilityGroup :=
  match appendInteger {} group with
  | none => none
  | some r =>
    if r.visibility.distModifier ≠ .NONE then none
    else some { r with incompleteText := .INTEGER }

/-- Regular expression of `fromMeters`, metaf.hpp:4844. -/
def metersRgx : Rx :=
  .cap 1 ((.d ⬝ .d ⬝ .d ⬝ .d) ∥ .lit c!"////") ⬝
  .opt (.cap 2 (.oneOf c!"NSWE" ⬝ .opt (.oneOf c!"WED") ⬝ .opt (.oneOf c!"V")))

/-- `VisibilityGroup::fromMeters`, metaf.hpp:4840-4861. -/
def fromMeters (group : Str) : Option VisibilityGroup :=
  match regexMatch metersRgx group with
  | none => none
  | some m =>
    match Distance.fromMeterString (m.str 1) with
    | none => none
    | some v =>
      match Direction.fromCardinalString (m.str 2) with
      | none => some { vis := v }
      | some d =>
        let t : VisibilityType := if d.isValue then .DIRECTIONAL else .PREVAILING
        let t : VisibilityType := if d.dirType = .NDV then .PREVAILING_NDV else t
        some { vis := v, dir := some d, visType := t }

/-- `R\d\d[RCL]?`, a part of the expression at metaf.hpp:4865-4866. -/
def runwayRx : Rx := .chr 'R' ⬝ .d ⬝ .d ⬝ .opt (.oneOf c!"RCL")

/-- `[PM]?\d\d\d\d`, a part of the expression at metaf.hpp:4865-4866. -/
def rvrValueRx : Rx := .opt (.oneOf c!"PM") ⬝ .d ⬝ .d ⬝ .d ⬝ .d

/-- Regular expression of `fromRvr`, metaf.hpp:4865-4866. -/
def rvrRgx : Rx :=
  .cap 1 (runwayRx ∥ .lit c!"R//") ⬝ .chr '/' ⬝ .cap 2 (.lit c!"////" ∥ rvrValueRx) ⬝
  .opt (.chr 'V' ⬝ .cap 3 rvrValueRx) ⬝
  .opt (.cap 4 (.lit c!"FT" ⬝ .opt (.chr '/'))) ⬝
  .opt (.cap 5 (.oneOf c!"UND/"))

/-- `VisibilityGroup::fromRvr`, metaf.hpp:4863-4892. -/
def fromRvr (group : Str) : Option VisibilityGroup :=
  match regexMatch rvrRgx group with
  | none => none
  | some m =>
    let unitFeet := !(m.str 4).isEmpty
    if m.str 1 = c!"R//" ∧ m.str 2 ≠ c!"////" then none
    else if m.str 1 = c!"R//" ∧ m.str 5 = c!"/" then none
    else
      let runway := Runway.fromString (m.str 1)
      if runway = none ∧ m.str 1 ≠ c!"R//" then none
      else
        match Distance.fromRvrString (m.str 2) unitFeet with
        | none => none
        | some rvr =>
          let result : VisibilityGroup :=
            { visType := .RVR, rw := runway, vis := rvr, rvrTrend := trendFromString (m.str 5) }
          if (m.str 3).isEmpty then some result
          else
            match Distance.fromRvrString (m.str 3) unitFeet with
            | none => none
            | some varRvr => some { result with visType := .VARIABLE_RVR, visMax := varRvr }

/-- `VisibilityGroup::parse`, metaf.hpp:4694-4726. -/
def parse (group : Str) (reportPart : ReportPart) : Option VisibilityGroup :=
  match reportPart with
  | .RMK =>
    if group = c!"VIS" then some { visType := .PREVAILING, incompleteText := .VIS }
    else if group = c!"SFC" then some { visType := .SURFACE, incompleteText := .SFC_OR_TWR }
    else if group = c!"TWR" then some { visType := .TOWER, incompleteText := .SFC_OR_TWR }
    else if group = c!"RVRNO" then some { visType := .RVRNO, incompleteText := .NONE }
    else if group = c!"VISNO" then some { visType := .VISNO, incompleteText := .VISNO }
    else if group = c!"RVR" then some { visType := .RVR_MISG, incompleteText := .RVR }
    else none
  | .METAR =>
    match fromIncompleteInteger group with
    | some v => some v
    | none =>
      match fromMeters group with
      | some v => some v
      | none =>
        match Distance.fromMileString group with
        | some v => some { vis := v }
        | none => fromRvr group
  | .TAF =>
    match fromIncompleteInteger group with
    | some v => some v
    | none =>
      match fromMeters group with
      | some v => some v
      | none =>
        match Distance.fromMileString group with
        | some v => some { vis := v }
        | none => none
  | _ => none

/-- `VisibilityGroup::appendFractionToIncompleteInteger`, metaf.hpp:4894-4904. -/
def appendFractionToIncompleteInteger (g : VisibilityGroup) (group : Str)
    (next : VisIncomplete := .NONE) : Option VisibilityGroup :=
  match Distance.fromMileString group with
  | none => none
  | some v =>
    match Distance.fromIntegerAndFraction g.visibility v with
    | none => none
    | some a => some { g with vis := a, incompleteText := next }

/-- `VisibilityGroup::appendDirection`, metaf.hpp:4907-4922. -/
def appendDirection (g : VisibilityGroup) (group : Str) (next : VisIncomplete := .NONE) :
    Option VisibilityGroup :=
  match Direction.fromCardinalString group with
  | some d =>
    some { g with dir := some d,
                  visType := if g.visType = .PREVAILING then .DIRECTIONAL else g.visType,
                  incompleteText := next }
  | none =>
    match Direction.fromSectorString group with
    | some (a, b) =>
      some { g with dirSecFrom := some a, dirSecTo := some b,
                    visType := if g.visType = .PREVAILING then .SECTOR else g.visType,
                    incompleteText := next }
    | none => none

/-- `VisibilityGroup::appendRunway`, metaf.hpp:4924-4932. -/
def appendRunway (g : VisibilityGroup) (group : Str) (next : VisIncomplete := .NONE) :
    Option VisibilityGroup :=
  match Runway.fromString group true with
  | none => none
  | some r =>
    some { g with rw := some r,
                  visType := if g.visType = .PREVAILING then .RUNWAY
                    else if g.visType = .VARIABLE_PREVAILING then .VARIABLE_RUNWAY
                    else g.visType,
                  incompleteText := next }

/-- `VisibilityGroup::appendFraction`, metaf.hpp:4945-4958. -/
def appendFraction (g : VisibilityGroup) (group : Str) (next : VisIncomplete := .NONE) :
    Option VisibilityGroup :=
  if (findFrom group '/' 0).isNone then none
  else
    match Distance.fromMileString group true with
    | none => none
    | some v =>
      if g.vis.isReported then
        match Distance.fromIntegerAndFraction g.vis v with
        | none => none
        | some d => some { g with vis := d, incompleteText := next }
      else some { g with vis := v, incompleteText := next }

/-- `VisibilityGroup::appendVariableMaxFraction`, metaf.hpp:4960-4972. -/
def appendVariableMaxFraction (g : VisibilityGroup) (group : Str) (next : VisIncomplete := .NONE) :
    Option VisibilityGroup :=
  match fractionStrToUint group 0 group.length with
  | none => none
  | some (numerator, denominator) =>
    let v := Distance.ofFraction numerator denominator
    if !v.isValue then none
    else
      match Distance.fromIntegerAndFraction g.visMax v with
      | none => none
      | some t => some { g with visMax := t, incompleteText := next }

/-- `VisibilityGroup::appendVariable`, metaf.hpp:4974-5001. -/
def appendVariable (g : VisibilityGroup) (group : Str) (nextInt : VisIncomplete := .NONE)
    (nextFrac : VisIncomplete := .NONE) : Option VisibilityGroup :=
  match findFrom group 'V' 0 with
  | none => none
  | some vPos =>
    if vPos = 0 ∨ vPos = group.length then none
    else
      let maxInteger := (findFrom group '/' vPos).isNone
      match Distance.fromMileString (substr group 0 vPos) true with
      | none => none
      | some min =>
        match Distance.fromMileString (group.drop (vPos + 1)) true with
        | none => none
        | some max =>
          match (if g.vis.isReported then Distance.fromIntegerAndFraction g.vis min
                 else some min) with
          | none => none
          | some v =>
            some { makeVariable { g with vis := v, visMax := max } with
                   incompleteText := if maxInteger then nextInt else nextFrac }

/-- `VisibilityGroup::appendMeters`, metaf.hpp:5003-5010. -/
def appendMeters (g : VisibilityGroup) (group : Str) (next : VisIncomplete := .NONE) :
    Option VisibilityGroup :=
  match Distance.fromMeterString group with
  | none => none
  | some v => if !v.isReported then none else some { g with vis := v, incompleteText := next }

/-- Regular expression of `appendVariableMeters`, metaf.hpp:5013. -/
def variableMetersRgx : Rx :=
  .cap 1 (.d ⬝ .d ⬝ .d ⬝ .d) ⬝ .chr 'V' ⬝ .cap 2 (.d ⬝ .d ⬝ .d ⬝ .d)

/-- `VisibilityGroup::appendVariableMeters`, metaf.hpp:5012-5027. -/
def appendVariableMeters (g : VisibilityGroup) (group : Str) (next : VisIncomplete := .NONE) :
    Option VisibilityGroup :=
  match regexMatch variableMetersRgx group with
  | none => none
  | some m =>
    match Distance.fromMeterString (m.str 1) with
    | none => none
    | some min =>
      match Distance.fromMeterString (m.str 2) with
      | none => none
      | some max =>
        if !min.isReported || !max.isReported then none
        else some { makeVariable { g with vis := min, visMax := max } with incompleteText := next }

/-- Tries modifications in turn: `if (append...(...)) return AppendResult::APPENDED;` repeated, then
the outcome given. Used for `VisibilityGroup::append`, metaf.hpp:4728-4827. -/
def firstOf (g : VisibilityGroup) (otherwise : VisibilityGroup × AppendResult) :
    List (VisibilityGroup → Option VisibilityGroup) → VisibilityGroup × AppendResult
  | [] => otherwise
  | f :: fs =>
    match f g with
    | some g' => (g', .APPENDED)
    | none => firstOf g otherwise fs

/-- `VisibilityGroup::append`, metaf.hpp:4728-4827. -/
def append (g : VisibilityGroup) (group : Str) : VisibilityGroup × AppendResult :=
  let invalid := (g, AppendResult.GROUP_INVALIDATED)
  let done := ({ g with incompleteText := .NONE }, AppendResult.NOT_APPENDED)
  match g.incompleteText with
  | .NONE => (g, .NOT_APPENDED)
  | .INTEGER => firstOf g invalid [(appendFractionToIncompleteInteger · group)]
  | .VIS =>
    if group = c!"MISG" then ({ g with visType := .VIS_MISG, incompleteText := .NONE }, .APPENDED)
    else firstOf g invalid
      [(appendDirection · group .VIS_DIR), (appendInteger · group .VIS_INTEGER),
       (appendFraction · group .VIS_FRACTION_OR_METERS),
       (appendVariable · group .VIS_VAR_MAX_INT .VIS_VAR),
       (appendMeters · group .VIS_FRACTION_OR_METERS), (appendVariableMeters · group .VIS_VAR)]
  | .VIS_INTEGER => firstOf g invalid
      [(appendVariable · group .VIS_VAR_MAX_INT .VIS_VAR),
       (appendFraction · group .VIS_FRACTION_OR_METERS), (appendRunway · group)]
  | .VIS_VAR_MAX_INT => firstOf g done
      [(appendVariableMaxFraction · group .VIS_VAR), (appendRunway · group)]
  | .VIS_VAR => firstOf g done [(appendRunway · group)]
  | .VIS_FRACTION_OR_METERS => firstOf g invalid [(appendRunway · group)]
  | .VIS_DIR => firstOf g invalid
      [(appendInteger · group .VIS_DIR_INTEGER), (appendVariable · group .VIS_DIR_VAR_MAX_INT),
       (appendFraction · group), (appendVariableMeters · group)]
  | .VIS_DIR_INTEGER => firstOf g done
      [(appendFraction · group), (appendVariable · group .VIS_DIR_VAR_MAX_INT)]
  | .VIS_DIR_VAR_MAX_INT => firstOf g done [(appendVariableMaxFraction · group)]
  | .SFC_OR_TWR =>
    if group = c!"VIS" then ({ g with incompleteText := .SFC_OR_TWR_VIS }, .APPENDED) else invalid
  | .SFC_OR_TWR_VIS => firstOf g invalid
      [(appendInteger · group .SFC_OR_TWR_VIS_INTEGER), (appendFraction · group),
       (appendMeters · group)]
  | .SFC_OR_TWR_VIS_INTEGER =>
    match g.appendFraction group with
    | some g' => (g', .APPENDED)
    | none =>
      match g.appendVariable group with
      | some g' => (g', .GROUP_INVALIDATED)
      | none => done
  | .RVR =>
    if group = c!"MISG" then ({ g with incompleteText := .NONE }, .APPENDED) else invalid
  | .VISNO => firstOf g done [(appendRunway · group), (appendDirection · group)]

/-- `VisibilityGroup::isValid`, metaf.hpp:5038-5048. The test of `vis.isValid()` and
`visMax.isValid()` is left out: `Distance::isValid` is always true (metaf.hpp:274). -/
def isValid (g : VisibilityGroup) : Bool :=
  let rest : Bool :=
    if g.incompleteText ≠ .NONE then false
    else if g.dir.any (fun d => !d.isValid) then false
    else if g.rw.any (fun r => !r.isValid) then false
    else true
  match g.visMax.toUnit g.vis.distUnit with
  | some max =>
    match g.vis.toUnit g.vis.distUnit with
    | none => false
    | some min => if min > max then false else rest
  | none => rest

end VisibilityGroup

/-! ### CloudGroup -/

/-- `CloudGroup::Type`, metaf.hpp:1267-1276. -/
inductive CloudGroupType
  | NO_CLOUDS | CLOUD_LAYER | VERTICAL_VISIBILITY | CEILING | VARIABLE_CEILING | CHINO | CLD_MISG
  | OBSCURATION
  deriving DecidableEq, Repr

/-- `CloudGroup::Amount`, metaf.hpp:1277-1291. -/
inductive Amount
  | NOT_REPORTED | NCD | NSC | NONE_CLR | NONE_SKC | FEW | SCATTERED | BROKEN | OVERCAST | OBSCURED
  | VARIABLE_FEW_SCATTERED | VARIABLE_SCATTERED_BROKEN | VARIABLE_BROKEN_OVERCAST
  deriving DecidableEq, Repr

/-- `CloudGroup::ConvectiveType`, metaf.hpp:1292-1297. -/
inductive ConvectiveType | NONE | NOT_REPORTED | TOWERING_CUMULUS | CUMULONIMBUS
  deriving DecidableEq, Repr

/-- `CloudGroup::IncompleteText`, metaf.hpp:1349-1358. -/
inductive CloudIncomplete
  | NONE | RMK_AMOUNT | RMK_AMOUNT_V | CIG | CIG_NUM | CHINO | CLD | OBSCURATION
  deriving DecidableEq, Repr

/-- `CloudGroup`, metaf.hpp:1265-1372. The unused member `w` is left out. -/
structure CloudGroup where
  tp : CloudGroupType := .CLOUD_LAYER
  amnt : Amount := .NOT_REPORTED
  heightOrVertVis : Distance := {}
  maxHt : Distance := {}
  convtype : ConvectiveType := .NONE
  rw : Option Runway := none
  dir : Option Direction := none
  cldTp : CloudType := {}
  incompleteText : CloudIncomplete := .NONE
  deriving DecidableEq, Repr

namespace CloudGroup

/-- `CloudGroup::heightNotReported`, metaf.hpp:1347. -/
def heightNotReported : Distance := { distUnit := .FEET }

/-- `CloudGroup::height`, metaf.hpp:1301-1306. -/
def height (g : CloudGroup) : Distance :=
  if g.tp ≠ .CLOUD_LAYER ∧ g.tp ≠ .CEILING ∧ g.tp ≠ .OBSCURATION then heightNotReported
  else g.heightOrVertVis

/-- `CloudGroup::minHeight`, metaf.hpp:1307-1310. -/
def minHeight (g : CloudGroup) : Distance :=
  if g.tp ≠ .VARIABLE_CEILING then heightNotReported else g.heightOrVertVis

/-- `CloudGroup::maxHeight`, metaf.hpp:1311-1314. -/
def maxHeight (g : CloudGroup) : Distance :=
  if g.tp ≠ .VARIABLE_CEILING then heightNotReported else g.maxHt

/-- `CloudGroup::verticalVisibility`, metaf.hpp:1315-1318. -/
def verticalVisibility (g : CloudGroup) : Distance :=
  if g.tp ≠ .VERTICAL_VISIBILITY then heightNotReported else g.heightOrVertVis

/-- `CloudGroup::isValid`, metaf.hpp:1322-1326. The test of `heightOrVertVis.isValid()` and
`maxHt.isValid()` is left out: `Distance::isValid` is always true (metaf.hpp:274). -/
def isValid (g : CloudGroup) : Bool :=
  if g.rw.any (fun r => !r.isValid) then false
  else if g.dir.any (fun d => !d.isValid) then false
  else true

/-- `CloudGroup::amountToMaxOkta`, metaf.hpp:5169-5190. -/
def amountToMaxOkta : Amount → Nat
  | .FEW => 2
  | .SCATTERED | .VARIABLE_FEW_SCATTERED => 4
  | .VARIABLE_SCATTERED_BROKEN | .BROKEN => 7
  | .VARIABLE_BROKEN_OVERCAST | .OVERCAST | .OBSCURED => 8
  | _ => 0

/-- `CloudGroup::convectiveTypeToCloudTypeType`, metaf.hpp:5192-5203. -/
def convectiveTypeToCloudTypeType : ConvectiveType → CloudTypeKind
  | .TOWERING_CUMULUS => .TOWERING_CUMULUS
  | .CUMULONIMBUS => .CUMULONIMBUS
  | _ => .NOT_REPORTED

/-- `CloudGroup::cloudType`, metaf.hpp:5205-5222. -/
def cloudType (g : CloudGroup) : Option CloudType :=
  let cldConvType := convectiveTypeToCloudTypeType g.convtype
  let cldOkta := amountToMaxOkta g.amnt
  match g.tp with
  | .CLOUD_LAYER | .CEILING => some { tp := cldConvType, ht := g.height, okt := cldOkta }
  | .VARIABLE_CEILING => some { tp := cldConvType, ht := g.minHeight, okt := cldOkta }
  | .OBSCURATION => some g.cldTp
  | _ => none

/-- `CloudGroup::amountFromString`, metaf.hpp:5224-5232. -/
def amountFromString (s : Str) : Option Amount :=
  if s = c!"FEW" then some .FEW
  else if s = c!"SCT" then some .SCATTERED
  else if s = c!"BKN" then some .BROKEN
  else if s = c!"OVC" then some .OVERCAST
  else if s = c!"VV" then some .OBSCURED
  else if s = c!"///" then some .NOT_REPORTED
  else none

/-- `CloudGroup::convectiveTypeFromString`, metaf.hpp:5234-5242. -/
def convectiveTypeFromString (s : Str) : Option ConvectiveType :=
  if s.isEmpty then some .NONE
  else if s = c!"TCU" then some .TOWERING_CUMULUS
  else if s = c!"CB" then some .CUMULONIMBUS
  else if s = c!"///" then some .NOT_REPORTED
  else none

/-- Regular expression of `parseCloudLayerOrVertVis`, metaf.hpp:5118-5119. -/
def layerRgx : Rx :=
  .cap 1 ((.AZ ⬝ .AZ ⬝ .opt .AZ) ∥ .lit c!"///") ⬝ .cap 2 ((.d ⬝ .d ⬝ .d) ∥ .lit c!"///") ⬝
  .opt (.cap 3 ((.oneOf c!"CT" ⬝ .oneOf c!"BC" ⬝ .opt (.oneOf c!"U")) ∥ .lit c!"///"))

/-- `CloudGroup::parseCloudLayerOrVertVis`, metaf.hpp:5109-5141. -/
def parseCloudLayerOrVertVis (s : Str) : Option CloudGroup :=
  if s = c!"NCD" then some { tp := .NO_CLOUDS, amnt := .NCD }
  else if s = c!"NSC" then some { tp := .NO_CLOUDS, amnt := .NSC }
  else if s = c!"CLR" then some { tp := .NO_CLOUDS, amnt := .NONE_CLR }
  else if s = c!"SKC" then some { tp := .NO_CLOUDS, amnt := .NONE_SKC }
  else
    match regexMatch layerRgx s with
    | none => none
    | some m =>
      match amountFromString (m.str 1) with
      | none => none
      | some amount =>
        match Distance.fromHeightString (m.str 2) with
        | none => none
        | some height =>
          match convectiveTypeFromString (m.str 3) with
          | none => none
          | some cnvtype =>
            if amount = .OBSCURED ∧ cnvtype ≠ .NONE then none
            else some { tp := if amount = .OBSCURED then .VERTICAL_VISIBILITY else .CLOUD_LAYER,
                        amnt := amount, heightOrVertVis := height, convtype := cnvtype }

/-- Regular expression of `parseVariableCloudLayer`, metaf.hpp:5147. -/
def variableLayerRgx : Rx :=
  .cap 1 (.AZ ⬝ .AZ ⬝ .AZ) ⬝ .opt (.cap 2 (.d ⬝ .d ⬝ .d))

/-- `CloudGroup::parseVariableCloudLayer`, metaf.hpp:5143-5167. -/
def parseVariableCloudLayer (s : Str) : Option CloudGroup :=
  match regexMatch variableLayerRgx s with
  | none => none
  | some m =>
    match amountFromString (m.str 1) with
    | none => none
    | some amount =>
      let result : CloudGroup := { tp := .CLOUD_LAYER, incompleteText := .RMK_AMOUNT, amnt := amount }
      if (m.str 2).isEmpty then some result
      else
        match Distance.fromHeightString (m.str 2) with
        | none => none
        | some height => some { result with heightOrVertVis := height }

/-- `CloudGroup::parse`, metaf.hpp:5052-5072. -/
def parse (group : Str) (reportPart : ReportPart) : Option CloudGroup :=
  match reportPart with
  | .METAR | .TAF => parseCloudLayerOrVertVis group
  | .RMK =>
    if group = c!"CLD" then some { tp := .CLD_MISG, incompleteText := .CLD }
    else if group = c!"CIG" then some { tp := .CEILING, incompleteText := .CIG }
    else if group = c!"CHINO" then some { tp := .CHINO, incompleteText := .CHINO }
    else
      match CloudType.fromStringObscuration group with
      | some ct => some { tp := .OBSCURATION, incompleteText := .OBSCURATION, cldTp := ct }
      | none => parseVariableCloudLayer group
  | _ => none

/-- `CloudGroup::appendVariableCloudAmount`, metaf.hpp:5244-5257. -/
def appendVariableCloudAmount (g : CloudGroup) (group : Str) : CloudGroup × AppendResult :=
  match amountFromString group with
  | none => (g, .GROUP_INVALIDATED)
  | some a2 =>
    let a1 := g.amnt
    let result : Amount :=
      if a1 = .BROKEN ∧ a2 = .OVERCAST then .VARIABLE_BROKEN_OVERCAST
      else if a1 = .SCATTERED ∧ a2 = .BROKEN then .VARIABLE_SCATTERED_BROKEN
      else if a1 = .FEW ∧ a2 = .SCATTERED then .VARIABLE_FEW_SCATTERED
      else .NOT_REPORTED
    if result = .NOT_REPORTED then (g, .GROUP_INVALIDATED)
    else ({ g with amnt := result, incompleteText := .NONE }, .APPENDED)

/-- Regular expression of `appendCeiling`, metaf.hpp:5266. -/
def ceilingRgx : Rx := .cap 1 (.d ⬝ .d ⬝ .d) ⬝ .chr 'V' ⬝ .cap 2 (.d ⬝ .d ⬝ .d)

/-- `CloudGroup::appendCeiling`, metaf.hpp:5259-5279. -/
def appendCeiling (g : CloudGroup) (group : Str) : CloudGroup × AppendResult :=
  match Distance.fromHeightString group with
  | some d =>
    if !d.isReported then (g, .GROUP_INVALIDATED)
    else ({ g with heightOrVertVis := d, incompleteText := .CIG_NUM }, .APPENDED)
  | none =>
    match regexMatch ceilingRgx group with
    | none => (g, .GROUP_INVALIDATED)
    | some m =>
      match Distance.fromHeightString (m.str 1) with
      | none => (g, .GROUP_INVALIDATED)
      | some minH =>
        match Distance.fromHeightString (m.str 2) with
        | none => (g, .GROUP_INVALIDATED)
        | some maxH => ({ g with heightOrVertVis := minH, maxHt := maxH, tp := .VARIABLE_CEILING,
                                 incompleteText := .CIG_NUM }, .APPENDED)

/-- `CloudGroup::appendRunwayOrCardinalDirection`, metaf.hpp:5281-5288. -/
def appendRunwayOrCardinalDirection (g : CloudGroup) (group : Str) : CloudGroup × AppendResult :=
  let g := { g with incompleteText := .NONE, rw := Runway.fromString group true }
  if g.rw.isSome then (g, .APPENDED)
  else
    let g := { g with dir := Direction.fromCardinalString group }
    if g.dir.isSome then (g, .APPENDED) else (g, .NOT_APPENDED)

/-- Regular expression of `appendObscuration`, metaf.hpp:5291. -/
def obscurationRgx : Rx := .cap 1 (.AZ ⬝ .AZ ⬝ .AZ) ⬝ .cap 2 (.d ⬝ .d ⬝ .d)

/-- `CloudGroup::appendObscuration`, metaf.hpp:5290-5307. -/
def appendObscuration (g : CloudGroup) (group : Str) : CloudGroup × AppendResult :=
  match regexMatch obscurationRgx group with
  | none => (g, .GROUP_INVALIDATED)
  | some m =>
    match Distance.fromHeightString (m.str 2) with
    | none => (g, .GROUP_INVALIDATED)
    | some h =>
      match amountFromString (m.str 1) with
      | none => (g, .GROUP_INVALIDATED)
      | some a =>
        ({ g with amnt := a, heightOrVertVis := h,
                  cldTp := { tp := g.cldTp.tp, ht := h, okt := amountToMaxOkta a },
                  incompleteText := .NONE }, .APPENDED)

/-- `CloudGroup::append`, metaf.hpp:5074-5107. -/
def append (g : CloudGroup) (group : Str) : CloudGroup × AppendResult :=
  match g.incompleteText with
  | .NONE => (g, .NOT_APPENDED)
  | .RMK_AMOUNT =>
    if group ≠ c!"V" then (g, .GROUP_INVALIDATED)
    else ({ g with incompleteText := .RMK_AMOUNT_V }, .APPENDED)
  | .RMK_AMOUNT_V => g.appendVariableCloudAmount group
  | .CIG => g.appendCeiling group
  | .CIG_NUM | .CHINO => g.appendRunwayOrCardinalDirection group
  | .CLD =>
    if group ≠ c!"MISG" then (g, .GROUP_INVALIDATED)
    else ({ g with incompleteText := .NONE }, .APPENDED)
  | .OBSCURATION => g.appendObscuration group

end CloudGroup

/-! ### WeatherGroup -/

/-- `WeatherGroup::Type`, metaf.hpp:1376-1385. -/
inductive WeatherGroupType
  | CURRENT | RECENT | EVENT | NSW | PWINO | WX_MISG | TSNO | TS_LTNG_TEMPO_UNAVBL
  deriving DecidableEq, Repr

/-- `WeatherGroup::IncompleteText`, metaf.hpp:1404-1409. -/
inductive WeatherIncomplete | NONE | WX | TSLTNG | TSLTNG_TEMPO
  deriving DecidableEq, Repr

/-- `WeatherGroup`, metaf.hpp:1374-1430. The array `w` of 20 elements and its fill count `wsz` are
modelled by the list of the first `wsz` elements. -/
structure WeatherGroup where
  t : WeatherGroupType := .CURRENT
  w : List WeatherPhenomena := []
  incompleteText : WeatherIncomplete := .NONE
  deriving DecidableEq, Repr

namespace WeatherGroup

/-- `WeatherGroup::wSize`, metaf.hpp:1414. -/
def wSize : Nat := 20

/-- `WeatherGroup::weatherPhenomena`, metaf.hpp:5379-5384. -/
def weatherPhenomena (g : WeatherGroup) : List WeatherPhenomena := g.w

/-- The loop of `isValid`, metaf.hpp:1390-1391. -/
def allValid : List WeatherPhenomena → Res Bool
  | [] => .ok true
  | p :: ps =>
    match p.isValid with
    | .error f => .error f
    | .ok false => .ok false
    | .ok true => allValid ps

/-- `WeatherGroup::isValid`, metaf.hpp:1388-1393. -/
def isValid (g : WeatherGroup) : Res Bool :=
  if g.incompleteText ≠ .NONE then .ok false else allValid g.w

/-- `WeatherGroup::addWeatherPhenomena`, metaf.hpp:5442-5446. `none` when the array is full. -/
def addWeatherPhenomena (g : WeatherGroup) (wp : WeatherPhenomena) : Option WeatherGroup :=
  if g.w.length ≥ wSize then none else some { g with w := g.w ++ [wp] }

/-- `WeatherGroup::parseWeatherWithoutEvent`, metaf.hpp:5386-5403. -/
def parseWeatherWithoutEvent (group : Str) (reportPart : ReportPart) : Option WeatherPhenomena :=
  if reportPart ≠ .METAR ∧ reportPart ≠ .TAF then none
  else if reportPart = .METAR ∧ group = c!"RE//" then some (WeatherPhenomena.notReported true)
  else if reportPart = .METAR ∧ group = c!"//" then some (WeatherPhenomena.notReported false)
  else
    match WeatherPhenomena.fromString group true with
    | none => none
    | some wp => if reportPart = .TAF ∧ wp.qualifier = .RECENT then none else some wp

/-- The loop of `parseWeatherEvent` and the code after it, metaf.hpp:5413-5439. `rest` is the text
not yet scanned, `seg` the text from `eventStartPos` up to the current position. -/
def eventLoop (reportTime : MetafTime) : Str → Str → Bool → WeatherPhenomena → WeatherGroup →
    Res (Option WeatherGroup)
  | [], seg, _, previous, result =>
    match WeatherPhenomena.fromWeatherBeginEndString seg reportTime previous with
    | .error f => .error f
    | .ok none => .ok none
    | .ok (some w) => .ok (some ((result.addWeatherPhenomena w).getD result))
  | c :: cs, seg, lastDigit, previous, result =>
    if !isDigit c && lastDigit then
      if seg.length < 3 then .ok none
      else
        match WeatherPhenomena.fromWeatherBeginEndString seg reportTime previous with
        | .error f => .error f
        | .ok none => .ok none
        | .ok (some w) =>
          eventLoop reportTime cs [c] false w ((result.addWeatherPhenomena w).getD result)
    else eventLoop reportTime cs (seg ++ [c]) (isDigit c) previous result

/-- `WeatherGroup::parseWeatherEvent`, metaf.hpp:5405-5439. -/
def parseWeatherEvent (group : Str) (reportTime : MetafTime) : Res (Option WeatherGroup) :=
  eventLoop reportTime group [] false {} { t := .EVENT }

/-- `WeatherGroup::parse`, metaf.hpp:5311-5335. -/
def parse (group : Str) (reportPart : ReportPart) (md : ReportMetadata) :
    Res (Option WeatherGroup) :=
  match reportPart with
  | .METAR | .TAF =>
    if group = c!"NSW" then .ok (some { t := .NSW })
    else
      match parseWeatherWithoutEvent group reportPart with
      | none => .ok none
      | some wp =>
        .ok (some { w := [wp], t := if wp.qualifier = .RECENT then .RECENT else .CURRENT })
  | .RMK =>
    if group = c!"PWINO" then .ok (some { t := .PWINO })
    else if group = c!"TSNO" then .ok (some { t := .TSNO })
    else if group = c!"WX" then .ok (some { t := .WX_MISG, incompleteText := .WX })
    else if group = c!"TS/LTNG" then
      .ok (some { t := .TS_LTNG_TEMPO_UNAVBL, incompleteText := .TSLTNG })
    else
      match md.reportTime with
      | none => .ok none
      | some rt => parseWeatherEvent group rt
  | _ => .ok none

/-- `WeatherGroup::append`, metaf.hpp:5337-5377. -/
def append (g : WeatherGroup) (group : Str) (reportPart : ReportPart) :
    WeatherGroup × AppendResult :=
  match g.incompleteText with
  | .WX =>
    if group ≠ c!"MISG" then (g, .GROUP_INVALIDATED)
    else ({ g with incompleteText := .NONE }, .APPENDED)
  | .TSLTNG =>
    if group ≠ c!"TEMPO" then (g, .GROUP_INVALIDATED)
    else ({ g with incompleteText := .TSLTNG_TEMPO }, .APPENDED)
  | .TSLTNG_TEMPO =>
    if group ≠ c!"UNAVBL" then (g, .GROUP_INVALIDATED)
    else ({ g with incompleteText := .NONE }, .APPENDED)
  | .NONE =>
    if g.t ≠ .CURRENT ∧ g.t ≠ .RECENT then (g, .NOT_APPENDED)
    else
      match parseWeatherWithoutEvent group reportPart with
      | none => (g, .NOT_APPENDED)
      | some wp =>
        if g.t = .CURRENT ∧ wp.qualifier = .RECENT then (g, .NOT_APPENDED)
        else if g.t = .RECENT ∧ wp.qualifier ≠ .RECENT then (g, .NOT_APPENDED)
        else
          match g.addWeatherPhenomena wp with
          | none => (g, .NOT_APPENDED)
          | some g' => (g', .APPENDED)

end WeatherGroup

end Metaf

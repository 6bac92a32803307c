import Verif.Model.GroupsC

/-!
Model of the groups `LightningGroup`, `VicinityGroup`, `MiscGroup`, `UnknownGroup`.
Source: `/repo/include/metaf.hpp`.
-/

namespace Metaf

variable [FloatSem]

/-- The merging loop shared by `LightningGroup::directions` and `VicinityGroup::directions`,
metaf.hpp:6421-6427 and 6557-6563: directions of the second sector are added unless a direction with
the same cardinal value is present. -/
def mergeDirections (result : List Direction) : List Direction → List Direction
  | [] => result
  | r2 :: rest =>
    if result.any (fun r => r.cardinal == r2.cardinal) then mergeDirections result rest
    else mergeDirections (result ++ [r2]) rest

/-- `LightningGroup::directions`, metaf.hpp:6412-6429, and its copy `VicinityGroup::directions`,
metaf.hpp:6550-6566, with a bound on the iterations of each sector loop. -/
def twoSectorDirections (fuel : Nat) (dir1from dir1to dir2from dir2to : Option Direction) :
    Option (List Direction) :=
  match Direction.sectorCardinalDirToVector fuel (dir1from.getD {}) (dir1to.getD {}) with
  | none => none
  | some result =>
    match Direction.sectorCardinalDirToVector fuel (dir2from.getD {}) (dir2to.getD {}) with
    | none => none
    | some result2 => some (mergeDirections result result2)

/-! ### LightningGroup -/

/-- `LightningGroup::Frequency`, metaf.hpp:1853-1858. -/
inductive Frequency | NONE | OCCASIONAL | FREQUENT | CONSTANT
  deriving DecidableEq, Repr

/-- `LightningGroup`, metaf.hpp:1851-1899. -/
structure LightningGroup where
  freq : Frequency := .NONE
  dist : Distance := {}
  typeCloudGround : Bool := false
  typeInCloud : Bool := false
  typeCloudCloud : Bool := false
  typeCloudAir : Bool := false
  typeUnknown : Bool := false
  dir1from : Option Direction := none
  dir1to : Option Direction := none
  dir2from : Option Direction := none
  dir2to : Option Direction := none
  incomplete : Bool := false
  deriving DecidableEq, Repr

namespace LightningGroup

/-- `LightningGroup::isValid`, metaf.hpp:1867. -/
def isValid (g : LightningGroup) : Bool := !g.typeUnknown

/-- `LightningGroup::isOmittedDir1`, metaf.hpp:1897. -/
def isOmittedDir1 (g : LightningGroup) : Bool := g.dir1from.isNone && g.dir1to.isNone

/-- `LightningGroup::isOmittedDir2`, metaf.hpp:1898. -/
def isOmittedDir2 (g : LightningGroup) : Bool := g.dir2from.isNone && g.dir2to.isNone

/-- `LightningGroup::directions`, metaf.hpp:6412-6429. -/
def directions (g : LightningGroup) (fuel : Nat) : Option (List Direction) :=
  twoSectorDirections fuel g.dir1from g.dir1to g.dir2from g.dir2to

/-- The loop of `fromLtgGroup`, metaf.hpp:6397-6406; the first argument is the number of iterations
left before `maxLightningTypeCount`, the second the text from `currPos`. -/
def typeLoop : Nat → Str → LightningGroup → LightningGroup
  | 0, _, g => g
  | n + 1, s, g =>
    if s.isEmpty then g
    else
      let currType := s.take 2
      let rest := s.drop 2
      if currType = c!"IC" then typeLoop n rest { g with typeInCloud := true }
      else if currType = c!"CC" then typeLoop n rest { g with typeCloudCloud := true }
      else if currType = c!"CG" then typeLoop n rest { g with typeCloudGround := true }
      else if currType = c!"CA" then typeLoop n rest { g with typeCloudAir := true }
      else typeLoop n rest { g with typeUnknown := true }

/-- `LightningGroup::fromLtgGroup`, metaf.hpp:6383-6410. -/
def fromLtgGroup (group : Str) : Option LightningGroup :=
  if group = c!"LTG" then some {}
  else if group.length < 3 then none
  else if substr group 0 3 ≠ c!"LTG" then none
  else some (typeLoop 6 (group.drop 3) {})

/-- `LightningGroup::parse`, metaf.hpp:6317-6328. -/
def parse (group : Str) (reportPart : ReportPart) : Option LightningGroup :=
  if reportPart ≠ .RMK then none
  else if group = c!"OCNL" then some { freq := .OCCASIONAL, incomplete := true }
  else if group = c!"FRQ" then some { freq := .FREQUENT, incomplete := true }
  else if group = c!"CONS" then some { freq := .CONSTANT, incomplete := true }
  else fromLtgGroup group

/-- `LightningGroup::append`, metaf.hpp:6330-6381. -/
def append (g : LightningGroup) (group : Str) : LightningGroup × AppendResult :=
  if g.incomplete then
    match fromLtgGroup group with
    | some ltg => ({ ltg with freq := g.freq }, .APPENDED)
    | none => (g, .GROUP_INVALIDATED)
  else if !g.isOmittedDir2 then (g, .NOT_APPENDED)
  else if !g.isOmittedDir1 then
    if group = c!"AND" then (g, .APPENDED)
    else
      match Direction.fromCardinalString group true with
      | some dir => ({ g with dir2from := some dir }, .APPENDED)
      | none =>
        match Direction.fromSectorString group with
        | some (a, b) => ({ g with dir2from := some a, dir2to := some b }, .APPENDED)
        | none => (g, .NOT_APPENDED)
  else if group = c!"DSNT" then ({ g with dist := Distance.makeDistant }, .APPENDED)
  else if group = c!"VC" then ({ g with dist := Distance.makeVicinity }, .APPENDED)
  else
    match Direction.fromCardinalString group true with
    | some dir => ({ g with dir1from := some dir }, .APPENDED)
    | none =>
      match Direction.fromSectorString group with
      | some (a, b) => ({ g with dir1from := some a, dir1to := some b }, .APPENDED)
      | none => (g, .NOT_APPENDED)

end LightningGroup

/-! ### VicinityGroup -/

/-- `VicinityGroup::Type`, metaf.hpp:1904-1924. -/
inductive VicinityType
  | THUNDERSTORM | CUMULONIMBUS | CUMULONIMBUS_MAMMATUS | TOWERING_CUMULUS
  | ALTOCUMULUS_CASTELLANUS | STRATOCUMULUS_STANDING_LENTICULAR | ALTOCUMULUS_STANDING_LENTICULAR
  | CIRROCUMULUS_STANDING_LENTICULAR | ROTOR_CLOUD | VIRGA | PRECIPITATION_IN_VICINITY | FOG
  | FOG_SHALLOW | FOG_PATCHES | HAZE | SMOKE | BLOWING_SNOW | BLOWING_SAND | BLOWING_DUST
  deriving DecidableEq, Repr

/-- `VicinityGroup::IncompleteType`, metaf.hpp:1949-1958. -/
inductive VicinityIncomplete
  | NONE | EXPECT_CLD | EXPECT_DIST_DIR1 | EXPECT_DIR1 | EXPECT_DIR2_MOV | EXPECT_DIR2 | EXPECT_MOV
  | EXPECT_MOVDIR
  deriving DecidableEq, Repr

/-- `VicinityGroup`, metaf.hpp:1901-1980. The member `t` has no default value in the source and is
set by `parse`. -/
structure VicinityGroup where
  t : VicinityType
  dist : Distance := {}
  dir1from : Option Direction := none
  dir1to : Option Direction := none
  dir2from : Option Direction := none
  dir2to : Option Direction := none
  movDir : Direction := {}
  incompleteType : VicinityIncomplete := .NONE
  deriving DecidableEq, Repr

namespace VicinityGroup

/-- `VicinityGroup::isValid`, metaf.hpp:1929-1931. -/
def isValid (g : VicinityGroup) : Bool := g.incompleteType == .NONE

/-- `VicinityGroup::directions`, metaf.hpp:6550-6566. -/
def directions (g : VicinityGroup) (fuel : Nat) : Option (List Direction) :=
  twoSectorDirections fuel g.dir1from g.dir1to g.dir2from g.dir2to

/-- `VicinityGroup(Type)`, metaf.hpp:1971-1974. -/
def ofType (t : VicinityType) : VicinityGroup :=
  { t := t, incompleteType := if t = .ROTOR_CLOUD then .EXPECT_CLD else .EXPECT_DIST_DIR1 }

/-- `VicinityGroup::parse`, metaf.hpp:6433-6461. -/
def parse (group : Str) (reportPart : ReportPart) : Option VicinityGroup :=
  if reportPart ≠ .RMK then none
  else if group = c!"TS" then some (ofType .THUNDERSTORM)
  else if group = c!"CB" then some (ofType .CUMULONIMBUS)
  else if group = c!"CBMAM" then some (ofType .CUMULONIMBUS_MAMMATUS)
  else if group = c!"ACC" then some (ofType .ALTOCUMULUS_CASTELLANUS)
  else if group = c!"TCU" then some (ofType .TOWERING_CUMULUS)
  else if group = c!"SCSL" then some (ofType .STRATOCUMULUS_STANDING_LENTICULAR)
  else if group = c!"ACSL" then some (ofType .ALTOCUMULUS_STANDING_LENTICULAR)
  else if group = c!"CCSL" then some (ofType .CIRROCUMULUS_STANDING_LENTICULAR)
  else if group = c!"ROTOR" then some (ofType .ROTOR_CLOUD)
  else if group = c!"VIRGA" then some (ofType .VIRGA)
  else if group = c!"VCSH" then some (ofType .PRECIPITATION_IN_VICINITY)
  else if group = c!"FOG" ∨ group = c!"FG" then some (ofType .FOG)
  else if group = c!"HAZE" ∨ group = c!"HZ" then some (ofType .HAZE)
  else if group = c!"SMOKE" ∨ group = c!"FU" then some (ofType .SMOKE)
  else if group = c!"BLSN" then some (ofType .BLOWING_SNOW)
  else if group = c!"BLDU" then some (ofType .BLOWING_DUST)
  else if group = c!"BLSA" then some (ofType .BLOWING_SAND)
  else if group = c!"MIFG" then some (ofType .FOG_SHALLOW)
  else if group = c!"BCFG" then some (ofType .FOG_PATCHES)
  else none

/-- `VicinityGroup::appendDir1`, metaf.hpp:6511-6524. -/
def appendDir1 (g : VicinityGroup) (s : Str) : Option VicinityGroup :=
  match Direction.fromCardinalString s true with
  | some dir => some { g with dir1from := some dir }
  | none =>
    match Direction.fromSectorString s with
    | some (a, b) => some { g with dir1from := some a, dir1to := some b }
    | none => none

/-- `VicinityGroup::appendDir2`, metaf.hpp:6526-6539. -/
def appendDir2 (g : VicinityGroup) (s : Str) : Option VicinityGroup :=
  match Direction.fromCardinalString s true with
  | some dir => some { g with dir2from := some dir }
  | none =>
    match Direction.fromSectorString s with
    | some (a, b) => some { g with dir2from := some a, dir2to := some b }
    | none => none

/-- `VicinityGroup::appendDistance`, metaf.hpp:6541-6548. -/
def appendDistance (g : VicinityGroup) (s : Str) : Option VicinityGroup :=
  if s = c!"DSNT" then some { g with dist := Distance.makeDistant }
  else if s = c!"VC" then some { g with dist := Distance.makeVicinity }
  else
    match Distance.fromKmString s with
    | none => none
    | some d => some { g with dist := d }

/-- `VicinityGroup::expectNext`, metaf.hpp:1960-1962, and `finalise`, metaf.hpp:1963-1966. -/
def expectNext (g : VicinityGroup) (t : VicinityIncomplete) : VicinityGroup × AppendResult :=
  ({ g with incompleteType := t }, .APPENDED)

/-- `VicinityGroup::rejectGroup`, metaf.hpp:1967-1970. -/
def rejectGroup (g : VicinityGroup) : VicinityGroup × AppendResult :=
  ({ g with incompleteType := .NONE }, .NOT_APPENDED)

/-- `VicinityGroup::append`, metaf.hpp:6463-6509. -/
def append (g : VicinityGroup) (group : Str) : VicinityGroup × AppendResult :=
  match g.incompleteType with
  | .NONE => (g, .NOT_APPENDED)
  | .EXPECT_CLD =>
    if group = c!"CLD" then g.expectNext .EXPECT_DIST_DIR1 else (g, .GROUP_INVALIDATED)
  | .EXPECT_DIST_DIR1 =>
    match g.appendDistance group with
    | some g' => g'.expectNext .EXPECT_DIR1
    | none =>
      match g.appendDir1 group with
      | some g' => g'.expectNext .EXPECT_DIR2_MOV
      | none => (g, .GROUP_INVALIDATED)
  | .EXPECT_DIR1 =>
    match g.appendDir1 group with
    | some g' => g'.expectNext .EXPECT_DIR2_MOV
    | none => g.rejectGroup
  | .EXPECT_DIR2_MOV =>
    if group = c!"MOV" then g.expectNext .EXPECT_MOVDIR
    else if group = c!"AND" then g.expectNext .EXPECT_DIR2
    else
      match g.appendDir2 group with
      | some g' => g'.expectNext .EXPECT_MOV
      | none => g.rejectGroup
  | .EXPECT_DIR2 =>
    match g.appendDir2 group with
    | some g' => g'.expectNext .EXPECT_MOV
    | none => (g, .GROUP_INVALIDATED)
  | .EXPECT_MOV => if group = c!"MOV" then g.expectNext .EXPECT_MOVDIR else g.rejectGroup
  | .EXPECT_MOVDIR =>
    match Direction.fromCardinalString group false true with
    | some dir => { g with movDir := dir }.expectNext .NONE
    | none => (g, .GROUP_INVALIDATED)

end VicinityGroup

/-! ### MiscGroup -/

/-- `MiscGroup::Type`, metaf.hpp:1984-2010. -/
inductive MiscType
  | SUNSHINE_DURATION_MINUTES | CORRECTED_WEATHER_OBSERVATION | DENSITY_ALTITUDE | HAILSTONE_SIZE
  | COLOUR_CODE_BLUE_PLUS | COLOUR_CODE_BLUE | COLOUR_CODE_WHITE | COLOUR_CODE_GREEN
  | COLOUR_CODE_YELLOW | COLOUR_CODE_YELLOW1 | COLOUR_CODE_YELLOW2 | COLOUR_CODE_AMBER
  | COLOUR_CODE_RED | COLOUR_CODE_BLACKBLUE_PLUS | COLOUR_CODE_BLACKBLUE | COLOUR_CODE_BLACKWHITE
  | COLOUR_CODE_BLACKGREEN | COLOUR_CODE_BLACKYELLOW | COLOUR_CODE_BLACKYELLOW1
  | COLOUR_CODE_BLACKYELLOW2 | COLOUR_CODE_BLACKAMBER | COLOUR_CODE_BLACKRED | FROIN | ISSUER_ID_FS
  | ISSUER_ID_FN
  deriving DecidableEq, Repr

/-- `MiscGroup::IncompleteText`, metaf.hpp:2024-2030. -/
inductive MiscIncomplete | NONE | DENSITY | DENSITY_ALT | GR | GR_INT
  deriving DecidableEq, Repr

/-- `MiscGroup`, metaf.hpp:1982-2039. The member `groupType` has no default value in the source and
is set by `parse`. -/
structure MiscGroup where
  groupType : MiscType
  groupData : Option Rat := none
  incompleteText : MiscIncomplete := .NONE
  deriving DecidableEq, Repr

namespace MiscGroup

/-- `MiscGroup::isValid`, metaf.hpp:6721-6723. -/
def isValid (g : MiscGroup) : Bool := g.incompleteText == .NONE

/-- `MiscGroup::parseColourCode`, metaf.hpp:6673-6693. -/
def parseColourCode (group : Str) : Option MiscType :=
  if group = c!"BLU+" then some .COLOUR_CODE_BLUE_PLUS
  else if group = c!"BLU" then some .COLOUR_CODE_BLUE
  else if group = c!"WHT" then some .COLOUR_CODE_WHITE
  else if group = c!"GRN" then some .COLOUR_CODE_GREEN
  else if group = c!"YLO" then some .COLOUR_CODE_YELLOW
  else if group = c!"YLO1" then some .COLOUR_CODE_YELLOW1
  else if group = c!"YLO2" then some .COLOUR_CODE_YELLOW2
  else if group = c!"AMB" then some .COLOUR_CODE_AMBER
  else if group = c!"RED" then some .COLOUR_CODE_RED
  else if group = c!"BLACKBLU+" then some .COLOUR_CODE_BLACKBLUE_PLUS
  else if group = c!"BLACKBLU" then some .COLOUR_CODE_BLACKBLUE
  else if group = c!"BLACKWHT" then some .COLOUR_CODE_BLACKWHITE
  else if group = c!"BLACKGRN" then some .COLOUR_CODE_BLACKGREEN
  else if group = c!"BLACKYLO" then some .COLOUR_CODE_BLACKYELLOW
  else if group = c!"BLACKYLO1" then some .COLOUR_CODE_BLACKYELLOW1
  else if group = c!"BLACKYLO2" then some .COLOUR_CODE_BLACKYELLOW2
  else if group = c!"BLACKAMB" then some .COLOUR_CODE_BLACKAMBER
  else if group = c!"BLACKRED" then some .COLOUR_CODE_BLACKRED
  else none

/-- Regular expression `rgxSunshineDuration`, metaf.hpp:6575. -/
def sunshineRgx : Rx := .lit c!"98" ⬝ .cap 1 (.d ⬝ .d ⬝ .d)

/-- Regular expression `rgxCorrectionObservation`, metaf.hpp:6576. -/
def correctionRgx : Rx := .lit c!"CC" ⬝ .cap 1 .AZ

/-- Regular expression `rgxIssuerId`, metaf.hpp:6578. -/
def issuerRgx : Rx := .chr 'F' ⬝ .cap 1 (.oneOf c!"NS") ⬝ .cap 2 (.d ⬝ .d ⬝ .d ⬝ .d ⬝ .d)

/-- `MiscGroup::parse`, metaf.hpp:6570-6631. The regular expressions leave `std::stoi` at most five
digits. -/
def parse (group : Str) (reportPart : ReportPart) : Option MiscGroup :=
  match reportPart with
  | .METAR =>
    match parseColourCode group with
    | some c => some { groupType := c }
    | none =>
      match regexMatch correctionRgx group with
      | some m =>
        some { groupType := .CORRECTED_WEATHER_OBSERVATION,
               groupData := some (f32 (((ch (m.str 1) 0).toNat - 'A'.toNat + 1 : Nat) : Rat)) }
      | none => none
  | .TAF =>
    match regexMatch issuerRgx group with
    | some m =>
      some { groupType := if m.str 1 = c!"N" then .ISSUER_ID_FN else .ISSUER_ID_FS,
             groupData := some (f32 (WeatherPhenomena.stoi (m.str 2) : Rat)) }
    | none => none
  | .RMK =>
    match parseColourCode group with
    | some c => some { groupType := c }
    | none =>
      if group = c!"GR" then some { groupType := .HAILSTONE_SIZE, incompleteText := .GR }
      else if group = c!"DENSITY" then
        some { groupType := .DENSITY_ALTITUDE, incompleteText := .DENSITY }
      else
        match regexMatch sunshineRgx group with
        | some m => some { groupType := .SUNSHINE_DURATION_MINUTES,
                           groupData := some (f32 (WeatherPhenomena.stoi (m.str 1) : Rat)) }
        | none => if group = c!"FROIN" then some { groupType := .FROIN } else none
  | _ => none

/-- `MiscGroup::appendHailstoneFraction`, metaf.hpp:6695-6706. The sum of a `float` and a `double`
literal is stored in a `float`. -/
def appendHailstoneFraction (g : MiscGroup) (group : Str) : Option MiscGroup :=
  let value := g.groupData.getD 0
  let set (k : Rat) : MiscGroup :=
    { g with groupData := some (f32 (f64 (value + k))), incompleteText := .NONE }
  if group = c!"1/4" then some (set (1 / 4))
  else if group = c!"1/2" ∨ group = c!"2/4" then some (set (1 / 2))
  else if group = c!"3/4" then some (set (3 / 4))
  else none

/-- `MiscGroup::appendDensityAltitude`, metaf.hpp:6708-6719. -/
def appendDensityAltitude (g : MiscGroup) (group : Str) : Option MiscGroup :=
  if group.length < 3 then none
  else if group.drop (group.length - 2) ≠ c!"FT" then none
  else
    match strToUint group 0 (group.length - 2) with
    | none => none
    | some v => some { g with groupData := some (f32 v), incompleteText := .NONE }

/-- `MiscGroup::append`, metaf.hpp:6633-6671. -/
def append (g : MiscGroup) (group : Str) : MiscGroup × AppendResult :=
  match g.incompleteText with
  | .NONE => (g, .NOT_APPENDED)
  | .DENSITY =>
    if group = c!"ALT" then ({ g with incompleteText := .DENSITY_ALT }, .APPENDED)
    else (g, .GROUP_INVALIDATED)
  | .DENSITY_ALT =>
    if group = c!"MISG" then ({ g with incompleteText := .NONE }, .APPENDED)
    else
      match g.appendDensityAltitude group with
      | some g' => (g', .APPENDED)
      | none => (g, .GROUP_INVALIDATED)
  | .GR =>
    if group.length = 1 ∧ '1'.toNat ≤ (ch group 0).toNat ∧ (ch group 0).toNat ≤ '9'.toNat then
      ({ g with groupData := some (f32 (digitVal (ch group 0))), incompleteText := .GR_INT },
        .APPENDED)
    else
      match g.appendHailstoneFraction group with
      | some g' => (g', .APPENDED)
      | none => (g, .GROUP_INVALIDATED)
  | .GR_INT =>
    match g.appendHailstoneFraction group with
    | some g' => (g', .APPENDED)
    | none => (g, .GROUP_INVALIDATED)

end MiscGroup

/-! ### UnknownGroup -/

/-- `UnknownGroup`, metaf.hpp:2041-2059. -/
structure UnknownGroup where
  deriving DecidableEq, Repr

namespace UnknownGroup

/-- `UnknownGroup::isValid`, metaf.hpp:2058. -/
def isValid (_ : UnknownGroup) : Bool := true

/-- `UnknownGroup::append`, metaf.hpp:2051-2057. -/
def append (g : UnknownGroup) (_ : Str) : UnknownGroup × AppendResult := (g, .APPENDED)

end UnknownGroup

end Metaf

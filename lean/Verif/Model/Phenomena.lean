import Verif.Model.Amounts

/-!
Model of the value classes `WeatherPhenomena` and `CloudType`.
Source: `/repo/include/metaf.hpp`.
-/

namespace Metaf

variable [FloatSem]

/-! ### WeatherPhenomena -/

/-- `WeatherPhenomena::Qualifier`, metaf.hpp:577-584. -/
inductive Qualifier | NONE | RECENT | VICINITY | LIGHT | MODERATE | HEAVY
  deriving DecidableEq, Repr

/-- `WeatherPhenomena::Descriptor`, metaf.hpp:585-595. -/
inductive Descriptor
  | NONE | SHALLOW | PARTIAL | PATCHES | LOW_DRIFTING | BLOWING | SHOWERS | THUNDERSTORM | FREEZING
  deriving DecidableEq, Repr

/-- `WeatherPhenomena::Weather`, metaf.hpp:596-620. -/
inductive Weather
  | NOT_REPORTED | DRIZZLE | RAIN | SNOW | SNOW_GRAINS | ICE_CRYSTALS | ICE_PELLETS | HAIL
  | SMALL_HAIL | UNDETERMINED | MIST | FOG | SMOKE | VOLCANIC_ASH | DUST | SAND | HAZE | SPRAY
  | DUST_WHIRLS | SQUALLS | FUNNEL_CLOUD | SANDSTORM | DUSTSTORM
  deriving DecidableEq, Repr

/-- `WeatherPhenomena::Event`, metaf.hpp:621-625. -/
inductive WeatherEvent | NONE | BEGINNING | ENDING
  deriving DecidableEq, Repr

/-- `static_cast<uint32_t>` of a `Qualifier`, metaf.hpp:577-584. -/
def Qualifier.code : Qualifier → Nat
  | .NONE => 0 | .RECENT => 1 | .VICINITY => 2 | .LIGHT => 3 | .MODERATE => 4 | .HEAVY => 5

/-- `static_cast<Qualifier>`, metaf.hpp:3735. Values that name no enumerator are never packed; they
are mapped to `NONE`. -/
def Qualifier.ofCode : Nat → Qualifier
  | 1 => .RECENT | 2 => .VICINITY | 3 => .LIGHT | 4 => .MODERATE | 5 => .HEAVY | _ => .NONE

/-- `static_cast<uint32_t>` of a `Descriptor`, metaf.hpp:585-595. -/
def Descriptor.code : Descriptor → Nat
  | .NONE => 0 | .SHALLOW => 1 | .PARTIAL => 2 | .PATCHES => 3 | .LOW_DRIFTING => 4
  | .BLOWING => 5 | .SHOWERS => 6 | .THUNDERSTORM => 7 | .FREEZING => 8

/-- `static_cast<Descriptor>`, metaf.hpp:3740. Values that name no enumerator are never packed; they
are mapped to `NONE`. -/
def Descriptor.ofCode : Nat → Descriptor
  | 1 => .SHALLOW | 2 => .PARTIAL | 3 => .PATCHES | 4 => .LOW_DRIFTING | 5 => .BLOWING
  | 6 => .SHOWERS | 7 => .THUNDERSTORM | 8 => .FREEZING | _ => .NONE

/-- `static_cast<uint32_t>` of a `Weather`, metaf.hpp:596-620. -/
def Weather.code : Weather → Nat
  | .NOT_REPORTED => 0 | .DRIZZLE => 1 | .RAIN => 2 | .SNOW => 3 | .SNOW_GRAINS => 4
  | .ICE_CRYSTALS => 5 | .ICE_PELLETS => 6 | .HAIL => 7 | .SMALL_HAIL => 8 | .UNDETERMINED => 9
  | .MIST => 10 | .FOG => 11 | .SMOKE => 12 | .VOLCANIC_ASH => 13 | .DUST => 14 | .SAND => 15
  | .HAZE => 16 | .SPRAY => 17 | .DUST_WHIRLS => 18 | .SQUALLS => 19 | .FUNNEL_CLOUD => 20
  | .SANDSTORM => 21 | .DUSTSTORM => 22

/-- `static_cast<Weather>`, metaf.hpp:3748-3760. Values that name no enumerator are never packed;
they are mapped to `NOT_REPORTED`. -/
def Weather.ofCode : Nat → Weather
  | 1 => .DRIZZLE | 2 => .RAIN | 3 => .SNOW | 4 => .SNOW_GRAINS | 5 => .ICE_CRYSTALS
  | 6 => .ICE_PELLETS | 7 => .HAIL | 8 => .SMALL_HAIL | 9 => .UNDETERMINED | 10 => .MIST
  | 11 => .FOG | 12 => .SMOKE | 13 => .VOLCANIC_ASH | 14 => .DUST | 15 => .SAND | 16 => .HAZE
  | 17 => .SPRAY | 18 => .DUST_WHIRLS | 19 => .SQUALLS | 20 => .FUNNEL_CLOUD | 21 => .SANDSTORM
  | 22 => .DUSTSTORM | _ => .NOT_REPORTED

/-- `static_cast<uint32_t>` of an `Event`, metaf.hpp:621-625. -/
def WeatherEvent.code : WeatherEvent → Nat
  | .NONE => 0 | .BEGINNING => 1 | .ENDING => 2

/-- `static_cast<Event>`, metaf.hpp:3766. Values that name no enumerator are never packed; they are
mapped to `NONE`. -/
def WeatherEvent.ofCode : Nat → WeatherEvent
  | 1 => .BEGINNING | 2 => .ENDING | _ => .NONE

/-- `WeatherPhenomena`, metaf.hpp:575-764: packed 32-bit data and an optional event time. -/
structure WeatherPhenomena where
  data : Nat := 0
  tm : Option MetafTime := none
  deriving DecidableEq, Repr

namespace WeatherPhenomena

/-- `WeatherPhenomena::qualifier`, metaf.hpp:3733-3736. -/
def qualifier (p : WeatherPhenomena) : Qualifier := .ofCode ((p.data >>> 0) &&& 0x7)

/-- `WeatherPhenomena::descriptor`, metaf.hpp:3738-3741. -/
def descriptor (p : WeatherPhenomena) : Descriptor := .ofCode ((p.data >>> 3) &&& 0xf)

/-- `WeatherPhenomena::weather`, metaf.hpp:3743-3763. -/
def weather (p : WeatherPhenomena) : List Weather :=
  let sz := (p.data >>> 22) &&& 0x3
  (if sz > 0 then [Weather.ofCode ((p.data >>> 7) &&& 0x1f)] else []) ++
  (if sz > 1 then [Weather.ofCode ((p.data >>> 12) &&& 0x1f)] else []) ++
  (if sz > 2 then [Weather.ofCode ((p.data >>> 17) &&& 0x1f)] else [])

/-- `WeatherPhenomena::event`, metaf.hpp:3765-3767. -/
def event (p : WeatherPhenomena) : WeatherEvent := .ofCode ((p.data >>> 24) &&& 0x3)

/-- `WeatherPhenomena::pack` with single codes, metaf.hpp:3952-3970. All fields fit in 32 bits. -/
def packCodes (q : Qualifier) (d : Descriptor) (wNum : Nat) (w1 w2 w3 : Weather)
    (e : WeatherEvent) : Nat :=
  let wNum := if wNum > 3 then 3 else wNum
  0 ||| (q.code <<< 0) ||| (d.code <<< 3) ||| (wNum <<< 22) ||| (w1.code <<< 7) |||
    (w2.code <<< 12) ||| (w3.code <<< 17) ||| (e.code <<< 24)

/-- `WeatherPhenomena::pack` with a vector, metaf.hpp:3972-3982. -/
def pack (q : Qualifier) (d : Descriptor) (w : List Weather) (e : WeatherEvent := .NONE) : Nat :=
  let sz := if w.length ≤ 3 then w.length else 3
  let w1 := if sz ≥ 1 then w.getD 0 .NOT_REPORTED else .NOT_REPORTED
  let w2 := if sz ≥ 2 then w.getD 1 .NOT_REPORTED else .NOT_REPORTED
  let w3 := if sz == 3 then w.getD 2 .NOT_REPORTED else .NOT_REPORTED
  packCodes q d w.length w1 w2 w3 e

/-- Constructor from one code, metaf.hpp:689-691. -/
def of1 (w : Weather) (d : Descriptor := .NONE) (q : Qualifier := .NONE) : WeatherPhenomena :=
  { data := packCodes q d 1 w .NOT_REPORTED .NOT_REPORTED .NONE }

/-- Constructor from two codes, metaf.hpp:685-688. -/
def of2 (w1 w2 : Weather) (d : Descriptor := .NONE) (q : Qualifier := .NONE) : WeatherPhenomena :=
  { data := packCodes q d 2 w1 w2 .NOT_REPORTED .NONE }

/-- Constructor from a descriptor, metaf.hpp:692-693. -/
def of0 (d : Descriptor) (q : Qualifier := .NONE) : WeatherPhenomena :=
  { data := packCodes q d 0 .NOT_REPORTED .NOT_REPORTED .NOT_REPORTED .NONE }

/-- `WeatherPhenomena::notReported`, metaf.hpp:640-643. -/
def notReported (recent : Bool) : WeatherPhenomena :=
  of1 .NOT_REPORTED .NONE (if recent then .RECENT else .NONE)

/-- `WeatherPhenomena::isDescriptorShAllowed`, metaf.hpp:3925-3938. -/
def isDescriptorShAllowed : Weather → Bool
  | .RAIN | .SNOW | .ICE_PELLETS | .HAIL | .SMALL_HAIL | .UNDETERMINED => true
  | _ => false

/-- `WeatherPhenomena::isDescriptorFzAllowed`, metaf.hpp:3940-3950. -/
def isDescriptorFzAllowed : Weather → Bool
  | .DRIZZLE | .RAIN | .UNDETERMINED => true
  | _ => false

/-- Strings with a fixed meaning, metaf.hpp:3773-3809. -/
def fixedString (s : Str) : Option WeatherPhenomena :=
  if s = c!"MIFG" then some (of1 .FOG .SHALLOW)
  else if s = c!"PRFG" then some (of1 .FOG .PARTIAL)
  else if s = c!"BCFG" then some (of1 .FOG .PATCHES)
  else if s = c!"DRDU" then some (of1 .DUST .LOW_DRIFTING)
  else if s = c!"DRSA" then some (of1 .SAND .LOW_DRIFTING)
  else if s = c!"DRSN" then some (of1 .SNOW .LOW_DRIFTING)
  else if s = c!"BLDU" then some (of1 .DUST .BLOWING)
  else if s = c!"BLSA" then some (of1 .SAND .BLOWING)
  else if s = c!"BLSN" then some (of1 .SNOW .BLOWING)
  else if s = c!"BLPY" then some (of1 .SPRAY .BLOWING)
  else if s = c!"TS" then some (of0 .THUNDERSTORM)
  else if s = c!"FZFG" then some (of1 .FOG .FREEZING)
  else if s = c!"IC" then some (of1 .ICE_CRYSTALS)
  else if s = c!"BR" then some (of1 .MIST)
  else if s = c!"FG" then some (of1 .FOG)
  else if s = c!"FU" then some (of1 .SMOKE)
  else if s = c!"VA" then some (of1 .VOLCANIC_ASH)
  else if s = c!"DU" then some (of1 .DUST)
  else if s = c!"SA" then some (of1 .SAND)
  else if s = c!"HZ" then some (of1 .HAZE)
  else if s = c!"PO" then some (of1 .DUST_WHIRLS)
  else if s = c!"SQ" then some (of1 .SQUALLS)
  else if s = c!"FC" then some (of1 .FUNNEL_CLOUD)
  else if s = c!"DS" then some (of1 .DUSTSTORM)
  else if s = c!"SS" then some (of1 .SANDSTORM)
  else if s = c!"DSSS" then some (of2 .DUSTSTORM .SANDSTORM)
  else if s = c!"SSDS" then some (of2 .SANDSTORM .DUSTSTORM)
  else none

/-- Strings with a qualifier and a fixed meaning, metaf.hpp:3810-3850. -/
def fixedQualifiedString (s : Str) : Option WeatherPhenomena :=
  if s = c!"VCTS" then some (of0 .THUNDERSTORM .VICINITY)
  else if s = c!"VCFG" then some (of1 .FOG .NONE .VICINITY)
  else if s = c!"VCSH" then some (of0 .SHOWERS .VICINITY)
  else if s = c!"VCPO" then some (of1 .DUST_WHIRLS .NONE .VICINITY)
  else if s = c!"VCVA" then some (of1 .VOLCANIC_ASH .NONE .VICINITY)
  else if s = c!"VCFC" then some (of1 .FUNNEL_CLOUD .NONE .VICINITY)
  else if s = c!"VCBLDU" then some (of1 .DUST .BLOWING .VICINITY)
  else if s = c!"VCBLSA" then some (of1 .SAND .BLOWING .VICINITY)
  else if s = c!"VCBLSN" then some (of1 .SNOW .BLOWING .VICINITY)
  else if s = c!"VCDS" then some (of1 .DUSTSTORM .NONE .VICINITY)
  else if s = c!"VCSS" then some (of1 .SANDSTORM .NONE .VICINITY)
  else if s = c!"+FC" then some (of1 .FUNNEL_CLOUD .NONE .HEAVY)
  else if s = c!"+DS" then some (of1 .DUSTSTORM .NONE .HEAVY)
  else if s = c!"+SS" then some (of1 .SANDSTORM .NONE .HEAVY)
  else if s = c!"+DSSS" then some (of2 .DUSTSTORM .SANDSTORM .NONE .HEAVY)
  else if s = c!"+SSDS" then some (of2 .SANDSTORM .DUSTSTORM .NONE .HEAVY)
  else if s = c!"RETS" then some (of0 .THUNDERSTORM .RECENT)
  else none

/-- Code of a precipitation phenomenon, metaf.hpp:3901-3908. -/
def precipCode (ws : Str) : Option Weather :=
  if ws = c!"DZ" then some .DRIZZLE
  else if ws = c!"RA" then some .RAIN
  else if ws = c!"SN" then some .SNOW
  else if ws = c!"SG" then some .SNOW_GRAINS
  else if ws = c!"PL" then some .ICE_PELLETS
  else if ws = c!"GR" then some .HAIL
  else if ws = c!"GS" then some .SMALL_HAIL
  else if ws = c!"UP" then some .UNDETERMINED
  else none

/-- The loop over precipitation codes, metaf.hpp:3897-3916, with `n` iterations left. Returns the
remaining text and the codes found. -/
def precipLoop : Nat → Str → List Weather → Option (Str × List Weather)
  | 0, s, ws => some (s, ws)
  | n + 1, s, ws =>
    if s.isEmpty then some (s, ws)
    else
      match precipCode (s.take 2) with
      | none => none
      | some w => if ws.contains w then none else precipLoop n (s.drop 2) (ws ++ [w])

/-- Qualifier prefix of precipitation, metaf.hpp:3855-3882. -/
def precipQualifier (s : Str) (enableQualifiers : Bool) : Qualifier × Str :=
  if enableQualifiers then
    if ch s 0 == '+' then (.HEAVY, s.drop 1)
    else if ch s 0 == '-' then (.LIGHT, s.drop 1)
    else if ch s 0 == 'R' && ch s 1 == 'E' then (.RECENT, s.drop 2)
    else (.MODERATE, s)
  else (.NONE, s)

/-- Descriptor prefix of precipitation, metaf.hpp:3884-3888. -/
def precipDescriptor (s : Str) : Descriptor × Str :=
  if s.take 2 = c!"SH" then (.SHOWERS, s.drop 2)
  else if s.take 2 = c!"TS" then (.THUNDERSTORM, s.drop 2)
  else if s.take 2 = c!"FZ" then (.FREEZING, s.drop 2)
  else (.NONE, s)

/-- Precipitation part of `WeatherPhenomena::fromString`, metaf.hpp:3851-3923. The flags for the
SH and FZ descriptors are computed from the list of codes instead of along the loop. -/
def precipitation (s : Str) (enableQualifiers : Bool) : Option WeatherPhenomena :=
  if s.length < 2 then none
  else
    let (q, s) := precipQualifier s enableQualifiers
    if s.length < 2 then none
    else
      let (d, s) := precipDescriptor s
      if s.length < 2 || s.length % 2 != 0 then none
      else
        match precipLoop 3 s [] with
        | none => none
        | some (rest, ws) =>
          if !rest.isEmpty then none
          else if !(ws.any isDescriptorShAllowed) && d == .SHOWERS then none
          else if !(ws.any isDescriptorFzAllowed) && d == .FREEZING then none
          else some { data := pack q d ws }

/-- `WeatherPhenomena::fromString`, metaf.hpp:3769-3923. -/
def fromString (s : Str) (enableQualifiers : Bool := false) : Option WeatherPhenomena :=
  match fixedString s with
  | some p => some p
  | none =>
    match (if enableQualifiers then fixedQualifiedString s else none) with
    | some p => some p
    | none => precipitation s enableQualifiers

/-- The search loop of `isValid`, metaf.hpp:4037-4043: looks at `w[i]`, ..., `w[i + n - 1]`.
Reading beyond the vector is a fault. -/
def fzLoop (w : List Weather) : Nat → Nat → Res Bool
  | 0, _ => .ok false
  | n + 1, i =>
    match w[i]? with
    | none => .error .outOfRange
    | some x =>
      if x = .DRIZZLE ∨ x = .RAIN ∨ x = .UNDETERMINED ∨ x = .FOG then .ok true
      else fzLoop w n (i + 1)

/-- `WeatherPhenomena::isValid`, metaf.hpp:4027-4049. -/
def isValid (p : WeatherPhenomena) : Res Bool :=
  let w := p.weather
  if p.qualifier = .NONE ∧ p.descriptor = .NONE ∧ w.length = 0 then .ok false
  else if p.tm.any (fun t => !t.isValid) then .ok false
  else if p.descriptor = .FREEZING then fzLoop w 3 0
  else .ok true

/-- Regular expression of `fromWeatherBeginEndString`, metaf.hpp:3990. -/
def beginEndRgx : Rx :=
  .cap 1 (.upTo (.AZ ⬝ .AZ) 4) ⬝ .cap 2 (.oneOf c!"BE") ⬝ .opt (.cap 3 (.d ⬝ .d)) ⬝
    .cap 4 (.d ⬝ .d)

/-- `std::stoi` on a string of digits. Used only on sub-matches made of two, three or five
digits (metaf.hpp:4019, 4021, 6595 and 6621), so that `int` does not overflow. -/
def stoi (s : Str) : Nat := s.foldl (fun v c => v * 10 + digitVal c) 0

/-- `WeatherPhenomena::fromWeatherBeginEndString`, metaf.hpp:3984-4025. The event is always set: the
regular expression allows only B and E. -/
def fromWeatherBeginEndString (s : Str) (reportTime : MetafTime) (previous : WeatherPhenomena) :
    Res (Option WeatherPhenomena) :=
  match regexMatch beginEndRgx s with
  | none => .ok none
  | some m =>
    let finish (result : WeatherPhenomena) : WeatherPhenomena :=
      let resultEvent : WeatherEvent := if m.str 2 = c!"E" then .ENDING else .BEGINNING
      let hour := if (m.str 3).isEmpty then reportTime.hourValue else stoi (m.str 3)
      { data := pack result.qualifier result.descriptor result.weather resultEvent,
        tm := some { hourValue := hour, minuteValue := stoi (m.str 4) } }
    if !(m.str 1).isEmpty then
      match fromString (m.str 1) with
      | none => .ok none
      | some ph => .ok (some (finish ph))
    else
      match previous.isValid with
      | .error f => .error f
      | .ok false => .ok none
      | .ok true => .ok (some (finish previous))

end WeatherPhenomena

/-! ### CloudType -/

/-- `CloudType::Type`, metaf.hpp:768-803. -/
inductive CloudTypeKind
  | NOT_REPORTED | CUMULONIMBUS | TOWERING_CUMULUS | CUMULUS | CUMULUS_FRACTUS | STRATOCUMULUS
  | NIMBOSTRATUS | STRATUS | STRATUS_FRACTUS | ALTOSTRATUS | ALTOCUMULUS | ALTOCUMULUS_CASTELLANUS
  | CIRRUS | CIRROSTRATUS | CIRROCUMULUS | BLOWING_SNOW | BLOWING_DUST | BLOWING_SAND
  | ICE_CRYSTALS | RAIN | DRIZZLE | SNOW | ICE_PELLETS | SMOKE | FOG | MIST | HAZE | VOLCANIC_ASH
  deriving DecidableEq, Repr

/-- `CloudType`, metaf.hpp:766-820. -/
structure CloudType where
  tp : CloudTypeKind := .NOT_REPORTED
  ht : Distance := {}
  okt : Nat := 0
  deriving DecidableEq, Repr

namespace CloudType

/-- `CloudType::isValid`, metaf.hpp:807. -/
def isValid (c : CloudType) : Bool := c.okt ≥ 1 && c.okt ≤ 8

/-- `CloudType::cloudTypeFromString`, metaf.hpp:4095-4111. -/
def cloudTypeFromString (s : Str) : CloudTypeKind :=
  if s = c!"CB" then .CUMULONIMBUS
  else if s = c!"TCU" then .TOWERING_CUMULUS
  else if s = c!"CU" then .CUMULUS
  else if s = c!"CF" then .CUMULUS_FRACTUS
  else if s = c!"SC" then .STRATOCUMULUS
  else if s = c!"NS" then .NIMBOSTRATUS
  else if s = c!"ST" then .STRATUS
  else if s = c!"SF" then .STRATUS_FRACTUS
  else if s = c!"AS" then .ALTOSTRATUS
  else if s = c!"AC" then .ALTOCUMULUS
  else if s = c!"ACC" then .ALTOCUMULUS_CASTELLANUS
  else if s = c!"CI" then .CIRRUS
  else if s = c!"CS" then .CIRROSTRATUS
  else if s = c!"CC" then .CIRROCUMULUS
  else .NOT_REPORTED

/-- `CloudType::cloudTypeOrObscurationFromString`, metaf.hpp:4113-4129. -/
def cloudTypeOrObscurationFromString (s : Str) : CloudTypeKind :=
  if cloudTypeFromString s ≠ .NOT_REPORTED then cloudTypeFromString s
  else if s = c!"BLSN" then .BLOWING_SNOW
  else if s = c!"BLDU" then .BLOWING_DUST
  else if s = c!"BLSA" then .BLOWING_SAND
  else if s = c!"IC" then .ICE_CRYSTALS
  else if s = c!"RA" then .RAIN
  else if s = c!"DZ" then .DRIZZLE
  else if s = c!"SN" then .SNOW
  else if s = c!"PL" then .ICE_PELLETS
  else if s = c!"FU" then .SMOKE
  else if s = c!"FG" then .FOG
  else if s = c!"BR" then .MIST
  else if s = c!"HZ" then .HAZE
  else if s = c!"VA" then .VOLCANIC_ASH
  else .NOT_REPORTED

/-- `CloudType::fromString`, metaf.hpp:4053-4080. -/
def fromString (s : Str) : Option CloudType :=
  if s.isEmpty then none
  else if isDigit (ch s 0) then
    if s.length != 6 && s.length != 7 then none
    else
      let typeStrLen := s.length - 3 - 1
      match Distance.fromHeightString (s.drop (s.length - 3)) with
      | none => none
      | some heightValue =>
        if !heightValue.isReported then none
        else
          let typeValue := cloudTypeFromString (substr s 1 typeStrLen)
          if typeValue = .NOT_REPORTED then none
          else some { tp := typeValue, ht := heightValue, okt := digitVal (ch s 0) }
  else
    if s.length < 3 then none
    else
      let oktaCh := ch s (s.length - 1)
      if !isDigit oktaCh then none
      else
        let typeValue := cloudTypeOrObscurationFromString (s.take (s.length - 1))
        if typeValue = .NOT_REPORTED then none
        else some { tp := typeValue, ht := {}, okt := digitVal oktaCh }

/-- `CloudType::fromStringObscuration`, metaf.hpp:4082-4092. -/
def fromStringObscuration (s : Str) : Option CloudType :=
  if s = c!"BLSN" then some { tp := .BLOWING_SNOW }
  else if s = c!"BLDU" then some { tp := .BLOWING_DUST }
  else if s = c!"BLSA" then some { tp := .BLOWING_SAND }
  else if s = c!"VA" then some { tp := .VOLCANIC_ASH }
  else if s = c!"FU" then some { tp := .SMOKE }
  else if s = c!"FG" then some { tp := .FOG }
  else none

end CloudType

end Metaf

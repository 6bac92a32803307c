import Verif.Model.Phenomena

/-!
Specification of weather phenomena: the code letters of WMO No. 306 (table 4678) and FMH-1, and the
combinations that metaf documents as allowed.  Only the enumerations of the model are used.
-/

namespace Metaf.Spec

/-- Letters of a qualifier. Moderate intensity has none. -/
def qualifierText : Qualifier → Str
  | .NONE => [] | .MODERATE => [] | .LIGHT => c!"-" | .HEAVY => c!"+" | .VICINITY => c!"VC"
  | .RECENT => c!"RE"

/-- Letters of a descriptor. -/
def descriptorText : Descriptor → Str
  | .NONE => [] | .SHALLOW => c!"MI" | .PARTIAL => c!"PR" | .PATCHES => c!"BC"
  | .LOW_DRIFTING => c!"DR" | .BLOWING => c!"BL" | .SHOWERS => c!"SH" | .THUNDERSTORM => c!"TS"
  | .FREEZING => c!"FZ"

/-- Letters of a phenomenon. -/
def weatherText : Weather → Str
  | .NOT_REPORTED => c!"//" | .DRIZZLE => c!"DZ" | .RAIN => c!"RA" | .SNOW => c!"SN"
  | .SNOW_GRAINS => c!"SG" | .ICE_CRYSTALS => c!"IC" | .ICE_PELLETS => c!"PL" | .HAIL => c!"GR"
  | .SMALL_HAIL => c!"GS" | .UNDETERMINED => c!"UP" | .MIST => c!"BR" | .FOG => c!"FG"
  | .SMOKE => c!"FU" | .VOLCANIC_ASH => c!"VA" | .DUST => c!"DU" | .SAND => c!"SA"
  | .HAZE => c!"HZ" | .SPRAY => c!"PY" | .DUST_WHIRLS => c!"PO" | .SQUALLS => c!"SQ"
  | .FUNNEL_CLOUD => c!"FC" | .SANDSTORM => c!"SS" | .DUSTSTORM => c!"DS"

/-- Weather as it is written. -/
def weatherWritten (q : Qualifier) (d : Descriptor) (ws : List Weather) : Str :=
  qualifierText q ++ descriptorText d ++ (ws.map weatherText).flatten

/-- Precipitation phenomena. -/
def isPrecipitation : Weather → Bool
  | .DRIZZLE | .RAIN | .SNOW | .SNOW_GRAINS | .ICE_PELLETS | .HAIL | .SMALL_HAIL
  | .UNDETERMINED => true
  | _ => false

/-- Weather without precipitation, written without a qualifier. -/
inductive PlainWeather : Descriptor → List Weather → Prop
  | fog (d : Descriptor) (h : d ∈ [.NONE, .SHALLOW, .PARTIAL, .PATCHES, .FREEZING]) :
      PlainWeather d [.FOG]
  | drifting (w : Weather) (h : w ∈ [.DUST, .SAND, .SNOW]) : PlainWeather .LOW_DRIFTING [w]
  | blowing (w : Weather) (h : w ∈ [.DUST, .SAND, .SNOW, .SPRAY]) : PlainWeather .BLOWING [w]
  | thunderstorm : PlainWeather .THUNDERSTORM []
  | single (w : Weather)
      (h : w ∈ [.ICE_CRYSTALS, .MIST, .SMOKE, .VOLCANIC_ASH, .DUST, .SAND, .HAZE, .DUST_WHIRLS,
        .SQUALLS, .FUNNEL_CLOUD, .DUSTSTORM, .SANDSTORM]) : PlainWeather .NONE [w]
  | storms₁ : PlainWeather .NONE [.DUSTSTORM, .SANDSTORM]
  | storms₂ : PlainWeather .NONE [.SANDSTORM, .DUSTSTORM]

/-- Weather without precipitation, written with a qualifier. -/
inductive QualifiedWeather : Qualifier → Descriptor → List Weather → Prop
  | vicinity (w : Weather)
      (h : w ∈ [.FOG, .DUST_WHIRLS, .VOLCANIC_ASH, .FUNNEL_CLOUD, .DUSTSTORM, .SANDSTORM]) :
      QualifiedWeather .VICINITY .NONE [w]
  | blowing (w : Weather) (h : w ∈ [.DUST, .SAND, .SNOW]) : QualifiedWeather .VICINITY .BLOWING [w]
  | showers : QualifiedWeather .VICINITY .SHOWERS []
  | thunderstorm : QualifiedWeather .VICINITY .THUNDERSTORM []
  | heavy (w : Weather) (h : w ∈ [.FUNNEL_CLOUD, .DUSTSTORM, .SANDSTORM]) :
      QualifiedWeather .HEAVY .NONE [w]
  | heavy₁ : QualifiedWeather .HEAVY .NONE [.DUSTSTORM, .SANDSTORM]
  | heavy₂ : QualifiedWeather .HEAVY .NONE [.SANDSTORM, .DUSTSTORM]
  | recent : QualifiedWeather .RECENT .THUNDERSTORM []

/-- Precipitation: one to three different phenomena. Showers need one that falls in showers,
freezing precipitation one that freezes. -/
structure PrecipitationWeather (d : Descriptor) (ws : List Weather) : Prop where
  kind : ∀ w ∈ ws, isPrecipitation w = true
  some : ws ≠ []
  atMost : ws.length ≤ 3
  different : ws.Nodup
  descriptor : d ∈ [.NONE, .SHOWERS, .THUNDERSTORM, .FREEZING]
  showers : d = .SHOWERS →
    ∃ w ∈ ws, w ∈ [.RAIN, .SNOW, .ICE_PELLETS, .HAIL, .SMALL_HAIL, .UNDETERMINED]
  freezing : d = .FREEZING → ∃ w ∈ ws, w ∈ [.DRIZZLE, .RAIN, .UNDETERMINED]

/-- Allowed weather. Where qualifiers are possible, precipitation has an intensity or is recent. -/
inductive AllowedWeather (qualifiers : Bool) : Qualifier → Descriptor → List Weather → Prop
  | plain {d ws} (h : PlainWeather d ws) : AllowedWeather qualifiers .NONE d ws
  | qualified {q d ws} (e : qualifiers = true) (h : QualifiedWeather q d ws) :
      AllowedWeather qualifiers q d ws
  | precipitation {d ws} (e : qualifiers = false) (h : PrecipitationWeather d ws) :
      AllowedWeather qualifiers .NONE d ws
  | intensity {q d ws} (e : qualifiers = true) (hq : q ∈ [.LIGHT, .MODERATE, .HEAVY, .RECENT])
      (h : PrecipitationWeather d ws) : AllowedWeather qualifiers q d ws

end Metaf.Spec

import Verif.Spec.Weather
import Verif.Spec.Decimal

/-!
Specification of the words for weather phenomena on the page of `/repo/examples/explain.cpp`.
-/

namespace Metaf.Spec

open Metaf

/-- Phenomena which have an expression of their own. -/
def expressions : List ((Qualifier × Descriptor × List Weather) × Str) := [
  ((.VICINITY, .SHOWERS, []), c!"precipitation in vicinity (up to 10 miles away)"),
  ((.NONE, .NONE, [.ICE_CRYSTALS]), c!"ice crystals (diamond dust)"),
  ((.NONE, .NONE, [.DUST]), c!"widespread dust"),
  ((.NONE, .NONE, [.UNDETERMINED]), c!"undetermined precipitation (automated system cannot identify precipitation)"),
  ((.NONE, .SHALLOW, [.FOG]), c!"shallow fog (ground fog)"),
  ((.NONE, .PARTIAL, [.FOG]), c!"fog covering part of the location"),
  ((.NONE, .PATCHES, [.FOG]), c!"patches of fog randomly covering the location"),
  ((.NONE, .FREEZING, [.FOG]), c!"fog at freezing temperture (may or may not deposit rime)"),
  ((.HEAVY, .NONE, [.FUNNEL_CLOUD]), c!"tornado or waterspout"),
  ((.VICINITY, .NONE, [.FUNNEL_CLOUD]), c!"tornadic activity in vicinity")]

/-- The name of a phenomenon. -/
def phenomenonName : Weather → Str
  | .NOT_REPORTED => c!"not reported" | .DRIZZLE => c!"drizzle" | .RAIN => c!"rain" | .SNOW => c!"snow"
  | .SNOW_GRAINS => c!"snow grains" | .ICE_CRYSTALS => c!"ice crystals" | .ICE_PELLETS => c!"ice pellets"
  | .HAIL => c!"hail" | .SMALL_HAIL => c!"small hail (graupel)" | .UNDETERMINED => c!"undetermined precipitation"
  | .MIST => c!"mist" | .FOG => c!"fog" | .SMOKE => c!"smoke" | .VOLCANIC_ASH => c!"volcanic ash"
  | .DUST => c!"dust" | .SAND => c!"sand" | .HAZE => c!"haze" | .SPRAY => c!"spray"
  | .DUST_WHIRLS => c!"dust or sand whirls" | .SQUALLS => c!"squalls" | .FUNNEL_CLOUD => c!"funnel cloud"
  | .SANDSTORM => c!"sand storm" | .DUSTSTORM => c!"dust storm"

/-- The names of several phenomena: snow next to rain is a mix of both. -/
def phenomenonNames (ws : List Weather) : List Str :=
  (ws.zip (none :: ws.map some)).map fun
    | (.SNOW, some .RAIN) => c!"and snow mix"
    | (.RAIN, some .SNOW) => c!"and rain mix"
    | (w, _) => phenomenonName w

/-- The words for a phenomenon: intensity, descriptor, names, and after the names what the phenomena come with and
whether they are in the vicinity. -/
def phenomenonWords (q : Qualifier) (d : Descriptor) (ws : List Weather) : List Str :=
  ([(.LIGHT, c!"light"), (.MODERATE, c!"moderate"), (.HEAVY, c!"heavy")].lookup q).toList ++
  ([(.LOW_DRIFTING, c!"low drifting"), (.BLOWING, c!"blowing"), (.FREEZING, c!"freezing")].lookup d).toList ++
  phenomenonNames ws ++
  (if d = .SHOWERS then [c!"showers"]
   else if d = .THUNDERSTORM then (if ws = [] then [c!"thunderstorm"] else [c!"with thunderstorm"])
   else [])

/-- The text for a phenomenon. -/
def phenomenonText (q : Qualifier) (d : Descriptor) (ws : List Weather) : Str :=
  match expressions.lookup (q, d, ws) with
  | some t => t
  | none => (phenomenonWords q d ws).flatMap (· ++ c!" ") ++
      (if q = .VICINITY then c!"in vicinity (5 to 10 miles away)" else [])

end Metaf.Spec

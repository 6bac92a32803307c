import Verif.Spec.PageWidget

/-!
Specification of the list of stations on the page with the summaries: which stations are shown, in which order, and what
is shown for each.
-/

namespace Metaf.Spec

open Metaf Metaf.Page

/-- The text of the last child with a name, if there is one. -/
def childText (name : Str) (e : Page.Element) : Option Str := (e.filter fun c => c.1 = name).getLast?.map Prod.snd

/-- The station an element is about. -/
def stationOf (e : Page.Element) : Option Str := childText c!"station_id" e

/-- The elements about a station. -/
def about (id : Option Str) (es : List Page.Element) : List Page.Element := es.filter fun e => stationOf e = id

/-- The keys are the names in the order in which they first occur, each once. -/
def FirstOrder (names keys : List (Option Str)) : Prop :=
  keys.Pairwise (fun a b => names.idxOf a < names.idxOf b) ∧ ∀ k, k ∈ keys ↔ k ∈ names

/-- The element with the position of a station: its last METAR, or else its first TAF. -/
def positionOf (metars tafs : List Page.Element) (id : Option Str) : Option Page.Element :=
  (about id metars).getLast?.or (about id tafs).head?

/-- What is known of a station from the data received: its last METAR and last TAF (an empty text if there is none), its
position, and the site named last (an empty text if the station is not listed). -/
structure StationData (metars tafs stations : List Page.Element) (distance : Distances) (id : Option Str) (s : Station) :
    Prop where
  metar : s.metar = ((about id metars).getLast?.map (childText c!"raw_text")).getD (some [])
  taf : s.taf = ((about id tafs).getLast?.map (childText c!"raw_text")).getD (some [])
  name : s.name = ((about id stations).getLast?.map (childText c!"site")).getD (some [])
  lat : s.lat = (positionOf metars tafs id).bind (childText c!"latitude")
  lon : s.lon = (positionOf metars tafs id).bind (childText c!"longitude")
  dist : s.distKm = distance s.lat s.lon

end Metaf.Spec

namespace Metaf.Spec

open Metaf Metaf.Page Metaf.Summary

/-! ### The page -/

/-- The widget of a summary: its icon, its elements, and the arrow of the wind. (The elements are as specified only if
pressure in inches and visibility in kilometres are known, see `C128`.) -/
structure IsWidget [FloatSem] (r : CurrentWeather) (imperial : Bool) (text : Str) : Prop where
  icon : ∃ icon, FirstIcon (iconRules r imperial) icon ∧ (c!"<div class=\"ww_weather\">" ++ icon ++ c!"</div>") <:+: text
  fields : (imperial = true → known r.atmosphericPressure ≠ none) → (imperial = false → known r.visibility ≠ none) →
    ∀ cls contents, cls ≠ c!"ww_weather" → (WidgetField text cls contents ↔ (cls, contents) ∈ widgetFields r imperial)
  arrow : ∀ tag contents, c!"div class=\"ww_wind_dir_icon\"" <+: tag →
    (r.isWindVariable = true → ¬TagIn text tag contents) ∧
    (∀ d, r.isWindVariable = false → known r.windDirection = some d →
      (TagIn text tag contents ↔ tag = arrowTag d ∧ contents = c!"&#xf0b1;"))

/-- The distance is given in whole kilometres or miles (of 1.609344 km), rounded; if there is none, as the page does it. -/
def DistanceNote (distance : Option Rat) (imperial : Bool) (note : Str) : Prop :=
  match distance with
  | none => note = c!" (NaN" ++ (if imperial then c!" miles" else c!" km") ++ c!" away)"
  | some d => ∃ n : Int, |(n : Rat) - (if imperial then d / (1609344 / 1000000) else d)| ≤ 1 / 2 ∧
      note = c!" (" ++ numberText n ++ (if imperial then c!" miles" else c!" km") ++ c!" away)"

/-- The name of a station in its title. A station which is listed without a site is called `undefined`, see
`C130_violated`. -/
def title : Option Str → Str
  | none => c!"undefined"
  | some [] => c!"NAME UNKNOWN"
  | some name => name

/-- The item for a station with the summary of its weather: title, widget and text. -/
def IsItem [FloatSem] (s : Station) (r : CurrentWeather) (imperial : Bool) (item : Str) : Prop :=
  ∃ note widget words lines, DistanceNote s.distKm imperial note ∧ IsWidget r imperial widget ∧
    PageLines words lines ∧ StationLines r imperial lines ∧
    item = c!"<div class=\"weatherdataitem\"><div class=\"weatherstation\">" ++ title s.name ++ note ++
      c!"</div><div class=\"widget\">" ++ widget ++ c!"</div><div class=\"weathertext\">" ++ words ++ c!"</div></div>"

/-- The last METAR and the last TAF of a station have a text, if there are any. -/
def HasTexts (metars tafs : List Page.Element) (id : Option Str) : Prop :=
  (∀ e, (about id metars).getLast? = some e → childText c!"raw_text" e ≠ none) ∧
  (∀ e, (about id tafs).getLast? = some e → childText c!"raw_text" e ≠ none)

/-- How many aerodromes there are. -/
def aerodromeCount (n : Nat) : Str :=
  c!"<div class=\"weatherdataitem\">" ++
  (if n = 0 then c!"No aerodromes" else if n = 1 then c!"1 aerodrome" else numberText n ++ c!" aerodromes") ++
  c!" within selected range</div>"

/-- The messages in the errors received. -/
def messages (errors : List (List (Option Str))) : List Str := errors.flatMap fun e => e.flatMap Option.toList

/-- The item with error messages, if there are any. -/
def errorItem (caption : Str) (errors : List (List (Option Str))) : Str :=
  if messages errors = [] then []
  else c!"<div class=\"weatherdataitem\">\n\t\t\t\t\t<div class=\"weatherstation\">" ++ caption ++
    c!"</div>\n\t\t\t\t\t" ++ (messages errors).flatMap (· ++ c!"<br>") ++ c!"\n\t\t\t\t</div>"

/-- What stands on the page above the stations. -/
def pageHead (answers : Answers) (count : Nat) : Str :=
  errorItem c!"METAR errors" answers.metarErrors ++ errorItem c!"TAF errors" answers.tafErrors ++
  errorItem c!"Station data errors" answers.stationErrors ++ aerodromeCount count

end Metaf.Spec

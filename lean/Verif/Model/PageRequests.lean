import Verif.Model.Page
import Verif.Model.PageOptions

/-!
Model of how the page with the summaries (`/repo/examples/shellfiles/summary_shell.html`) asks for the position of the
visitor and for the data, and of what it shows meanwhile.

Simplifications. The handlers of the script run one at a time and only they change the page, so a handler and the
handlers which follow without waiting are one step. The parser of the data (`DOMParser`, which does not throw) and the
distance between positions are parameters. Coordinates are exact (`Math.round(x * 100)` with the exact product). The
header `date` of a response is a date in milliseconds since 1970; a missing header counts as 0, as `new Date(null)`
does, and a header which is not a date is left out. What is written to the log is left out.
-/

namespace Metaf.PageRequests

open Metaf Metaf.Page Metaf.PageOptions
open Metaf.ExplainPage (JsText)

variable [FloatSem]

/-! ### Promises -/

/-- A promise which is settled; used throughout summary_shell.html:108-125 and 1071-1110. -/
inductive Settled (α : Type)
  | fulfilled (a : α)
  | rejected

/-- `then` with a handler which gives a value or throws, summary_shell.html:114-121 and 1078. -/
def Settled.andThen {α β : Type} (p : Settled α) (f : α → Settled β) : Settled β :=
  match p with
  | .fulfilled a => f a
  | .rejected => .rejected

/-- `catch` with a handler which writes to the log and gives `undefined`, summary_shell.html:111-113, 122-124. -/
def Settled.orUndefined {α : Type} (p : Settled α) : Settled (Option α) :=
  match p with
  | .fulfilled a => .fulfilled (some a)
  | .rejected => .fulfilled none

/-! ### A request -/

/-- The data of an answer, as `getElementsByTagName` gives them, summary_shell.html:1080-1085. -/
structure Document where
  elements : Str → List Page.Element
  errors : List (List (Option Str))

/-- The moment of an event: the device and the date on it, summary_shell.html:116 and 1099. -/
structure Moment where
  device : Device
  today : Int × Int × Int

/-- What happens to a request, summary_shell.html:110 and 120: no response, a response with a date, and after it no
text or the text. -/
inductive Answer
  | noResponse
  | response (date : Int)
  | noBody
  | body (text : Str)

/-- How far `fetchAndParseXML` is, summary_shell.html:108-125: waiting for the response, waiting for the text, with
the offset of the time, or settled. -/
inductive Request
  | sent
  | reading (offset : Int)
  | settled (result : Settled (Option (Document × Int)))

/-- The handlers behind `fetch`, summary_shell.html:111-120: a member of `undefined` cannot be read. -/
def afterFetch (device : Device) (response : Settled Int) : Settled Int :=
  response.orUndefined.andThen fun r =>
    match r with
    | some date => .fulfilled (getActualTimeOffset device date)
    | none => .rejected

/-- The handlers behind `response.text()`, summary_shell.html:121-124. -/
def afterText (parse : Str → Document) (offset : Int) (text : Settled Str) : Settled (Option (Document × Int)) :=
  (text.andThen fun t => .fulfilled (parse t, offset)).orUndefined

/-- `fetchAndParseXML`, summary_shell.html:108-125: the next step. What cannot happen changes nothing. -/
def Request.step (parse : Str → Document) (moment : Moment) : Request → Answer → Request
  | .sent, .noResponse =>
    match afterFetch moment.device .rejected with
    | .fulfilled offset => .reading offset
    | .rejected => .settled (Settled.rejected.orUndefined)
  | .sent, .response date =>
    match afterFetch moment.device (.fulfilled date) with
    | .fulfilled offset => .reading offset
    | .rejected => .settled (Settled.rejected.orUndefined)
  | .reading offset, .noBody => .settled (afterText parse offset .rejected)
  | .reading offset, .body text => .settled (afterText parse offset (.fulfilled text))
  | r, _ => r

/-! ### All requests -/

/-- The data which are requested, summary_shell.html:1066-1068. -/
inductive Source
  | metars | tafs | stations
  deriving DecidableEq, Repr

/-- The addresses of the requests, summary_shell.html:1066-1068; the coordinates are in hundredths of a degree. -/
def url (source : Source) (distance : JsText) (latitude longitude : Int) : JsText :=
  js c!"https://cors-anywhere.herokuapp.com/https://www.aviationweather.gov/adds/dataserver_current/httpparam" ++
  (match source with
    | .metars => js c!"?dataSource=metars"
    | .tafs => js c!"?dataSource=tafs"
    | .stations => js c!"?dataSource=stations") ++
  js c!"&requestType=retrieve&format=xml&radialDistance=" ++ distance ++ js c!";" ++
  js (showQuotient longitude 2) ++ js c!"," ++ js (showQuotient latitude 2) ++
  (match source with
    | .metars => js c!"&hoursBeforeNow=3&mostRecentForEachStation=true"
    | .tafs => js c!"&hoursBeforeNow=24&mostRecentForEachStation=true"
    | .stations => js c!"&fields=station_id,site")

/-- The requests under way and the position for which they are, summary_shell.html:1065-1073. -/
structure Requests where
  latitude : Int
  longitude : Int
  of : Source → Request

/-- `Promise.all`, summary_shell.html:1071-1073: rejected with the first which is rejected, fulfilled if all are. -/
def Requests.all (r : Requests) :
    Option (Settled (Option (Document × Int) × Option (Document × Int) × Option (Document × Int))) :=
  match r.of .metars, r.of .tafs, r.of .stations with
  | .settled .rejected, _, _ => some .rejected
  | _, .settled .rejected, _ => some .rejected
  | _, _, .settled .rejected => some .rejected
  | .settled (.fulfilled m), .settled (.fulfilled t), .settled (.fulfilled s) => some (.fulfilled (m, t, s))
  | _, _, _ => none

/-- What the script does next, summary_shell.html:1065, 1112-1139 and 1150-1153: waiting for the position, waiting for
the data, or nothing more. -/
inductive Phase
  | locating
  | waiting (requests : Requests)
  | ended

/-- The page: the text of the element for the data, the addresses requested so far, and what is next,
summary_shell.html:930-938. -/
structure Tab where
  page : Str
  requested : List JsText
  phase : Phase

/-- The parameters: the numbers of the script, the parser of the data and the distance from a position to the one of a
station, summary_shell.html:85-106, 121 and 1143. -/
structure World (N : Type) where
  num : Numbers N
  parse : Str → Document
  distances : Int → Int → Distances

/-- The handler of the answers, summary_shell.html:1078-1106, on the page with the text given. An answer which is
`undefined` throws before anything is shown; a parameter which cannot be decoded throws while the data are processed. -/
def process {N : Type} (world : World N) (search : JsText) (moment : Moment) (latitude longitude : Int) (page : Str)
    (data : Option (Option (Document × Int) × Option (Document × Int) × Option (Document × Int))) : Str :=
  match data with
  | some (some (metar, timeOffset), some (taf, _), some (station, _)) =>
    match dataImperial search with
    | none => c!"Processing weather data..."
    | some imperialUnits =>
      (showWeather moment.device moment.today (world.distances latitude longitude) imperialUnits timeOffset
        { metars := metar.elements c!"METAR", tafs := taf.elements c!"TAF", stations := station.elements c!"Station"
          metarErrors := metar.errors, tafErrors := taf.errors, stationErrors := station.errors }).1
  | _ => page

/-- The handlers behind `Promise.all`, summary_shell.html:1074-1109. -/
def finish {N : Type} (world : World N) (search : JsText) (moment : Moment) (latitude longitude : Int) (page : Str)
    (data : Settled (Option (Document × Int) × Option (Document × Int) × Option (Document × Int))) : Str :=
  match data with
  | .rejected => process world search moment latitude longitude c!"Unable to retreive weather data" none
  | .fulfilled d => process world search moment latitude longitude page (some d)

/-- What can happen: the position is found or not (the callbacks at summary_shell.html:1135-1138), or something happens
to a request. -/
inductive PageEvent
  | position (latitude longitude : Rat)
  | noPosition
  | answer (source : Source) (answer : Answer)

/-- The start, summary_shell.html:1150-1153: the options are shown (`updateOptions`) and the position is asked for
(`getWeatherSummaryForPosition`, 1128-1139). If the options cannot be shown the script ends. `Preparing...` is the text
in the page, summary_shell.html:1176. -/
def start {N : Type} [DecidableEq N] (world : World N) (search : JsText) : Tab :=
  match updateOptions world.num search with
  | none => ⟨c!"Preparing...", [], .ended⟩
  | some _ => ⟨c!"Geolocating...", [], .locating⟩

/-- One event. The position is found: `getPositionSuccess`, summary_shell.html:1112-1121, and the beginning of
`getAWCweather`, 1065-1073. It is not found: `getPositionFailure`, 1123-1126. Something happens to a request: if then all
are settled their handlers run. What cannot happen changes nothing. -/
def Tab.step {N : Type} [DecidableEq N] (world : World N) (search : JsText) (tab : Tab) (event : Moment × PageEvent) :
    Tab :=
  match tab.phase, event.2 with
  | .locating, .position lat lon =>
    let latitude := mathRound (lat * 100)
    let longitude := mathRound (lon * 100)
    match requestDistance world.num search with
    | none => { tab with phase := .ended }
    | some distance =>
      { page := c!"Retreiving weather data..."
        requested := tab.requested ++
          [Source.metars, .tafs, .stations].map fun s => url s (world.num.text distance) latitude longitude
        phase := .waiting ⟨latitude, longitude, fun _ => .sent⟩ }
  | .locating, .noPosition => { tab with page := c!"Unable to acquire position", phase := .ended }
  | .waiting requests, .answer source answer =>
    let next := { requests with of := fun s =>
      if s = source then (requests.of s).step world.parse event.1 answer else requests.of s }
    match next.all with
    | none => { tab with phase := .waiting next }
    | some data =>
      { tab with
        page := finish world search event.1 requests.latitude requests.longitude tab.page data
        phase := .ended }
  | _, _ => tab

/-- The page after any number of events, summary_shell.html:1065-1154. -/
def run {N : Type} [DecidableEq N] (world : World N) (search : JsText) (events : List (Moment × PageEvent)) : Tab :=
  events.foldl (Tab.step world search) (start world search)

end Metaf.PageRequests

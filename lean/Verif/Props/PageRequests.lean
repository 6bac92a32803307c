import Verif.Model.PageRequests
import Verif.Spec.Page
import Verif.Proofs.Page
import Verif.Ieee
import Verif.Props.PageOptions
import Mathlib.Tactic.Linarith

/-!
C136: what the page with the summaries (`/repo/examples/shellfiles/summary_shell.html`) shows while it waits for the
position of the visitor and for the data, in whatever order the answers come and whichever requests fail.
-/

set_option linter.unusedSectionVars false

namespace Metaf.Props

open Metaf Metaf.Spec Metaf.Page Metaf.PageOptions Metaf.PageRequests
open Metaf.ExplainPage (JsText)

variable [FloatSem] {N : Type} [DecidableEq N]

/-! ### Specification -/

/-- What happened to one of the requests, in order. -/
def answersOf (source : Source) (events : List (Moment × PageEvent)) : List (Moment × Answer) :=
  events.filterMap fun e =>
    match e.2 with
    | .answer s a => if s = source then some (e.1, a) else none
    | _ => none

/-- The request is still under way. -/
inductive UnderWay : List (Moment × Answer) → Prop
  | sent : UnderWay []
  | reading {m d} : UnderWay [(m, .response d)]

/-- The request has failed: no response, or a response without text. -/
inductive Failed : List (Moment × Answer) → Prop
  | noResponse {m} : Failed [(m, .noResponse)]
  | noBody {m n d} : Failed [(m, .response d), (n, .noBody)]

/-- The text and the date of the answer have come, at this moment. -/
inductive Came (moment : Moment) (date : Int) (text : Str) : List (Moment × Answer) → Prop
  | body {n} : Came moment date text [(moment, .response date), (n, .body text)]

/-- An event which tells the position, or that it is not known. -/
def _root_.Metaf.PageRequests.PageEvent.locates : PageEvent → Bool
  | .position _ _ => true
  | .noPosition => true
  | .answer _ _ => false

/-- The address of a request for data within a distance of a position. -/
def requestText (distance latitude longitude : JsText) : Source → JsText
  | .metars => js c!"https://cors-anywhere.herokuapp.com/https://www.aviationweather.gov/adds/dataserver_current/\
      httpparam?dataSource=metars&requestType=retrieve&format=xml&radialDistance=" ++ distance ++ js c!";" ++
      longitude ++ js c!"," ++ latitude ++ js c!"&hoursBeforeNow=3&mostRecentForEachStation=true"
  | .tafs => js c!"https://cors-anywhere.herokuapp.com/https://www.aviationweather.gov/adds/dataserver_current/\
      httpparam?dataSource=tafs&requestType=retrieve&format=xml&radialDistance=" ++ distance ++ js c!";" ++
      longitude ++ js c!"," ++ latitude ++ js c!"&hoursBeforeNow=24&mostRecentForEachStation=true"
  | .stations => js c!"https://cors-anywhere.herokuapp.com/https://www.aviationweather.gov/adds/dataserver_current/\
      httpparam?dataSource=stations&requestType=retrieve&format=xml&radialDistance=" ++ distance ++ js c!";" ++
      longitude ++ js c!"," ++ latitude ++ js c!"&fields=station_id,site"

/-! ### One request -/

/-- A request after all that happened to it. -/
def requestAfter (parse : Str → Document) (r : Request) (as : List (Moment × Answer)) : Request :=
  as.foldl (fun r a => r.step parse a.1 a.2) r

/-- The request is settled. -/
def IsSettled (r : Request) : Prop := ∃ x, r = .settled x

theorem settled_stays {parse : Str → Document} {x : Settled (Option (Document × Int))} :
    ∀ as, requestAfter parse (.settled x) as = .settled x
  | [] => rfl
  | _ :: as => settled_stays (parse := parse) as

theorem request_step_sound (parse : Str → Document) (m : Moment) {r : Request} (h : r ≠ .settled .rejected) (a : Answer) :
    r.step parse m a ≠ .settled .rejected := by
  cases r <;> cases a <;> first | exact h | nofun

theorem underWay_unsettled {parse : Str → Document} {as : List (Moment × Answer)} (h : UnderWay as) :
    ¬ IsSettled (requestAfter parse .sent as) := by
  rintro ⟨x, hx⟩
  cases h <;> cases hx

theorem failed_settled {parse : Str → Document} {as : List (Moment × Answer)} (h : Failed as) :
    requestAfter parse .sent as = .settled (.fulfilled none) := by
  cases h <;> rfl

theorem came_settled {parse : Str → Document} {m : Moment} {d : Int} {t : Str} {as : List (Moment × Answer)}
    (h : Came m d t as) :
    requestAfter parse .sent as = .settled (.fulfilled (some (parse t, getActualTimeOffset m.device d))) := by
  cases h; rfl

/-! ### All requests -/

/-- All requests after the events. -/
def requestsAfter (parse : Str → Document) (r : Requests) (es : List (Moment × PageEvent)) : Requests :=
  { r with of := fun s => requestAfter parse (r.of s) (answersOf s es) }

theorem answersOf_append (s : Source) (es fs : List (Moment × PageEvent)) :
    answersOf s (es ++ fs) = answersOf s es ++ answersOf s fs := List.filterMap_append

theorem answersOf_answer (s t : Source) (m : Moment) (a : Answer) (es : List (Moment × PageEvent)) :
    answersOf s ((m, .answer t a) :: es) = if t = s then (m, a) :: answersOf s es else answersOf s es := by
  unfold answersOf
  rw [List.filterMap_cons]
  dsimp only
  by_cases h : t = s <;> simp [h]

theorem answersOf_other (s : Source) {m : Moment} {e : PageEvent} (he : e.locates = true) (es : List (Moment × PageEvent)) :
    answersOf s ((m, e) :: es) = answersOf s es := by
  unfold answersOf
  rw [List.filterMap_cons]
  cases e <;> first | rfl | cases he

theorem requestAfter_append {parse : Str → Document} {r : Request} {as bs : List (Moment × Answer)} :
    requestAfter parse r (as ++ bs) = requestAfter parse (requestAfter parse r as) bs := List.foldl_append

/-- No request is rejected. -/
def NoneRejected (r : Requests) : Prop := ∀ s, r.of s ≠ .settled .rejected

theorem all_none {r : Requests} (h : NoneRejected r) {s : Source} (hs : ¬ IsSettled (r.of s)) : r.all = none := by
  have h1 := h .metars
  have h2 := h .tafs
  have h3 := h .stations
  unfold Requests.all
  generalize hm : r.of .metars = m at h1
  generalize ht : r.of .tafs = t at h2
  generalize hx : r.of .stations = x at h3
  have hs' : ¬ IsSettled m ∨ ¬ IsSettled t ∨ ¬ IsSettled x := by
    cases s
    · exact Or.inl (hm ▸ hs)
    · exact Or.inr (Or.inl (ht ▸ hs))
    · exact Or.inr (Or.inr (hx ▸ hs))
  split
  · exact absurd rfl h1
  · exact absurd rfl h2
  · exact absurd rfl h3
  · exfalso
    rcases hs' with h | h | h <;> exact h ⟨_, rfl⟩
  · rfl

theorem all_some {r : Requests} (h : NoneRejected r) {x} (ha : r.all = some x) :
    ∃ m t s, r.of .metars = .settled (.fulfilled m) ∧ r.of .tafs = .settled (.fulfilled t) ∧
      r.of .stations = .settled (.fulfilled s) ∧ x = .fulfilled (m, t, s) := by
  have h1 := h .metars
  have h2 := h .tafs
  have h3 := h .stations
  unfold Requests.all at ha
  generalize r.of .metars = m at h1 ha
  generalize r.of .tafs = t at h2 ha
  generalize r.of .stations = s at h3 ha
  split at ha
  · exact absurd rfl h1
  · exact absurd rfl h2
  · exact absurd rfl h3
  · exact ⟨_, _, _, rfl, rfl, rfl, (Option.some.inj ha).symm⟩
  · cases ha

theorem all_fulfilled {r : Requests} {m t s} (h1 : r.of .metars = .settled (.fulfilled m))
    (h2 : r.of .tafs = .settled (.fulfilled t)) (h3 : r.of .stations = .settled (.fulfilled s)) :
    r.all = some (.fulfilled (m, t, s)) := by
  unfold Requests.all
  rw [h1, h2, h3]

/-- The requests after one event to one of them. -/
def oneAnswer (parse : Str → Document) (r : Requests) (m : Moment) (t : Source) (a : Answer) : Requests :=
  { r with of := fun s => if s = t then (r.of s).step parse m a else r.of s }

theorem requestsAfter_answer (parse : Str → Document) (r : Requests) (m : Moment) (t : Source) (a : Answer)
    (es : List (Moment × PageEvent)) :
    requestsAfter parse r ((m, .answer t a) :: es) = requestsAfter parse (oneAnswer parse r m t a) es := by
  unfold requestsAfter oneAnswer
  congr 1
  funext s
  rw [answersOf_answer]
  dsimp only
  by_cases h : s = t
  · rw [if_pos h.symm, if_pos h]; rfl
  · rw [if_neg (fun e => h e.symm), if_neg h]

theorem requestsAfter_other (parse : Str → Document) (r : Requests) {m : Moment} {e : PageEvent}
    (he : e.locates = true) (es : List (Moment × PageEvent)) :
    requestsAfter parse r ((m, e) :: es) = requestsAfter parse r es := by
  unfold requestsAfter
  congr 1
  funext s
  rw [answersOf_other s he]

theorem oneAnswer_sound {parse : Str → Document} {r : Requests} (h : NoneRejected r) (m : Moment) (t : Source)
    (a : Answer) : NoneRejected (oneAnswer parse r m t a) := by
  intro s
  show (if s = t then _ else _) ≠ _
  split
  · exact request_step_sound parse m (h s) a
  · exact h s

/-! ### The page -/

theorem step_answer (world : World N) (search : JsText) {tab : Tab} {r : Requests} (hp : tab.phase = .waiting r)
    (m : Moment) (t : Source) (a : Answer) :
    tab.step world search (m, .answer t a) = match (oneAnswer world.parse r m t a).all with
      | none => { tab with phase := .waiting (oneAnswer world.parse r m t a) }
      | some data => { tab with
          page := finish world search m r.latitude r.longitude tab.page data, phase := .ended } := by
  unfold Tab.step
  rw [hp]
  rfl

theorem step_waiting_other (world : World N) (search : JsText) {tab : Tab} {r : Requests}
    (hp : tab.phase = .waiting r) {m : Moment} {e : PageEvent} (he : e.locates = true) :
    tab.step world search (m, e) = tab := by
  unfold Tab.step
  rw [hp]
  cases e <;> first | rfl | cases he

theorem step_locating_answer (world : World N) (search : JsText) {tab : Tab} (hp : tab.phase = .locating)
    {m : Moment} {e : PageEvent} (he : e.locates = false) : tab.step world search (m, e) = tab := by
  unfold Tab.step
  rw [hp]
  cases e <;> first | rfl | cases he

theorem ended_stays (world : World N) (search : JsText) : ∀ (es : List (Moment × PageEvent)) {tab : Tab},
    tab.phase = .ended → es.foldl (Tab.step world search) tab = tab
  | [], _, _ => rfl
  | e :: es, tab, hp => by
    rw [List.foldl_cons]
    have h : tab.step world search e = tab := by
      unfold Tab.step
      rw [hp]
    rw [h]
    exact ended_stays world search es hp

/-- While one of the requests is not settled the page stays as it is. -/
theorem fold_waiting (world : World N) (search : JsText) : ∀ (es : List (Moment × PageEvent)) {tab : Tab} {r : Requests},
    tab.phase = .waiting r → NoneRejected r → ∀ {s}, ¬ IsSettled ((requestsAfter world.parse r es).of s) →
    es.foldl (Tab.step world search) tab = { tab with phase := .waiting (requestsAfter world.parse r es) }
  | [], tab, r, hp, _, _, _ => by
    show tab = { tab with phase := .waiting r }
    rw [← hp]
  | (m, e) :: es, tab, r, hp, hr, s, hs => by
    rw [List.foldl_cons]
    cases e with
    | position a b =>
      rw [step_waiting_other world search hp rfl]
      rw [requestsAfter_other world.parse r rfl] at hs ⊢
      exact fold_waiting world search es hp hr hs
    | noPosition =>
      rw [step_waiting_other world search hp rfl]
      rw [requestsAfter_other world.parse r rfl] at hs ⊢
      exact fold_waiting world search es hp hr hs
    | answer t a =>
      rw [requestsAfter_answer] at hs ⊢
      have hn := oneAnswer_sound (parse := world.parse) hr m t a
      have hu : ¬ IsSettled ((oneAnswer world.parse r m t a).of s) := by
        rintro ⟨x, hx⟩
        refine hs ⟨x, ?_⟩
        show requestAfter world.parse ((oneAnswer world.parse r m t a).of s) _ = _
        rw [hx]
        exact settled_stays _
      rw [step_answer world search hp, all_none hn hu]
      exact fold_waiting world search es (tab := { tab with phase := .waiting (oneAnswer world.parse r m t a) }) rfl hn hs

/-- If one of the requests fails the page stays as it is. -/
theorem fold_failed (world : World N) (search : JsText) : ∀ (es : List (Moment × PageEvent)) {tab : Tab} {r : Requests},
    tab.phase = .waiting r → NoneRejected r →
    ∀ {s}, (requestsAfter world.parse r es).of s = .settled (.fulfilled none) →
    (es.foldl (Tab.step world search) tab).page = tab.page
  | [], _, _, _, _, _, _ => rfl
  | (m, e) :: es, tab, r, hp, hr, s, hs => by
    rw [List.foldl_cons]
    cases e with
    | position a b =>
      rw [step_waiting_other world search hp rfl]
      rw [requestsAfter_other world.parse r rfl] at hs
      exact fold_failed world search es hp hr hs
    | noPosition =>
      rw [step_waiting_other world search hp rfl]
      rw [requestsAfter_other world.parse r rfl] at hs
      exact fold_failed world search es hp hr hs
    | answer t a =>
      rw [requestsAfter_answer] at hs
      have hn := oneAnswer_sound (parse := world.parse) hr m t a
      rw [step_answer world search hp]
      cases hall : (oneAnswer world.parse r m t a).all with
      | none =>
        exact fold_failed world search es (tab := { tab with phase := .waiting (oneAnswer world.parse r m t a) })
          rfl hn hs
      | some data =>
        dsimp only
        rw [ended_stays world search es rfl]
        obtain ⟨x, y, z, hx, hy, hz, rfl⟩ := all_some hn hall
        have key : (oneAnswer world.parse r m t a).of s = .settled (.fulfilled none) := by
          change requestAfter world.parse ((oneAnswer world.parse r m t a).of s) _ = _ at hs
          cases s
          · rw [hx, settled_stays] at hs; rw [hx]; exact hs
          · rw [hy, settled_stays] at hs; rw [hy]; exact hs
          · rw [hz, settled_stays] at hs; rw [hz]; exact hs
        show process world search m r.latitude r.longitude tab.page (some (x, y, z)) = tab.page
        unfold process
        split
        · rename_i h
          obtain ⟨rfl, rfl, rfl⟩ : _ ∧ _ ∧ _ := by simpa using h
          cases s
          · rw [hx] at key; cases key
          · rw [hy] at key; cases key
          · rw [hz] at key; cases key
        · rfl

theorem fold_locating (world : World N) (search : JsText) : ∀ (es : List (Moment × PageEvent)) {tab : Tab},
    tab.phase = .locating → (∀ e ∈ es, e.2.locates = false) → es.foldl (Tab.step world search) tab = tab
  | [], _, _, _ => rfl
  | e :: es, tab, hp, he => by
    rw [List.foldl_cons, step_locating_answer world search hp (m := e.1) (he e List.mem_cons_self)]
    exact fold_locating world search es hp fun x hx => he x (List.mem_cons_of_mem _ hx)

theorem start_uses {world : World N} {search : JsText} {set : Setting N} (h : Uses world.num search set) :
    start world search = ⟨c!"Geolocating...", [], .locating⟩ := by
  obtain ⟨h1, h2⟩ := h
  unfold start updateOptions
  have h3 : optionsDistance world.num search = some set.distance := h1
  unfold dataImperial at h2
  rw [h3]
  cases hu : findGetParameter search (js c!"unit") with
  | none => rw [hu] at h2; cases h2
  | some u => rfl

/-- The page once the position is known. -/
def requestedTab (world : World N) (set : Setting N) (lat lon : Rat) : Tab :=
  { page := c!"Retreiving weather data..."
    requested := [Source.metars, .tafs, .stations].map fun s =>
      url s (world.num.text set.distance) (mathRound (lat * 100)) (mathRound (lon * 100))
    phase := .waiting ⟨mathRound (lat * 100), mathRound (lon * 100), fun _ => .sent⟩ }

theorem run_position {world : World N} {search : JsText} {set : Setting N} (h : Uses world.num search set)
    {before : List (Moment × PageEvent)} (hb : ∀ e ∈ before, e.2.locates = false) (m : Moment) (lat lon : Rat)
    (es : List (Moment × PageEvent)) :
    run world search (before ++ (m, .position lat lon) :: es) =
      es.foldl (Tab.step world search) (requestedTab world set lat lon) := by
  unfold run
  rw [List.foldl_append, start_uses h, fold_locating world search before rfl hb, List.foldl_cons]
  congr 1
  unfold Tab.step requestedTab
  dsimp only
  rw [h.1]
  rfl

theorem sent_sound {a b : Int} : NoneRejected ⟨a, b, fun _ => .sent⟩ := fun _ => nofun

/-! ### The message which is never shown -/

theorem messages_first (caption : Str) (errors : List (List (Option Str))) :
    displayErrors caption errors = [] ∨ (displayErrors caption errors).head? = some '<' := by
  unfold displayErrors
  dsimp only
  split
  · exact Or.inl rfl
  · exact Or.inr rfl

theorem head_after {a b : Str} (ha : a = [] ∨ a.head? = some '<') (hb : b.head? = some '<') :
    (a ++ b).head? = some '<' := by
  rcases ha with rfl | ha
  · exact hb
  · rw [List.head?_append, ha]; rfl

theorem weather_first (device : Device) (today : Int × Int × Int) (distance : Distances) (imperial : Bool)
    (offset : Int) (answers : Answers) :
    (showWeather device today distance imperial offset answers).1.head? = some '<' := by
  unfold showWeather
  dsimp only
  simp only [List.append_assoc]
  refine head_after (messages_first _ _) (head_after (messages_first _ _) (head_after (messages_first _ _) ?_))
  rfl

/-- The message that data cannot be retrieved. -/
def unableText : Str := c!"Unable to retreive weather data"

theorem process_text {world : World N} {search : JsText} {m : Moment} {a b : Int} {page : Str} {d}
    (hp : page ≠ unableText) : process world search m a b page (some d) ≠ unableText := by
  unfold process
  split
  · split
    · decide
    · intro e
      have h := congrArg List.head? e
      rw [weather_first] at h
      exact absurd h (by decide)
  · exact hp

/-- The page does not show the message, and no request is rejected. -/
def NotUnable (tab : Tab) : Prop := tab.page ≠ unableText ∧ ∀ r, tab.phase = .waiting r → NoneRejected r

theorem step_notUnable (world : World N) (search : JsText) {tab : Tab} (h : NotUnable tab) (e : Moment × PageEvent) :
    NotUnable (tab.step world search e) := by
  obtain ⟨m, e⟩ := e
  cases hp : tab.phase with
  | ended =>
    have : tab.step world search (m, e) = tab := by unfold Tab.step; rw [hp]
    rw [this]; exact h
  | locating =>
    cases e with
    | answer s a => rw [step_locating_answer world search hp rfl]; exact h
    | noPosition =>
      unfold Tab.step
      rw [hp]
      exact ⟨by dsimp only; decide, nofun⟩
    | position a b =>
      unfold Tab.step
      rw [hp]
      dsimp only
      split
      · exact ⟨h.1, nofun⟩
      · refine ⟨by dsimp only; decide, ?_⟩
        rintro r ⟨⟩
        exact sent_sound
  | waiting r =>
    cases e with
    | position a b => rw [step_waiting_other world search hp rfl]; exact h
    | noPosition => rw [step_waiting_other world search hp rfl]; exact h
    | answer s a =>
      have hn := oneAnswer_sound (parse := world.parse) (h.2 r hp) m s a
      rw [step_answer world search hp]
      cases ha : (oneAnswer world.parse r m s a).all with
      | none =>
        refine ⟨h.1, ?_⟩
        rintro r ⟨⟩
        exact hn
      | some x =>
        obtain ⟨_, _, _, -, -, -, rfl⟩ := all_some hn ha
        exact ⟨process_text h.1, nofun⟩

theorem fold_notUnable (world : World N) (search : JsText) : ∀ (es : List (Moment × PageEvent)) {tab : Tab},
    NotUnable tab → NotUnable (es.foldl (Tab.step world search) tab)
  | [], _, h => h
  | e :: es, _, h => fold_notUnable world search es (step_notUnable world search h e)

/-! ### What is requested -/

theorem step_requested (world : World N) (search : JsText) {tab : Tab} (h : tab.phase ≠ .locating)
    (e : Moment × PageEvent) :
    (tab.step world search e).phase ≠ .locating ∧ (tab.step world search e).requested = tab.requested := by
  obtain ⟨m, e⟩ := e
  cases hp : tab.phase with
  | ended =>
    have : tab.step world search (m, e) = tab := by unfold Tab.step; rw [hp]
    rw [this]; exact ⟨h, rfl⟩
  | locating => exact absurd hp h
  | waiting r =>
    cases e with
    | position a b => rw [step_waiting_other world search hp rfl]; exact ⟨h, rfl⟩
    | noPosition => rw [step_waiting_other world search hp rfl]; exact ⟨h, rfl⟩
    | answer s a =>
      rw [step_answer world search hp]
      split <;> exact ⟨nofun, rfl⟩

theorem fold_requested (world : World N) (search : JsText) : ∀ (es : List (Moment × PageEvent)) {tab : Tab},
    tab.phase ≠ .locating → (es.foldl (Tab.step world search) tab).requested = tab.requested
  | [], _, _ => rfl
  | e :: es, _, h => by
    obtain ⟨h1, h2⟩ := step_requested world search h e
    rw [List.foldl_cons, fold_requested world search es h1, h2]

theorem mathRound_near (q : Rat) : |(mathRound (q * 100) : Rat) / 100 - q| ≤ 1 / 200 := by
  unfold mathRound
  have h1 := Int.floor_le (q * 100 + 1 / 2)
  have h2 := Int.lt_floor_add_one (q * 100 + 1 / 2)
  have e : (q * 100 + 1 / 2).floor = ⌊q * 100 + 1 / 2⌋ := rfl
  rw [e, abs_le]
  constructor <;> linarith

theorem js_append (a b : Str) : js (a ++ b) = js a ++ js b := List.map_append

/-! ### C136 -/

/-- C136. While the position is not known the page says so, and nothing is requested. -/
theorem C136_locating {world : World N} {search : JsText} {set : Setting N} (h : Uses world.num search set)
    {es : List (Moment × PageEvent)} (he : ∀ e ∈ es, e.2.locates = false) :
    (run world search es).page = c!"Geolocating..." ∧ (run world search es).requested = [] := by
  unfold run
  rw [start_uses h, fold_locating world search es rfl he]
  exact ⟨rfl, rfl⟩

/-- C136, the part for the position: if it cannot be found the page says so, whatever comes after it, and nothing is
requested. What is missing: the same for the data. -/
theorem C136_no_position_partial {world : World N} {search : JsText} {set : Setting N} (h : Uses world.num search set)
    {before : List (Moment × PageEvent)} (hb : ∀ e ∈ before, e.2.locates = false) (m : Moment)
    (es : List (Moment × PageEvent)) :
    (run world search (before ++ (m, .noPosition) :: es)).page = c!"Unable to acquire position" ∧
      (run world search (before ++ (m, .noPosition) :: es)).requested = [] := by
  unfold run
  rw [List.foldl_append, start_uses h, fold_locating world search before rfl hb, List.foldl_cons]
  rw [ended_stays world search es rfl]
  exact ⟨rfl, rfl⟩

/-- C136. While one of the requests is under way the page says so, whatever the order of the other answers. -/
theorem C136_waiting {world : World N} {search : JsText} {set : Setting N} (h : Uses world.num search set)
    {before : List (Moment × PageEvent)} (hb : ∀ e ∈ before, e.2.locates = false) (m : Moment) (lat lon : Rat)
    {es : List (Moment × PageEvent)} {s : Source} (hs : UnderWay (answersOf s es)) :
    (run world search (before ++ (m, .position lat lon) :: es)).page = c!"Retreiving weather data..." := by
  rw [run_position h hb, fold_waiting world search es rfl sent_sound (s := s) (underWay_unsettled hs)]
  rfl

/-- C136. When all answers have come, in whatever order, the page shows the data of these answers for the position and
in the units chosen, by the clock at the moment of the last of them; what happens later does not matter. -/
theorem C136_data {world : World N} {search : JsText} {set : Setting N} (h : Uses world.num search set)
    {before : List (Moment × PageEvent)} (hb : ∀ e ∈ before, e.2.locates = false) (m : Moment) (lat lon : Rat)
    {es : List (Moment × PageEvent)} {now : Moment} {s : Source} {a : Answer} {date : Source → Int}
    {text : Source → Str} {moments : Source → Moment} (later : List (Moment × PageEvent))
    (hc : ∀ x, Came (moments x) (date x) (text x) (answersOf x (es ++ [(now, .answer s a)]))) :
    (run world search (before ++ (m, .position lat lon) :: (es ++ (now, .answer s a) :: later))).page =
      (showWeather now.device now.today (world.distances (mathRound (lat * 100)) (mathRound (lon * 100)))
        set.imperial (getActualTimeOffset (moments .metars).device (date .metars))
        { metars := (world.parse (text .metars)).elements c!"METAR"
          tafs := (world.parse (text .tafs)).elements c!"TAF"
          stations := (world.parse (text .stations)).elements c!"Station"
          metarErrors := (world.parse (text .metars)).errors
          tafErrors := (world.parse (text .tafs)).errors
          stationErrors := (world.parse (text .stations)).errors }).1 := by
  rw [run_position h hb, List.foldl_append]
  have hu : UnderWay (answersOf s es) := by
    have hs := hc s
    rw [answersOf_append, answersOf_answer, if_pos rfl] at hs
    generalize answersOf s es = l at hs
    change Came _ _ _ (l ++ [(now, a)]) at hs
    generalize hl : l ++ [(now, a)] = k at hs
    cases hs with
    | body =>
      rcases l with _ | ⟨x, _ | ⟨y, l⟩⟩
      · cases hl
      · obtain ⟨rfl, -⟩ : x = _ ∧ _ := by simpa using hl
        exact .reading
      · simp at hl
  rw [fold_waiting world search es rfl sent_sound (s := s) (underWay_unsettled hu), List.foldl_cons,
    step_answer world search rfl]
  generalize hr : requestsAfter world.parse ⟨mathRound (lat * 100), mathRound (lon * 100), fun _ => .sent⟩ es = r
  have hof : ∀ x, (oneAnswer world.parse r now s a).of x =
      .settled (.fulfilled (some (world.parse (text x), getActualTimeOffset (moments x).device (date x)))) := by
    intro x
    have e := came_settled (parse := world.parse) (hc x)
    rw [answersOf_append, requestAfter_append, answersOf_answer] at e
    rw [← e, ← hr]
    unfold oneAnswer requestsAfter
    dsimp only
    by_cases hx : x = s
    · rw [if_pos hx, if_pos hx.symm]; rfl
    · rw [if_neg hx, if_neg fun e => hx e.symm]; rfl
  rw [all_fulfilled (hof .metars) (hof .tafs) (hof .stations)]
  dsimp only
  rw [ended_stays world search later rfl]
  have hl : r.latitude = mathRound (lat * 100) ∧ r.longitude = mathRound (lon * 100) := by rw [← hr]; exact ⟨rfl, rfl⟩
  rw [hl.1, hl.2]
  dsimp only [finish, process]
  rw [h.2]

/-- What can happen to a request: it is under way, it has failed, or the answer has come. -/
def Proper (as : List (Moment × Answer)) : Prop := UnderWay as ∨ Failed as ∨ ∃ m d t, Came m d t as

/-- C136. If one of the requests fails the page goes on saying that data are being retrieved, whatever comes after it. -/
theorem C136_failed {world : World N} {search : JsText} {set : Setting N} (h : Uses world.num search set)
    {before : List (Moment × PageEvent)} (hb : ∀ e ∈ before, e.2.locates = false) (m : Moment) (lat lon : Rat)
    {es : List (Moment × PageEvent)} {s : Source} (hs : Failed (answersOf s es)) (later : List (Moment × PageEvent)) :
    (run world search (before ++ (m, .position lat lon) :: (es ++ later))).page = c!"Retreiving weather data..." := by
  rw [run_position h hb]
  have hf : (requestsAfter world.parse ⟨mathRound (lat * 100), mathRound (lon * 100), fun _ => .sent⟩
      (es ++ later)).of s = .settled (.fulfilled none) := by
    show requestAfter world.parse .sent (answersOf s (es ++ later)) = _
    rw [answersOf_append, requestAfter_append, failed_settled hs, settled_stays]
  rw [fold_failed world search _ rfl sent_sound hf]
  rfl

/-- C136. Once the position is known the three kinds of data are requested, each of them once, for the distance chosen and
for a position within half a hundredth of a degree of it. -/
theorem C136_requests {world : World N} {search : JsText} {set : Setting N} (h : Uses world.num search set)
    {before : List (Moment × PageEvent)} (hb : ∀ e ∈ before, e.2.locates = false) (m : Moment) (lat lon : Rat)
    (es : List (Moment × PageEvent)) :
    ∃ a b : Int, |(a : Rat) / 100 - lat| ≤ 1 / 200 ∧ |(b : Rat) / 100 - lon| ≤ 1 / 200 ∧
      (run world search (before ++ (m, .position lat lon) :: es)).requested =
        [Source.metars, .tafs, .stations].map
          (requestText (world.num.text set.distance) (js (shortDecimal a 2)) (js (shortDecimal b 2))) := by
  refine ⟨mathRound (lat * 100), mathRound (lon * 100), mathRound_near lat, mathRound_near lon, ?_⟩
  rw [run_position h hb, fold_requested world search es (by unfold requestedTab; nofun)]
  unfold requestedTab
  dsimp only
  refine List.map_congr_left fun s _ => ?_
  unfold url
  rw [showQuotient_text, showQuotient_text]
  generalize js (shortDecimal _ 2) = x
  generalize js (shortDecimal _ 2) = y
  generalize world.num.text set.distance = z
  cases s <;> (unfold requestText; simp only [List.append_assoc]; rfl)

/-- C136. If units or distance in the address cannot be decoded the page stays as it was written, and nothing is
requested. -/
theorem C136_unreadable {world : World N} {search : JsText} (h : updateOptions world.num search = none)
    (es : List (Moment × PageEvent)) :
    (run world search es).page = c!"Preparing..." ∧ (run world search es).requested = [] := by
  unfold run start
  rw [h]
  rw [ended_stays world search es rfl]
  exact ⟨rfl, rfl⟩

/-- C136 does not hold: there is a message for data which cannot be retrieved, but it is never shown, whatever
happens. -/
theorem C136_violated (world : World N) (search : JsText) (es : List (Moment × PageEvent)) :
    (run world search es).page ≠ c!"Unable to retreive weather data" := by
  refine (fold_notUnable world search es ?_).1
  unfold start
  split
  · exact ⟨by dsimp only; decide, nofun⟩
  · exact ⟨by dsimp only; decide, nofun⟩

/-- C136. The order of the answers does not matter: if the same happened to each request, and the last of it at the same
moment, the page shows the same. -/
theorem C136_order {world : World N} {search : JsText} {set : Setting N} (h : Uses world.num search set)
    {before before' : List (Moment × PageEvent)} (hb : ∀ e ∈ before, e.2.locates = false)
    (hb' : ∀ e ∈ before', e.2.locates = false) (m m' : Moment) (lat lon : Rat) {es es' : List (Moment × PageEvent)}
    {now : Moment} {s s' : Source} {a a' : Answer}
    (he : ∀ x, answersOf x (es ++ [(now, .answer s a)]) = answersOf x (es' ++ [(now, .answer s' a')]))
    (hp : ∀ x, Proper (answersOf x (es ++ [(now, .answer s a)]))) :
    (run world search (before ++ (m, .position lat lon) :: (es ++ [(now, .answer s a)]))).page =
      (run world search (before' ++ (m', .position lat lon) :: (es' ++ [(now, .answer s' a')]))).page := by
  by_cases hu : ∃ x, UnderWay (answersOf x (es ++ [(now, .answer s a)]))
  · obtain ⟨x, hx⟩ := hu
    rw [C136_waiting h hb m lat lon hx, C136_waiting h hb' m' lat lon (he x ▸ hx)]
  · by_cases hf : ∃ x, Failed (answersOf x (es ++ [(now, .answer s a)]))
    · obtain ⟨x, hx⟩ := hf
      have h1 := C136_failed h hb m lat lon hx []
      have h2 := C136_failed h hb' m' lat lon (he x ▸ hx) []
      rw [List.append_nil] at h1 h2
      rw [h1, h2]
    · have hc : ∀ x, ∃ m d t, Came m d t (answersOf x (es ++ [(now, .answer s a)])) := fun x =>
        (hp x).resolve_left (fun h => hu ⟨x, h⟩) |>.resolve_left fun h => hf ⟨x, h⟩
      choose moments date text hc using hc
      rw [C136_data h hb m lat lon [] hc, C136_data h hb' m' lat lon [] fun x => he x ▸ hc x]

end Metaf.Props

namespace Metaf.Props

open Metaf Metaf.Spec Metaf.Page Metaf.PageOptions Metaf.PageRequests
open Metaf.ExplainPage (JsText)

/-! ### Cases -/

attribute [local instance] ieee

/-- Data without stations, whatever the text. -/
def emptyWorld : World (Fin 1000) := ⟨decimals, fun _ => ⟨fun _ => [], []⟩, fun _ _ _ _ => none⟩

def exampleMoment : Moment := ⟨⟨0, 0⟩, (2020, 1, 1)⟩

/-- Answers in some order; the last is the answer for the reports. -/
def exampleEvents (last : Answer) : List (Moment × PageEvent) :=
  [.position (48 + 3 / 1000) (-(12 + 1 / 3)), .answer .stations (.response 5), .answer .metars (.response 7),
    .answer .stations (.body c!"a"), .answer .tafs (.response 9), .answer .tafs (.body c!"b"),
    .answer .metars last].map fun e => (exampleMoment, e)

example : Uses decimals (js c!"?distance=75") { imperial := false, distance := 75 } := by
  unfold Uses
  decide +kernel

/-- All answers have come; one has failed; one is under way. -/
example :
    (run emptyWorld (js c!"?distance=75") (exampleEvents (.body c!"c"))).page =
      c!"<div class=\"weatherdataitem\">No aerodromes within selected range</div>" ∧
    (run emptyWorld (js c!"?distance=75") (exampleEvents .noBody)).page = c!"Retreiving weather data..." ∧
    (run emptyWorld (js c!"?distance=75") ((exampleEvents .noBody).take 6)).page = c!"Retreiving weather data..." := by
  refine ⟨?_, ?_, ?_⟩ <;> decide +kernel

/-- The addresses requested. -/
example : (run emptyWorld (js c!"?distance=75") (exampleEvents .noBody)).requested =
    [Source.metars, .tafs, .stations].map (requestText (js c!"75") (js c!"48") (js c!"-12.33")) := by decide +kernel

end Metaf.Props

import Verif.Props.PageStations

/-!
C130: the whole page with the summaries.
-/

set_option linter.unusedSectionVars false

namespace Metaf.Props

open Metaf Metaf.Spec Metaf.Summary Metaf.Page

variable [FloatIeee]

/-! ### Above the stations -/

theorem count_text (n : Nat) : displayAerodromeCount n = aerodromeCount n := by
  unfold displayAerodromeCount aerodromeCount
  rcases n with _ | _ | n
  · rfl
  · rfl
  · rw [if_pos (by omega), if_neg (by omega), if_neg (by omega), if_neg (by omega), showInt_text]
    simp only [List.append_assoc]
    rfl

theorem messages_text (errors : List (List (Option Str))) : errors.flatten.filterMap id = messages errors := by
  unfold messages
  have h : ∀ l : List (Option Str), l.filterMap id = l.flatMap Option.toList := by
    intro l
    induction l with
    | nil => rfl
    | cons a l ih =>
      cases a with
      | none => exact ih
      | some v => exact congrArg (v :: ·) ih
  induction errors with
  | nil => rfl
  | cons e es ih => rw [List.flatten_cons, List.filterMap_append, ih, h, List.flatMap_cons]

theorem page_error_text (caption : Str) (errors : List (List (Option Str))) :
    displayErrors caption errors = errorItem caption errors := by
  unfold displayErrors errorItem
  simp only [messages_text]
  split
  · rfl
  · rw [List.flatMap_def]
    simp only [List.append_assoc]
    rfl

/-! ### A station -/

theorem distance_near (q : Rat) : |(mathRound q : Rat) - q| ≤ 1 / 2 := by
  unfold mathRound
  have h1 := Rat.floor_le (q + 1 / 2)
  have h2 := Rat.lt_floor_add_one (q + 1 / 2)
  push_cast at h2
  rw [abs_le]
  constructor <;> linarith

theorem distance_note (d : Option Rat) (imperial : Bool) : DistanceNote d imperial (distanceText d imperial) := by
  unfold DistanceNote distanceText
  cases d with
  | none => cases imperial <;> rfl
  | some q =>
    cases imperial with
    | true =>
      refine ⟨_, distance_near _, ?_⟩
      simp only [if_pos, Option.map_some, showInt_text, List.append_assoc]
    | false =>
      refine ⟨_, distance_near _, ?_⟩
      simp only [Bool.false_eq_true, ↓reduceIte, showInt_text, List.append_assoc]

theorem widget_is (r : CurrentWeather) (imperial : Bool) :
    ∃ text, makeWeatherWidget (adapted r) imperial = .ok text ∧ IsWidget r imperial text := by
  obtain ⟨t1, i, h1, h2, h3⟩ := C128_icon r imperial
  obtain ⟨t3, h5, h6⟩ := C128_arrow r imperial
  refine ⟨t1, h1, ⟨i, h2, h3⟩, ?_, ?_⟩
  · intro hp hv
    obtain ⟨t2, h7, h8⟩ := C128_fields_partial r imperial hp hv
    rw [h1] at h7
    rw [Except.ok.inj h7]
    exact h8
  · rw [h1] at h5
    rw [Except.ok.inj h5]
    exact h6

theorem item_is (device : Device) (offset : Int) {metar taf : Str} {y m d : Int} {imperial : Bool}
    {r : CurrentWeather} (h : getCurrentWeather metar taf y m d imperial = .ok r) (s : Station) :
    ∃ item, displayWeatherData device s.name s.distKm (adapted r) imperial offset = .ok item ∧
      IsItem s r imperial item := by
  obtain ⟨widget, hw, hi⟩ := widget_is r imperial
  obtain ⟨words, lines, ht, hp, hl⟩ := C123_lines h device offset
  refine ⟨_, ?_, _, widget, words, lines, distance_note s.distKm imperial, hi, hp, hl, rfl⟩
  unfold displayWeatherData
  rw [hw, ht, except_bind_ok, except_bind_ok]
  refine congrArg Except.ok ?_
  rcases s.name with _ | _ | ⟨c, n⟩ <;>
  · simp only [List.append_assoc]
    rfl

/-! ### All stations -/

/-- The texts of a station, if it has both. -/
def textsOf (s : Station) : Option (Str × Str) := s.metar.bind fun m => s.taf.map (m, ·)

theorem item_ok (h1 : PowTen) (h2 : PowSmall) (device : Device) (today : Int × Int × Int) (imperial : Bool)
    (offset : Int) (s : Station) :
    match textsOf s with
    | none => stationItem device today imperial offset s = .error .bindingError
    | some (metar, taf) => ∃ r item, getCurrentWeather metar taf today.1 today.2.1 today.2.2 imperial = .ok r ∧
        stationItem device today imperial offset s = .ok item ∧ IsItem s r imperial item := by
  unfold textsOf stationItem
  cases hm : s.metar with
  | none => rfl
  | some metar =>
    cases ht : s.taf with
    | none => rfl
    | some taf =>
      obtain ⟨r, hr⟩ := C92_total h1 h2 metar taf today.1 today.2.1 today.2.2 imperial
      obtain ⟨item, hi, his⟩ := item_is device offset hr s
      refine ⟨r, item, hr, ?_, his⟩
      show (call (getCurrentWeather metar taf today.1 today.2.1 today.2.2 imperial) >>= _ : Js Str) = _
      rw [hr]
      exact hi

theorem items_shown (h1 : PowTen) (h2 : PowSmall) (device : Device) (today : Int × Int × Int) (imperial : Bool)
    (offset : Int) (m : Stations) : ∃ items : List Str,
    (stationItems device today imperial offset m).1 = items.flatten ∧
    ((stationItems device today imperial offset m).2 = none ↔ items.length = m.length) ∧
    (∀ e, m[items.length]? = some e → textsOf e.2 = none) ∧
    List.Forall₂ (fun (e : Option Str × Station) item => ∃ metar taf r, textsOf e.2 = some (metar, taf) ∧
      getCurrentWeather metar taf today.1 today.2.1 today.2.2 imperial = .ok r ∧ IsItem e.2 r imperial item)
      (m.take items.length) items := by
  induction m with
  | nil => exact ⟨[], rfl, ⟨fun _ => rfl, fun _ => rfl⟩, nofun, List.Forall₂.nil⟩
  | cons e es ih =>
    have hi := item_ok h1 h2 device today imperial offset e.2
    cases ht : textsOf e.2 with
    | none =>
      rw [ht] at hi
      refine ⟨[], ?_, ?_, ?_, List.Forall₂.nil⟩
      · unfold stationItems; rw [hi]; rfl
      · unfold stationItems; rw [hi]
        exact ⟨nofun, nofun⟩
      · intro e' he'
        obtain rfl := Option.some.inj he'
        exact ht
    | some p =>
      obtain ⟨metar, taf⟩ := p
      rw [ht] at hi
      obtain ⟨r, item, hr, hs, his⟩ := hi
      obtain ⟨items, i1, i2, i3, i4⟩ := ih
      refine ⟨item :: items, ?_, ?_, ?_, ?_⟩
      · unfold stationItems; rw [hs]
        show item ++ _ = _
        rw [i1]; rfl
      · unfold stationItems; rw [hs]
        show (stationItems device today imperial offset es).2 = none ↔ items.length + 1 = es.length + 1
        rw [i2]; omega
      · exact i3
      · exact List.Forall₂.cons ⟨metar, taf, r, ht, hr, his⟩ i4

theorem hasTexts_iff {metars tafs stations : List Page.Element} {distance : Distances} {id : Option Str} {s : Station}
    (h : StationData metars tafs stations distance id s) : HasTexts metars tafs id ↔ textsOf s ≠ none := by
  unfold HasTexts textsOf
  rw [h.metar, h.taf]
  cases (about id metars).getLast? with
  | none =>
    cases (about id tafs).getLast? with
    | none => simp
    | some f => cases hf : childText c!"raw_text" f <;> simp [hf]
  | some e =>
    cases (about id tafs).getLast? with
    | none => cases he : childText c!"raw_text" e <;> simp [he]
    | some f => cases he : childText c!"raw_text" e <;> cases hf : childText c!"raw_text" f <;> simp [he, hf]

/-- What the page shows for a station of the data received: the item with the summary of its last METAR and TAF. -/
def ItemFor (answers : Answers) (distance : Distances) (today : Int × Int × Int) (imperial : Bool) (id : Option Str)
    (item : Str) : Prop :=
  ∃ s metar taf r, StationData answers.metars answers.tafs answers.stations distance id s ∧ s.metar = some metar ∧
    s.taf = some taf ∧ getCurrentWeather metar taf today.1 today.2.1 today.2.2 imperial = .ok r ∧
    IsItem s r imperial item

/-- C130: above the stations the page shows the errors and the number of stations. Then it shows the stations in the order
in which they first occur, each once, up to the first one whose last METAR or TAF has no text. -/
theorem C130_shown (h1 : PowTen) (h2 : PowSmall) (device : Device) (today : Int × Int × Int) (distance : Distances)
    (imperial : Bool) (offset : Int) (answers : Answers) : ∃ ids items,
    FirstOrder (answers.metars.map stationOf ++ answers.tafs.map stationOf) ids ∧
    (showWeather device today distance imperial offset answers).1 = pageHead answers ids.length ++ items.flatten ∧
    List.Forall₂ (ItemFor answers distance today imperial) (ids.take items.length) items ∧
    (∀ id, ids[items.length]? = some id → ¬HasTexts answers.metars answers.tafs id) ∧
    ((showWeather device today distance imperial offset answers).2 = none ↔ items.length = ids.length) := by
  have hd := fun id s => @C129_data distance answers.metars answers.tafs answers.stations id s
  have ho := C129_order distance answers.metars answers.tafs answers.stations
  unfold showWeather
  simp only [count_text, page_error_text]
  generalize addStationNames answers.stations (AWCdataToMap distance answers.metars answers.tafs) = m at hd ho ⊢
  obtain ⟨items, i1, i2, i3, i4⟩ := items_shown h1 h2 device today imperial offset m
  refine ⟨m.map Prod.fst, items, ho, ?_, ?_, ?_, ?_⟩
  · rw [i1, List.length_map]
    rfl
  · rw [← List.map_take, List.forall₂_map_left_iff]
    have hsub : ∀ e ∈ m.take items.length, e ∈ m := fun e he => List.mem_of_mem_take he
    generalize m.take items.length = l at i4 hsub
    clear i1 i2 i3
    induction i4 with
    | nil => exact List.Forall₂.nil
    | cons h _ ih =>
      obtain ⟨metar, taf, r, ht, hr, his⟩ := h
      refine List.Forall₂.cons ?_ (ih fun e he => hsub e (List.mem_cons_of_mem _ he))
      rename_i e _ _ _ _
      have hdata := hd e.1 e.2 (hsub e (List.mem_cons_self ..))
      unfold textsOf at ht
      obtain ⟨m', hm', ht'⟩ := Option.bind_eq_some_iff.mp ht
      obtain ⟨t', ht1, ht2⟩ := Option.map_eq_some_iff.mp ht'
      obtain ⟨rfl, rfl⟩ := Prod.mk.inj ht2
      exact ⟨e.2, _, _, r, hdata, hm', ht1, hr, his⟩
  · intro id hid
    rw [List.getElem?_map] at hid
    obtain ⟨e, he, rfl⟩ := Option.map_eq_some_iff.mp hid
    rw [hasTexts_iff (hd e.1 e.2 (List.mem_of_getElem? he)), i3 e he]
    exact fun h => h rfl
  · rw [List.length_map]
    exact i2

/-- C130: if all reports received have a text, all stations are shown. (Missing: a report without text, which hides its
station and all those behind it, see `C130_violated`.) -/
theorem C130_all_partial (h1 : PowTen) (h2 : PowSmall) (device : Device) (today : Int × Int × Int)
    (distance : Distances) (imperial : Bool) (offset : Int) (answers : Answers)
    (ht : ∀ e ∈ answers.metars ++ answers.tafs, childText c!"raw_text" e ≠ none) : ∃ ids items,
    FirstOrder (answers.metars.map stationOf ++ answers.tafs.map stationOf) ids ∧
    showWeather device today distance imperial offset answers =
      (pageHead answers ids.length ++ items.flatten, none) ∧
    List.Forall₂ (ItemFor answers distance today imperial) ids items := by
  obtain ⟨ids, items, h3, h4, h5, h6, h7⟩ := C130_shown h1 h2 device today distance imperial offset answers
  have hlen : ids.length ≤ items.length := by
    by_contra hlt
    have hlt' : items.length < ids.length := by omega
    refine h6 _ (List.getElem?_eq_getElem hlt') ⟨?_, ?_⟩
    · intro e he
      have := List.mem_of_getLast? he
      exact ht e (List.mem_append_left _ (List.mem_filter.mp this).1)
    · intro e he
      have := List.mem_of_getLast? he
      exact ht e (List.mem_append_right _ (List.mem_filter.mp this).1)
  rw [List.take_of_length_le hlen] at h5
  exact ⟨ids, items, h3, Prod.ext h4 (h7.mpr h5.length_eq.symm), h5⟩

end Metaf.Props

namespace Metaf.Props

open Metaf Metaf.Spec Metaf.Summary Metaf.Page

attribute [local instance] ieee

/-- Two stations with a report each, as `C130_all_partial` asks. -/
def exampleAnswers : Answers where
  metars := [[(c!"raw_text", c!"METAR EGLL 011150Z 24005KT CAVOK 12/05 Q1013="), (c!"station_id", c!"EGLL")]]
  tafs := [[(c!"raw_text", c!"TAF EGSS 011100Z 0112/0212 24005KT CAVOK="), (c!"station_id", c!"EGSS")]]
  stations := [[(c!"station_id", c!"EGLL"), (c!"site", c!"HEATHROW")]]

example : (∀ e ∈ exampleAnswers.metars ++ exampleAnswers.tafs, childText c!"raw_text" e ≠ none) ∧
    (showWeather exampleDevice (2020, 1, 1) (fun _ _ => some (7 / 2)) false 0 exampleAnswers).2 = none ∧
    (aerodromeCount 2 ++ c!"<div class=\"weatherdataitem\"><div class=\"weatherstation\">HEATHROW (4 km away)</div>") <+:
      (showWeather exampleDevice (2020, 1, 1) (fun _ _ => some (7 / 2)) false 0 exampleAnswers).1 := by decide +kernel

/-- C130: a METAR without text hides all stations behind it, although they are counted. A station which is listed without
a site is called `undefined`. -/
theorem C130_violated :
    (∃ answers : Answers, FirstOrder (answers.metars.map stationOf ++ answers.tafs.map stationOf)
        [some c!"EGLL", some c!"EGSS"] ∧ HasTexts answers.metars answers.tafs (some c!"EGSS") ∧
      showWeather exampleDevice (2020, 1, 1) (fun _ _ => some 5) false 0 answers =
        (pageHead answers 2, some .bindingError)) ∧
    (∃ answers : Answers, (c!"<div class=\"weatherstation\">undefined (5 km away)</div>") <:+:
      (showWeather exampleDevice (2020, 1, 1) (fun _ _ => some 5) false 0 answers).1) := by
  refine ⟨⟨{ exampleAnswers with metars := [[(c!"station_id", c!"EGLL")]] }, ?_, ?_, ?_⟩,
    { exampleAnswers with stations := [[(c!"station_id", c!"EGLL")]] }, ?_⟩
  · refine ⟨by decide +kernel, fun k => ?_⟩
    have e : exampleAnswers.tafs.map stationOf = [some c!"EGSS"] := by decide +kernel
    have e' : [[(c!"station_id", c!"EGLL")]].map stationOf = [some c!"EGLL"] := by decide +kernel
    simp only [e, e']
    rfl
  · refine ⟨?_, ?_⟩
    · intro f hf
      exact nomatch hf
    · intro f hf
      obtain rfl := Option.some.inj hf
      decide +kernel
  · decide +kernel
  · decide +kernel

end Metaf.Props

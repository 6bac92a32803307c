import Verif.Proofs.Page
import Verif.Props.SummaryTotal
import Verif.Props.SummaryCodes
import Verif.Props.SummaryMembers
import Verif.Ieee

/-!
C123 and C124: what the page with the summaries says on a station.
-/

set_option linter.unusedSectionVars false

namespace Metaf.Props

open Metaf Metaf.Spec Metaf.Summary Metaf.Page

variable [FloatIeee]

/-! ### The weather of a summary -/

theorem codes_small (gs : List WeatherGroup) :
    ∀ n ∈ gs.flatMap (fun w => w.weatherPhenomena.flatMap fun p =>
      phenomenonCodes p.qualifier p.descriptor p.weather), n < 74 := by
  have hc : ∀ c : Code, c.num < 74 := by intro c; cases c <;> decide
  intro n hn
  simp only [List.mem_flatMap, ← C90_codes] at hn
  obtain ⟨w, -, p, -, hn⟩ := hn
  unfold weatherFromWeatherPhenomena at hn
  split at hn
  · rw [List.mem_singleton] at hn; rw [hn]; exact hc _
  · split at hn
    · rcases List.mem_cons.mp hn with h | h
      · rw [h]; exact hc _
      · obtain ⟨x, -, rfl⟩ := List.mem_map.mp h; exact hc _
    · obtain ⟨x, -, rfl⟩ := List.mem_map.mp hn; exact hc _

/-- All the weather of a summary has a number of the table. -/
theorem weather_known {metar taf : Str} {y m d : Int} {imperial : Bool} {r : CurrentWeather}
    (h : getCurrentWeather metar taf y m d imperial = .ok r) : ∀ n ∈ r.weather, n < 74 := by
  rcases parseReport_cases metar .METAR with ⟨gs, hg, -⟩ | ⟨hr, -⟩
  · rw [(C87_metar hg h).1.weather]; exact codes_small _
  · rcases parseReport_cases taf .TAF with ⟨gs, hg, -⟩ | ⟨hr', -⟩
    · rw [(C88_taf hr hg h).1.weather]; exact codes_small _
    · rw [C91_nothing hr hr'] at h
      obtain rfl := Except.ok.inj h
      exact fun n hn => nomatch hn

/-! ### Lines -/

/-- The lines, each with a line break. -/
def withBreaks (ls : List Str) : Str := (ls.map (· ++ c!"<br>")).flatten

theorem withBreaks_append (a b : List Str) : withBreaks (a ++ b) = withBreaks a ++ withBreaks b := by
  unfold withBreaks; rw [List.map_append, List.flatten_append]

theorem withBreaks_if (p : Prop) [Decidable p] (s : Str) :
    withBreaks (if p then [s] else []) = if p then s ++ c!"<br>" else [] := by
  split
  · unfold withBreaks; simp only [List.map_cons, List.map_nil, List.flatten_cons, List.flatten_nil, List.append_nil]
  · rfl

theorem withBreaks_one (s : Str) : withBreaks [s] = s ++ c!"<br>" := by
  unfold withBreaks; simp only [List.map_cons, List.map_nil, List.flatten_cons, List.flatten_nil, List.append_nil]

/-- The text determines its lines. -/
theorem pageLines_unique {text : Str} {ls ls' : List Str} (h : PageLines text ls) (h' : PageLines text ls') :
    ls = ls' := by
  obtain ⟨rfl, hl⟩ := h
  obtain ⟨he, hl'⟩ := h'
  have key : ∀ (a b : Str) (x y : Str), '<' ∉ a → '<' ∉ b → a ++ '<' :: x = b ++ '<' :: y → a = b ∧ x = y := by
    intro a
    induction a with
    | nil =>
      intro b x y _ hb e
      cases b with
      | nil => exact ⟨rfl, by simpa using e⟩
      | cons c b =>
        simp only [List.nil_append, List.cons_append, List.cons.injEq] at e
        exact absurd (e.1 ▸ List.mem_cons_self ..) hb
    | cons c a ih =>
      intro b x y ha hb e
      cases b with
      | nil =>
        simp only [List.nil_append, List.cons_append, List.cons.injEq] at e
        exact absurd (e.1 ▸ List.mem_cons_self ..) ha
      | cons c' b =>
        simp only [List.cons_append, List.cons.injEq] at e
        obtain ⟨rfl, e⟩ := e
        obtain ⟨e1, e2⟩ := ih b x y (fun h => ha (List.mem_cons_of_mem _ h)) (fun h => hb (List.mem_cons_of_mem _ h)) e
        exact ⟨by rw [e1], e2⟩
  induction ls generalizing ls' with
  | nil =>
    cases ls' with
    | nil => rfl
    | cons l ls' => simp at he
  | cons l ls ih =>
    cases ls' with
    | nil => simp at he
    | cons l' ls' =>
      simp only [List.map_cons, List.flatten_cons, List.append_assoc] at he
      obtain ⟨e1, e2⟩ := key l l' _ _ (hl l (List.mem_cons_self ..)) (hl' l' (List.mem_cons_self ..)) he
      have e3 := (List.append_cancel_left (as := ['b', 'r', '>']) e2)
      rw [e1, ih (fun x hx => hl x (List.mem_cons_of_mem _ hx)) e3 (fun x hx => hl' x (List.mem_cons_of_mem _ hx))]

/-- The summary as the script sees it. -/
abbrev adapted (r : CurrentWeather) : Page.Shown := adaptCurrentWeather r valueNotSpecified

theorem nullIf_known (n : Int) : nullIfNoValue n valueNotSpecified = known n := rfl

theorem felt_judged (r : CurrentWeather) :
    feltTemperature (adapted r).airTemperature (adapted r).perceivedTemperature = judged r := by
  show feltTemperature (known r.airTemperature) (known r.perceivedTemperature) = _
  unfold judged feltTemperature
  cases known r.perceivedTemperature <;> rfl

theorem isHot_iff (r : CurrentWeather) (imperial : Bool) :
    isHot (adapted r).airTemperature (adapted r).perceivedTemperature imperial = true ↔ Hot r imperial := by
  unfold isHot Hot
  rw [felt_judged]
  cases judged r <;> simp

theorem isCold_iff (r : CurrentWeather) (imperial : Bool) :
    isCold (adapted r).airTemperature (adapted r).perceivedTemperature imperial = true ↔ Cold r imperial := by
  unfold isCold Cold
  rw [felt_judged]
  cases judged r <;> simp

theorem isWindy_iff (n : Int) (imperial : Bool) :
    isWindy (nullIfNoValue n valueNotSpecified) imperial = true ↔ Fast n imperial := by
  unfold isWindy Fast
  rw [nullIf_known]
  cases known n with
  | none => simp
  | some v =>
    cases imperial
    · simp only [Bool.false_eq_true, ↓reduceIte, ge_iff_le, decide_eq_true_eq, Option.some.injEq, exists_eq_left']
      exact_mod_cast Iff.rfl
    · simp only [↓reduceIte, ge_iff_le, decide_eq_true_eq, Option.some.injEq, exists_eq_left']
      constructor
      · intro h
        by_contra hc
        have : (v : Rat) ≤ 24 := by exact_mod_cast (by omega : v ≤ 24)
        linarith
      · intro h
        have : (25 : Rat) ≤ v := by exact_mod_cast h
        linarith

/-- The remarks the script makes. -/
def noteLines (r : CurrentWeather) (imperial : Bool) : List Str :=
  (if isHot (adapted r).airTemperature (adapted r).perceivedTemperature imperial = true then [c!"Hot"] else []) ++
  (if isCold (adapted r).airTemperature (adapted r).perceivedTemperature imperial = true then [c!"Cold"] else []) ++
  (if isWindy (adapted r).windSpeed imperial = true then [c!"Windy"] else []) ++
  (if isWindy (adapted r).gustSpeed imperial = true then [c!"Gusty wind"] else [])

theorem noteLines_notes (r : CurrentWeather) (imperial : Bool) : Notes r imperial (noteLines r imperial) := by
  have h1 := isHot_iff r imperial
  have h2 := isCold_iff r imperial
  have h3 : isWindy (adapted r).windSpeed imperial = true ↔ _ := isWindy_iff r.windSpeed imperial
  have h4 : isWindy (adapted r).gustSpeed imperial = true ↔ _ := isWindy_iff r.gustSpeed imperial
  unfold noteLines
  constructor
  · generalize isHot _ _ _ = a, isCold _ _ _ = b, isWindy _ _ = c
    generalize isWindy _ _ = d
    cases a <;> cases b <;> cases c <;> cases d <;> decide
  · rw [← h1]
    generalize isHot _ _ _ = a, isCold _ _ _ = b, isWindy _ _ = c
    generalize isWindy _ _ = d
    cases a <;> cases b <;> cases c <;> cases d <;> decide
  · rw [← h2]
    generalize isHot _ _ _ = a, isCold _ _ _ = b, isWindy _ _ = c
    generalize isWindy _ _ = d
    cases a <;> cases b <;> cases c <;> cases d <;> decide
  · rw [← h3]
    generalize isHot _ _ _ = a, isCold _ _ _ = b
    generalize isWindy (adapted r).windSpeed _ = c, isWindy (adapted r).gustSpeed _ = d
    cases a <;> cases b <;> cases c <;> cases d <;> decide
  · rw [← h4]
    generalize isHot _ _ _ = a, isCold _ _ _ = b
    generalize isWindy (adapted r).windSpeed _ = c, isWindy (adapted r).gustSpeed _ = d
    cases a <;> cases b <;> cases c <;> cases d <;> decide

theorem conditions_lines (r : CurrentWeather) (imperial : Bool) :
    conditionsText (adapted r) imperial c!"<br>" = withBreaks (noteLines r imperial) := by
  unfold noteLines conditionsText
  rw [withBreaks_append, withBreaks_append, withBreaks_append]
  simp only [withBreaks_if]

theorem withBreaks_lineOn (n : Int) (f : Int → Str) :
    withBreaks (lineOn n f) = onKnown n (fun t => f t ++ c!"<br>") := by
  unfold lineOn onKnown
  cases known n with
  | none => rfl
  | some t => exact withBreaks_one _

/-- The line on the temperature felt. -/
def feltLines (r : CurrentWeather) (imperial : Bool) : List Str :=
  lineOn r.perceivedTemperature (fun t => c!"Feels like " ++ numberText t ++ degreeSign imperial)

theorem page_temperature_lines (r : CurrentWeather) (imperial : Bool) :
    temperatureText (adapted r) imperial c!"<br>" =
      withBreaks ([temperatureLine r imperial] ++ feltLines r imperial) := by
  rw [withBreaks_append, withBreaks_one]
  unfold feltLines
  rw [withBreaks_lineOn]
  unfold temperatureText temperatureLine
  simp only [show (adapted r).airTemperature = known r.airTemperature from rfl,
    show (adapted r).airTemperatureHigh = known r.airTemperatureHigh from rfl,
    show (adapted r).airTemperatureLow = known r.airTemperatureLow from rfl,
    show (adapted r).perceivedTemperature = known r.perceivedTemperature from rfl, showInt_text,
    show (if imperial = true then c!"&deg;F" else c!"&degC") = degreeSign imperial from rfl, onKnown]
  have ha : ∀ t, known r.airTemperature = some t → t = r.airTemperature := by
    intro t h
    unfold known at h
    split at h
    · exact nomatch h
    · exact (Option.some.inj h).symm
  cases h1 : known r.airTemperature with
  | none =>
    cases known r.airTemperatureHigh <;> cases known r.airTemperatureLow <;> cases known r.perceivedTemperature <;>
      simp only [Option.map_none, Option.map_some, Option.getD_none, Option.getD_some, ↓reduceIte, List.append_assoc,
        List.append_nil]
  | some t =>
    rw [ha t h1]
    cases known r.airTemperatureHigh <;> cases known r.airTemperatureLow <;> cases known r.perceivedTemperature <;>
      simp only [Option.map_none, Option.map_some, Option.getD_none, Option.getD_some, reduceCtorEq, ↓reduceIte,
        List.append_assoc, List.append_nil]

theorem value_lines (r : CurrentWeather) (imperial : Bool) :
    valuesText (adapted r) imperial c!"<br>" = withBreaks (measurementLines r imperial) := by
  unfold measurementLines
  rw [withBreaks_append, withBreaks_append]
  simp only [withBreaks_lineOn]
  unfold valuesText
  simp only [show (adapted r).relativeHumidity = known r.relativeHumidity from rfl,
    show (adapted r).visibility = known r.visibility from rfl,
    show (adapted r).atmosphericPressure = known r.atmosphericPressure from rfl, showInt_text, showQuotient_text,
    onKnown]
  cases imperial <;> cases known r.relativeHumidity <;> cases known r.visibility <;>
    cases known r.atmosphericPressure <;>
    simp only [Option.map_none, Option.map_some, Option.getD_none, Option.getD_some, Bool.false_eq_true, ↓reduceIte,
      List.append_assoc, List.append_nil] <;> rfl

/-- The lines the script writes on the wind. -/
def windPart (r : CurrentWeather) (imperial : Bool) : List Str :=
  if known r.windDirection ≠ none ∨ known r.windSpeed = none ∨ r.isWindVariable = true then
    [c!"Wind " ++ (match known r.windDirection with
      | some d => (match directionToCardinalText d with | some cardinal => c!"is " ++ cardinal ++ c!"ern, " | none => [])
        ++ numberText d ++ c!"&deg;"
      | none => c!"is variable") ++ speedsText r imperial]
  else []

theorem page_wind_lines (r : CurrentWeather) (imperial : Bool) :
    windText (adapted r) imperial c!"<br>" = withBreaks (windPart r imperial) := by
  unfold windPart
  rw [withBreaks_if]
  unfold windText speedsText
  simp only [show (adapted r).windDirection = known r.windDirection from rfl,
    show (adapted r).windSpeed = known r.windSpeed from rfl,
    show (adapted r).gustSpeed = known r.gustSpeed from rfl,
    show (adapted r).isWindVariable = r.isWindVariable from rfl, showInt_text, onKnown,
    show (if imperial = true then c!"mph" else c!"km/h") = speedSign imperial from rfl]
  congr 1
  simp only [List.append_assoc]
  congr 2
  cases known r.windSpeed <;> cases known r.gustSpeed <;>
    simp only [Option.map_none, Option.map_some, Option.getD_none, Option.getD_some, List.append_assoc,
      List.nil_append]

/-- The lines the script writes on the time of the report. -/
def updatedPart (device : Device) (r : CurrentWeather) (offset : Int) : List Str :=
  match known r.updateYear, known r.updateMonth, known r.updateDay, known r.updateHour, known r.updateMinute with
  | some year, some month, some day, some hour, some minute =>
    let time := newDate device year (month - 1) day hour minute + offset
    [c!"Updated: " ++ dateTimeToStr_HH_MM (minuteOfDay device time) ++ c!" (" ++
      timeDifferenceMinutesToString ((device.now - time * 60000).tdiv 60000) ++ c!" ago)"]
  | _, _, _, _, _ => []

theorem updated_lines (device : Device) (r : CurrentWeather) (offset : Int) :
    updatedText device (adapted r) c!"<br>" offset = withBreaks (updatedPart device r offset) := by
  unfold updatedPart updatedText
  simp only [show (adapted r).updateYear = known r.updateYear from rfl,
    show (adapted r).updateMonth = known r.updateMonth from rfl,
    show (adapted r).updateDay = known r.updateDay from rfl,
    show (adapted r).updateHour = known r.updateHour from rfl,
    show (adapted r).updateMinute = known r.updateMinute from rfl]
  cases known r.updateYear <;> cases known r.updateMonth <;> cases known r.updateDay <;> cases known r.updateHour <;>
    cases known r.updateMinute <;> first | rfl | (rw [withBreaks_one])

/-! ### No markup within a line -/

theorem lt_append {a b : Str} (ha : '<' ∉ a) (hb : '<' ∉ b) : '<' ∉ a ++ b := by
  rw [List.mem_append]; exact fun h => h.elim ha hb

theorem lt_ite {p : Prop} [Decidable p] {a b : Str} (ha : '<' ∉ a) (hb : '<' ∉ b) : '<' ∉ if p then a else b := by
  split
  · exact ha
  · exact hb

theorem lt_nil : '<' ∉ ([] : Str) := fun h => nomatch h

theorem lt_degreeSign (imperial : Bool) : '<' ∉ degreeSign imperial := by cases imperial <;> decide

theorem lt_speedSign (imperial : Bool) : '<' ∉ speedSign imperial := by cases imperial <;> decide

theorem lt_onKnown {n : Int} {f : Int → Str} (h : ∀ t, '<' ∉ f t) : '<' ∉ onKnown n f := by
  unfold onKnown
  cases known n with
  | none => exact lt_nil
  | some t => exact h t

theorem lt_lineOn {n : Int} {f : Int → Str} (h : ∀ t, '<' ∉ f t) : ∀ l ∈ lineOn n f, '<' ∉ l := by
  unfold lineOn
  cases known n with
  | none => exact fun l hl => nomatch hl
  | some t => intro l hl; rw [List.mem_singleton.mp hl]; exact h t

theorem lt_direction (d : Int) (s : Str) (h : directionToCardinalText d = some s) : '<' ∉ s := by
  have hi : ∀ (p : Prop) [Decidable p] (a : Str) (o : Option Str), '<' ∉ a → (∀ s, o = some s → '<' ∉ s) →
      ∀ s, (if p then some a else o) = some s → '<' ∉ s := by
    intro p _ a o ha ho s hs
    split at hs
    · rw [← Option.some.inj hs]; exact ha
    · exact ho s hs
  have h0 : ∀ a : Str, '<' ∉ a → ∀ s, some a = some s → '<' ∉ s := by
    intro a ha s hs
    rw [← Option.some.inj hs]; exact ha
  unfold directionToCardinalText at h
  by_cases hd : d > 360
  · rw [if_pos hd] at h
    exact nomatch h
  · rw [if_neg hd] at h
    revert s
    repeat' refine hi _ _ _ (by decide) ?_
    exact h0 _ (by decide)

theorem lt_speeds (r : CurrentWeather) (imperial : Bool) : '<' ∉ speedsText r imperial := by
  unfold speedsText
  refine lt_append (lt_onKnown fun t => ?_) (lt_onKnown fun t => ?_)
  · exact lt_append (lt_append (lt_append (by decide) (lt_numberText _)) (by decide)) (lt_speedSign _)
  · exact lt_append (lt_append (lt_append (by decide) (lt_numberText _)) (by decide)) (lt_speedSign _)

theorem lt_showInt (n : Int) : '<' ∉ Page.showInt n := by rw [showInt_text]; exact lt_numberText n

theorem lt_wind (r : CurrentWeather) (imperial : Bool) : ∀ l ∈ windPart r imperial, '<' ∉ l := by
  intro l hl
  unfold windPart at hl
  split at hl
  · rw [List.mem_singleton.mp hl]
    refine lt_append (lt_append (by decide) ?_) (lt_speeds _ _)
    cases known r.windDirection with
    | none => decide
    | some d =>
      refine lt_append (lt_append ?_ (lt_numberText _)) (by decide)
      cases h : directionToCardinalText d with
      | none => exact lt_nil
      | some s => exact lt_append (lt_append (by decide) (lt_direction d s h)) (by decide)
  · exact nomatch hl

theorem lt_clock (t : Int) : '<' ∉ dateTimeToStr_HH_MM t := by
  unfold dateTimeToStr_HH_MM twoDigits
  exact lt_append (lt_append (lt_append (lt_ite (by decide) lt_nil) (lt_showInt _)) (by decide))
    (lt_append (lt_ite (by decide) lt_nil) (lt_showInt _))

theorem lt_duration (t : Int) : '<' ∉ timeDifferenceMinutesToString t := by
  unfold timeDifferenceMinutesToString
  refine lt_ite (by decide) ?_
  exact lt_append (lt_append
    (lt_ite lt_nil (lt_ite (by decide) (lt_append (lt_showInt _) (by decide)))) (lt_ite (by decide) lt_nil))
    (lt_ite lt_nil (lt_ite (by decide) (lt_append (lt_showInt _) (by decide))))

theorem lt_updated (device : Device) (r : CurrentWeather) (offset : Int) :
    ∀ l ∈ updatedPart device r offset, '<' ∉ l := by
  intro l hl
  unfold updatedPart at hl
  split at hl
  · rw [List.mem_singleton.mp hl]
    exact lt_append (lt_append (lt_append (lt_append (by decide) (lt_clock _)) (by decide)) (lt_duration _)) (by decide)
  · exact nomatch hl

theorem lt_measurements (r : CurrentWeather) (imperial : Bool) : ∀ l ∈ measurementLines r imperial, '<' ∉ l := by
  intro l hl
  unfold measurementLines at hl
  rw [List.mem_append, List.mem_append] at hl
  rcases hl with (hl | hl) | hl
  · exact lt_lineOn (fun t => lt_append (lt_append (by decide) (lt_numberText _)) (by decide)) l hl
  · exact lt_lineOn (fun t => lt_append (lt_append (by decide) (lt_numberText _)) (lt_ite (by decide) (by decide))) l hl
  · exact lt_lineOn (fun t => lt_append (by decide) (lt_ite (lt_append (lt_shortDecimal _ _) (by decide))
      (lt_append (lt_numberText _) (by decide)))) l hl

theorem lt_temperature (r : CurrentWeather) (imperial : Bool) : '<' ∉ temperatureLine r imperial := by
  unfold temperatureLine
  refine lt_append (lt_append (lt_append (by decide) (lt_ite (by decide) (lt_append (lt_numberText _)
    (lt_degreeSign _)))) (lt_onKnown fun t => ?_)) (lt_onKnown fun t => ?_)
  · exact lt_append (lt_append (by decide) (lt_numberText _)) (lt_degreeSign _)
  · exact lt_append (lt_append (by decide) (lt_numberText _)) (lt_degreeSign _)

/-- All the lines. -/
def allLines (device : Device) (r : CurrentWeather) (imperial : Bool) (offset : Int) : List Str :=
  r.weather.map phrase ++ noteLines r imperial ++ [skyLine r] ++ ([temperatureLine r imperial] ++ feltLines r imperial) ++
    windPart r imperial ++ measurementLines r imperial ++ updatedPart device r offset

theorem lt_all (device : Device) (r : CurrentWeather) (imperial : Bool) (offset : Int) :
    ∀ l ∈ allLines device r imperial offset, '<' ∉ l := by
  intro l hl
  unfold allLines at hl
  simp only [List.mem_append] at hl
  rcases hl with (((((hl | hl) | hl) | (hl | hl)) | hl) | hl) | hl
  · obtain ⟨n, -, rfl⟩ := List.mem_map.mp hl; exact lt_phrase n
  · have := (noteLines_notes r imperial).order.subset hl
    have h : ∀ l ∈ [c!"Hot", c!"Cold", c!"Windy", c!"Gusty wind"], '<' ∉ l := by decide
    exact h l this
  · rw [List.mem_singleton.mp hl]
    exact lt_append (lt_skyPhrase _) (lt_ite (by decide) lt_nil)
  · rw [List.mem_singleton.mp hl]; exact lt_temperature r imperial
  · exact lt_lineOn (fun t => lt_append (lt_append (by decide) (lt_numberText _)) (lt_degreeSign _)) l hl
  · exact lt_wind r imperial l hl
  · exact lt_measurements r imperial l hl
  · exact lt_updated device r offset l hl

theorem html_lines (device : Device) (r : CurrentWeather) (imperial : Bool) (offset : Int)
    (h : ∀ n ∈ r.weather, n < 74) :
    currentWeatherToHTML device (adapted r) imperial c!"<br>" offset =
      .ok (withBreaks (allLines device r imperial offset)) := by
  unfold currentWeatherToHTML
  rw [show (adapted r).weather = r.weather from rfl, weather_text _ _ h]
  have hc : cloudLine (adapted r) c!"<br>" = .ok (withBreaks [skyLine r]) := by
    unfold cloudLine
    rw [show (adapted r).cloud = skyNum r.cloud from rfl, cloud_text, withBreaks_one]
    rfl
  rw [hc, conditions_lines, page_temperature_lines, page_wind_lines, value_lines, updated_lines]
  unfold allLines
  simp only [withBreaks_append]
  unfold withBreaks
  simp only [List.map_map]
  rfl

/-! ### Which lines begin with a word -/

theorem linesFrom_append (s : Str) (a b : List Str) : linesFrom s (a ++ b) = linesFrom s a ++ linesFrom s b :=
  List.filter_append ..

theorem linesFrom_none {s : Str} {l : List Str} (h : ∀ x ∈ l, s.isPrefixOf x = false) : linesFrom s l = [] := by
  unfold linesFrom
  rw [List.filter_eq_nil_iff]
  intro x hx
  rw [h x hx]
  exact Bool.false_ne_true

theorem linesFrom_all {s : Str} {l : List Str} (h : ∀ x ∈ l, s.isPrefixOf x = true) : linesFrom s l = l :=
  List.filter_eq_self.mpr h

theorem lineOn_none {s : Str} {n : Int} {f : Int → Str} (h : ∀ t, s.isPrefixOf (f t) = false) :
    linesFrom s (lineOn n f) = [] := by
  apply linesFrom_none
  intro x hx
  unfold lineOn at hx
  cases hk : known n with
  | none => rw [hk] at hx; exact nomatch hx
  | some t => rw [hk] at hx; rw [List.mem_singleton.mp hx]; exact h t

theorem phrases_other {s : Str} (hs : s = c!"Wind " ∨ s = c!"Updated: ") (l : List Nat) :
    linesFrom s (l.map phrase) = [] := by
  apply linesFrom_none
  intro x hx
  obtain ⟨n, -, rfl⟩ := List.mem_map.mp hx
  have h : ∀ p ∈ phrases, c!"Wind ".isPrefixOf p = false ∧ c!"Updated: ".isPrefixOf p = false := by decide +kernel
  unfold phrase
  rw [List.getD_eq_getElem?_getD]
  cases hp : phrases[n]? with
  | none => rcases hs with rfl | rfl <;> rfl
  | some p =>
    rcases hs with rfl | rfl
    · exact (h p (List.mem_of_getElem? hp)).1
    · exact (h p (List.mem_of_getElem? hp)).2

theorem notes_other {s : Str} (hs : s = c!"Wind " ∨ s = c!"Updated: ") (r : CurrentWeather) (imperial : Bool) :
    linesFrom s (noteLines r imperial) = [] := by
  apply linesFrom_none
  intro x hx
  have := (noteLines_notes r imperial).order.subset hx
  have h : ∀ l ∈ [c!"Hot", c!"Cold", c!"Windy", c!"Gusty wind"], c!"Wind ".isPrefixOf l = false ∧
    c!"Updated: ".isPrefixOf l = false := by decide
  rcases hs with rfl | rfl
  · exact (h x this).1
  · exact (h x this).2

theorem sky_other {s : Str} (hs : s = c!"Wind " ∨ s = c!"Updated: ") (r : CurrentWeather) :
    linesFrom s [skyLine r] = [] := by
  apply linesFrom_none
  intro x hx
  rw [List.mem_singleton.mp hx]
  unfold skyLine
  generalize (if r.isStormClouds = true then c!" (storm clouds in the sky)" else []) = e
  rcases hs with rfl | rfl <;> cases r.cloud <;> rfl

theorem temperature_other {s : Str} (hs : s = c!"Wind " ∨ s = c!"Updated: ") (r : CurrentWeather) (imperial : Bool) :
    linesFrom s ([temperatureLine r imperial] ++ feltLines r imperial) = [] := by
  rw [linesFrom_append]
  have h1 : linesFrom s [temperatureLine r imperial] = [] := by
    apply linesFrom_none
    intro x hx
    rw [List.mem_singleton.mp hx]
    unfold temperatureLine
    rcases hs with rfl | rfl <;> rfl
  have h2 : linesFrom s (feltLines r imperial) = [] := by
    apply lineOn_none
    intro t
    rcases hs with rfl | rfl <;> rfl
  rw [h1, h2]
  rfl

theorem measurements_other {s : Str} (hs : s = c!"Wind " ∨ s = c!"Updated: ") (r : CurrentWeather) (imperial : Bool) :
    linesFrom s (measurementLines r imperial) = [] := by
  unfold measurementLines
  rw [linesFrom_append, linesFrom_append, lineOn_none, lineOn_none, lineOn_none]
  · rfl
  all_goals intro t; rcases hs with rfl | rfl <;> rfl

theorem wind_wind (r : CurrentWeather) (imperial : Bool) : linesFrom c!"Wind " (windPart r imperial) =
    windPart r imperial := by
  apply linesFrom_all
  intro x hx
  unfold windPart at hx
  split at hx
  · rw [List.mem_singleton.mp hx]; rfl
  · exact nomatch hx

theorem wind_other (r : CurrentWeather) (imperial : Bool) : linesFrom c!"Updated: " (windPart r imperial) = [] := by
  apply linesFrom_none
  intro x hx
  unfold windPart at hx
  split at hx
  · rw [List.mem_singleton.mp hx]; rfl
  · exact nomatch hx

theorem updated_updated (device : Device) (r : CurrentWeather) (offset : Int) :
    linesFrom c!"Updated: " (updatedPart device r offset) = updatedPart device r offset := by
  apply linesFrom_all
  intro x hx
  unfold updatedPart at hx
  split at hx
  · rw [List.mem_singleton.mp hx]; rfl
  · exact nomatch hx

theorem updated_other (device : Device) (r : CurrentWeather) (offset : Int) :
    linesFrom c!"Wind " (updatedPart device r offset) = [] := by
  apply linesFrom_none
  intro x hx
  unfold updatedPart at hx
  split at hx
  · rw [List.mem_singleton.mp hx]; rfl
  · exact nomatch hx

theorem all_wind (device : Device) (r : CurrentWeather) (imperial : Bool) (offset : Int) :
    linesFrom c!"Wind " (allLines device r imperial offset) = windPart r imperial := by
  unfold allLines
  have hs : c!"Wind " = c!"Wind " ∨ c!"Wind " = c!"Updated: " := Or.inl rfl
  rw [linesFrom_append, linesFrom_append, linesFrom_append, linesFrom_append, temperature_other hs, linesFrom_append,
    linesFrom_append, phrases_other hs, notes_other hs, sky_other hs, measurements_other hs, wind_wind, updated_other]
  simp only [List.append_nil, List.nil_append]

theorem all_updated (device : Device) (r : CurrentWeather) (imperial : Bool) (offset : Int) :
    linesFrom c!"Updated: " (allLines device r imperial offset) = updatedPart device r offset := by
  unfold allLines
  have hs : c!"Updated: " = c!"Wind " ∨ c!"Updated: " = c!"Updated: " := Or.inr rfl
  rw [linesFrom_append, linesFrom_append, linesFrom_append, linesFrom_append, temperature_other hs, linesFrom_append,
    linesFrom_append, phrases_other hs, notes_other hs, sky_other hs, measurements_other hs, wind_other,
    updated_updated]
  simp only [List.nil_append]

/-! ### C123 -/

/-- C123: for every two texts, the page writes on the summary of them these lines, and no others. -/
theorem C123_lines {metar taf : Str} {y m d : Int} {imperial : Bool} {r : CurrentWeather}
    (h : getCurrentWeather metar taf y m d imperial = .ok r) (device : Device) (offset : Int) :
    ∃ text lines, currentWeatherToHTML device (adaptCurrentWeather r valueNotSpecified) imperial c!"<br>" offset = .ok text ∧
      PageLines text lines ∧ StationLines r imperial lines := by
  refine ⟨_, _, html_lines device r imperial offset (weather_known h), ⟨rfl, lt_all device r imperial offset⟩,
    noteLines r imperial, noteLines_notes r imperial, ?_⟩
  rw [all_wind, all_updated]
  unfold allLines feltLines
  simp only [List.append_assoc, List.cons_append, List.nil_append]

/-- C123: the text determines its lines. -/
theorem C123_unique {text : Str} {lines lines' : List Str} (h : PageLines text lines) (h' : PageLines text lines') :
    lines = lines' := pageLines_unique h h'

/-! ### C124 -/

theorem compass (d : Int) (h0 : 0 ≤ d) (h1 : d ≤ 360) : ∃ s, directionToCardinalText d = some s ∧ CompassText d s := by
  obtain ⟨n, rfl⟩ := Int.eq_ofNat_of_zero_le h0
  have table : ∀ n < 361, directionToCardinalText (Int.ofNat n) =
      some ((if n ≠ 0 ∧ n % 90 = 0 then c!"true " else []) ++ windRose.getD ((4 * n + 45) / 90 % 16) []) := by
    decide +kernel
  refine ⟨_, table n (by omega), (4 * n + 45) / 90, ?_, ?_⟩
  · rw [abs_lt]; constructor <;> omega
  · congr 2
    apply propext; omega

/-- C124: the lines on the wind are as expected if there is a direction or the wind is variable. (Missing: wind
without a direction which is not variable, see `C124_violated`.) -/
theorem C124_wind_partial {metar taf : Str} {y m d : Int} {imperial : Bool} {r : CurrentWeather}
    (h : getCurrentWeather metar taf y m d imperial = .ok r) (device : Device) (offset : Int) (text : Str)
    (lines : List Str)
    (ht : currentWeatherToHTML device (adaptCurrentWeather r valueNotSpecified) imperial c!"<br>" offset = .ok text)
    (hl : PageLines text lines) (hw : known r.windDirection ≠ none ∨ r.isWindVariable = true) :
    WindLines r imperial (linesFrom c!"Wind " lines) := by
  rw [html_lines device r imperial offset (weather_known h)] at ht
  obtain rfl := Except.ok.inj ht
  rw [pageLines_unique hl ⟨rfl, lt_all device r imperial offset⟩, all_wind]
  have hp : windPart r imperial = [c!"Wind " ++ (match known r.windDirection with
      | some d => (match directionToCardinalText d with | some cardinal => c!"is " ++ cardinal ++ c!"ern, " | none => [])
        ++ numberText d ++ c!"&deg;"
      | none => c!"is variable") ++ speedsText r imperial] := by
    unfold windPart
    rw [if_pos]
    exact hw.elim Or.inl (fun h => Or.inr (Or.inr h))
  refine ⟨?_, ?_, ?_, ?_⟩
  · rintro ⟨h1, -, h2⟩
    rcases hw with h | h
    · exact absurd h1 h
    · rw [h] at h2; exact nomatch h2
  · intro h1 _
    rw [hp, h1]
    rfl
  · intro e he h0 h1
    obtain ⟨s, hs, hc⟩ := compass e h0 h1
    refine ⟨s, hc, ?_⟩
    rw [hp, he]
    simp only [hs, List.append_assoc]
    rfl
  · intro _
    rw [hp]
    exact ⟨_, List.mem_singleton.mpr rfl, List.suffix_append _ _⟩

end Metaf.Props

namespace Metaf.Props

open Metaf Metaf.Spec Metaf.Summary Metaf.Page

attribute [local instance] ieee

theorem map_ok {α β : Type} {f : α → β} {x : Res α} {b : β} (h : x.map f = .ok b) : ∃ a, x = .ok a ∧ f a = b := by
  cases x with
  | ok a => exact ⟨a, rfl, Except.ok.inj h⟩
  | error e => exact nomatch h

/-- A device in London on 1 January 2020 at noon. -/
def exampleDevice : Device := ⟨1577880000000, 0⟩

/-- The text on a METAR report. -/
def exampleText (metar : Str) (imperial : Bool) : Js Str := do
  let r ← call (getCurrentWeather metar [] 2020 1 1 imperial)
  currentWeatherToHTML exampleDevice (adaptCurrentWeather r valueNotSpecified) imperial c!"<br>" 0

/-- The lines on a report in both systems of units (`C123`). -/
example : exampleText c!"METAR EGLL 011150Z 24025G40KT 9999 +SHRA FEW030CB 12/05 Q1013=" false = .ok (withBreaks
    [c!"Heavy showers", c!"Windy", c!"Gusty wind", c!"Mostly clear (storm clouds in the sky)",
      c!"Temperature 12&degC", c!"Feels like 12&degC",
      c!"Wind is west-southwestern, 240&deg;, 46 km/h with gusts up to 74 km/h",
      c!"RH 62%", c!"Visibility 10000 meters", c!"Atmospheric pressure 1013 hPa",
      c!"Updated: 11:50 (10 minutes ago)"]) := by decide +kernel

example : exampleText c!"METAR KSEA 011053Z 18004KT 10SM BR OVC005 30/28 A2990=" true = .ok (withBreaks
    [c!"Mist", c!"Hot", c!"Overcast", c!"Temperature 86&deg;F", c!"Feels like 104&deg;F",
      c!"Wind is true southern, 180&deg;, 4 mph", c!"RH 89%", c!"Visibility 10 miles",
      c!"Atmospheric pressure 29.9 &quot;Hg", c!"Updated: 10:53 (1 hour 7 minutes ago)"]) := by decide +kernel

/-- C124: calm wind is not mentioned, and wind that is not reported is called variable. -/
theorem C124_violated :
    (∃ metar r text lines, getCurrentWeather metar [] 2020 1 1 false = .ok r ∧
      currentWeatherToHTML exampleDevice (adaptCurrentWeather r valueNotSpecified) false c!"<br>" 0 = .ok text ∧
      PageLines text lines ∧ known r.windSpeed = some 0 ∧ linesFrom c!"Wind " lines = [] ∧
      ¬ WindLines r false (linesFrom c!"Wind " lines)) ∧
    (∃ metar r text lines, getCurrentWeather metar [] 2020 1 1 false = .ok r ∧
      currentWeatherToHTML exampleDevice (adaptCurrentWeather r valueNotSpecified) false c!"<br>" 0 = .ok text ∧
      PageLines text lines ∧ r.isWindVariable = false ∧ linesFrom c!"Wind " lines = [c!"Wind is variable"] ∧
      ¬ WindLines r false (linesFrom c!"Wind " lines)) := by
  constructor
  · have h : (getCurrentWeather c!"METAR EGLL 011150Z 00000KT 9999 FEW030 10/05 Q1013=" [] 2020 1 1 false).map
        (fun r => (r.windDirection, r.windSpeed, r.isWindVariable)) = .ok (-250, 0, false) := by kernel_rfl
    obtain ⟨r, hr, h⟩ := map_ok h
    simp only [Prod.mk.injEq] at h
    obtain ⟨h1, h2, h3⟩ := h
    have hp : windPart r false = [] := by
      unfold windPart
      rw [h1, h2, h3]
      rfl
    refine ⟨_, r, _, _, hr, html_lines _ r false 0 (weather_known hr), ⟨rfl, lt_all _ _ _ _⟩, ?_, ?_, ?_⟩
    · rw [h2]; rfl
    · rw [all_wind, hp]
    · rw [all_wind, hp]
      intro hw
      obtain ⟨l, hl, -⟩ := hw.2.2.2 (by rw [h2]; decide)
      exact nomatch hl
  · have h : (getCurrentWeather c!"METAR EGLL 011150Z 9999 FEW030 10/05 Q1013=" [] 2020 1 1 false).map
        (fun r => (r.windDirection, r.windSpeed, r.gustSpeed, r.isWindVariable)) = .ok (-250, -250, -250, false) := by
      kernel_rfl
    obtain ⟨r, hr, h⟩ := map_ok h
    simp only [Prod.mk.injEq] at h
    obtain ⟨h1, h2, h3, h4⟩ := h
    have hp : windPart r false = [c!"Wind is variable"] := by
      unfold windPart speedsText onKnown
      rw [h1, h2, h3, h4]
      rfl
    refine ⟨_, r, _, _, hr, html_lines _ r false 0 (weather_known hr), ⟨rfl, lt_all _ _ _ _⟩, h4, ?_, ?_⟩
    · rw [all_wind, hp]
    · rw [all_wind, hp]
      intro hw
      have := hw.1 ⟨by rw [h1]; rfl, by rw [h2]; rfl, h4⟩
      exact nomatch this

/-- Wind with a direction, as `C124` asks. -/
example : ∃ r, getCurrentWeather c!"METAR EGLL 011150Z 24025KT 9999 FEW030 10/05 Q1013=" [] 2020 1 1 false = .ok r ∧
    known r.windDirection = some 240 := by
  have h : (getCurrentWeather c!"METAR EGLL 011150Z 24025KT 9999 FEW030 10/05 Q1013=" [] 2020 1 1 false).map
    (fun r => r.windDirection) = .ok 240 := by kernel_rfl
  obtain ⟨r, hr, h⟩ := map_ok h
  exact ⟨r, hr, by rw [h]; rfl⟩

end Metaf.Props

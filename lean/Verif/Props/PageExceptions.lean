import Verif.Props.PageWidget
import Verif.Props.ReportHours

/-!
Exactly what the page shows, and which times qualify, where C124, C128 and C132 do not hold.
-/

set_option linter.unusedSectionVars false

namespace Metaf.Props

open Metaf Metaf.Spec Metaf.Summary Metaf.Page

/-- C132. Exactly which valid times qualify as six-hourly: those of the claim but for 24:00 and the minutes after. -/
theorem C132_exact (t : MetafTime) (hv : t.isValid = true) :
    t.is6hourlyReportTime = true ↔ sixHourly t.hourValue t.minuteValue ∧ t.hourValue ≠ 24 := by
  by_cases h : t.hourValue = 24
  · constructor
    · intro h'
      simp [MetafTime.is6hourlyReportTime, h] at h'
    · rintro ⟨-, h'⟩
      exact absurd h h'
  · rw [C132_six_hourly_partial t hv h]
    simp [h]

variable [FloatIeee]

/-- C124. The lines on the wind in the cases left out in `C124_wind_partial`: without a direction, wind which is not
variable is called variable if its speed is not known, and is not mentioned if it is known, whatever the gusts. -/
theorem C124_no_direction {metar taf : Str} {y m d : Int} {imperial : Bool} {r : CurrentWeather}
    (h : getCurrentWeather metar taf y m d imperial = .ok r) (device : Device) (offset : Int) (text : Str)
    (lines : List Str)
    (ht : currentWeatherToHTML device (adaptCurrentWeather r valueNotSpecified) imperial c!"<br>" offset = .ok text)
    (hl : PageLines text lines) (hd : known r.windDirection = none) (hv : r.isWindVariable = false) :
    linesFrom c!"Wind " lines =
      if known r.windSpeed = none then [c!"Wind is variable" ++ speedsText r imperial] else [] := by
  rw [html_lines device r imperial offset (weather_known h)] at ht
  obtain rfl := Except.ok.inj ht
  rw [pageLines_unique hl ⟨rfl, lt_all device r imperial offset⟩, all_wind]
  unfold windPart
  rw [hd, hv]
  by_cases hs : known r.windSpeed = none
  · rw [if_pos (Or.inr (Or.inl hs)), if_pos hs]
    rfl
  · rw [if_neg (by simp [hs]), if_neg hs]

/-- The summary the widget seems to be made of: a pressure, if it is wanted in inches, and a visibility, if it is wanted
in kilometres, are 0 if they are not known. -/
def zeroed (r : CurrentWeather) (imperial : Bool) : CurrentWeather :=
  { r with
    atmosphericPressure := if imperial = true ∧ known r.atmosphericPressure = none then 0 else r.atmosphericPressure
    visibility := if imperial = false ∧ known r.visibility = none then 0 else r.visibility }

theorem known_zero : known 0 = some 0 := by decide

theorem fields_zeroed (r : CurrentWeather) (imperial : Bool) : fieldsOf r imperial = fieldsOf (zeroed r imperial) imperial := by
  have e1 : pressureOf r imperial = pressureOf (zeroed r imperial) imperial := by
    unfold pressureOf zeroed
    cases imperial with
    | false => simp
    | true =>
      cases h : known r.atmosphericPressure with
      | none => simp [known_zero]
      | some v => simp [h]
  have e2 : visibilityOf r imperial = visibilityOf (zeroed r imperial) imperial := by
    unfold visibilityOf zeroed
    cases imperial with
    | true => simp
    | false =>
      cases h : known r.visibility with
      | none => simp [known_zero]
      | some v => simp [h]
  unfold fieldsOf
  rw [e1, e2]
  rfl

/-- C128. All elements of the widget for every summary: those specified, where a pressure in inches and a visibility in
kilometres which are not known are shown as 0. -/
theorem C128_exact (r : CurrentWeather) (imperial : Bool) :
    ∃ text, makeWeatherWidget (adaptCurrentWeather r valueNotSpecified) imperial = .ok text ∧
      ∀ cls contents, cls ≠ c!"ww_weather" →
        (WidgetField text cls contents ↔ (cls, contents) ∈ widgetFields (zeroed r imperial) imperial) := by
  have hp : imperial = true → known (zeroed r imperial).atmosphericPressure ≠ none := by
    rintro rfl
    unfold zeroed
    cases h : known r.atmosphericPressure with
    | none => simp [known_zero]
    | some v => simp [h]
  have hv : imperial = false → known (zeroed r imperial).visibility ≠ none := by
    rintro rfl
    unfold zeroed
    cases h : known r.visibility with
    | none => simp [known_zero]
    | some v => simp [h]
  obtain ⟨icon, tags, -, rfl, hplain, -, ht⟩ := widget_tags r imperial
  refine ⟨_, ht, fun cls contents hc => ?_⟩
  rw [field_iff (by decide) (by decide) hplain]
  have e : classesOf ((c!"div class=\"weather_widget\"", indent 5) :: (iconTags icon ++ tagsOf r imperial)) =
      (c!"weather_widget", indent 5) :: (classesOf (iconTags icon) ++ fieldsOf (zeroed r imperial) imperial) := by
    rw [← fields_zeroed, ← classes_tags]
    unfold classesOf
    rw [← List.filterMap_append]
    rfl
  rw [e, List.mem_cons, List.mem_append, mem_fieldsOf hp hv]
  constructor
  · rintro ⟨-, hn, h | h | h | h⟩
    · rw [(Prod.mk.inj h).2] at hn
      exact absurd (List.mem_cons_self ..) hn
    · exact absurd (classes_icon icon _ h) hc
    · rw [(Prod.mk.inj h).2] at hn
      exact absurd (List.mem_cons_self ..) hn
    · exact h
  · intro h
    have hx : ((cls, contents) : Str × Str) ≠ (c!"ww_other", indent 6) := by
      intro hx
      exact no_other (zeroed r imperial) imperial h (Prod.mk.inj hx).1
    have hm := (mem_fieldsOf hp hv (cls, contents)).mpr (Or.inr h)
    obtain ⟨h1, h2⟩ := fields_plain hm hx
    exact ⟨h1, h2, Or.inr (Or.inr (Or.inr h))⟩

/-- A summary of nothing: the visibility is shown as 0 kilometres. -/
example : (c!"ww_vis_km", c!"0") ∈ widgetFields (zeroed {} false) false ∧
    (c!"ww_vis_km", c!"==") ∈ widgetFields {} false := by decide

/-- Times after midnight on the clock which goes on: 24:00 is excluded, 00:00 is not. -/
example : sixHourly 24 0 ∧ (⟨some 1, 0, 0⟩ : MetafTime).is6hourlyReportTime = true :=
  ⟨⟨0, by simp, 1, by decide, by decide⟩, by decide⟩

end Metaf.Props

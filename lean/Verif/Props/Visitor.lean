import Verif.Props.Text

/-!
C50: dispatch of groups to the methods of a visitor.
-/

set_option linter.unusedSectionVars false

namespace Metaf.Props

variable [FloatSem]

open Metaf.Parser Metaf.Spec

/-- C50. Visiting a group calls the method for the alternative held by the group, and no other
method, with the report part and the text given. The result of a method stands for its effect too:
nothing is assumed about the type `T`. -/
theorem C50_dispatch {T : Type} [Inhabited T] (v : Visitor T) :
    (∀ g p s, v.visit (.keyword g) p s = v.visitKeywordGroup g p s) ∧
    (∀ g p s, v.visit (.location g) p s = v.visitLocationGroup g p s) ∧
    (∀ g p s, v.visit (.reportTime g) p s = v.visitReportTimeGroup g p s) ∧
    (∀ g p s, v.visit (.trend g) p s = v.visitTrendGroup g p s) ∧
    (∀ g p s, v.visit (.wind g) p s = v.visitWindGroup g p s) ∧
    (∀ g p s, v.visit (.visibility g) p s = v.visitVisibilityGroup g p s) ∧
    (∀ g p s, v.visit (.cloud g) p s = v.visitCloudGroup g p s) ∧
    (∀ g p s, v.visit (.weather g) p s = v.visitWeatherGroup g p s) ∧
    (∀ g p s, v.visit (.temperature g) p s = v.visitTemperatureGroup g p s) ∧
    (∀ g p s, v.visit (.pressure g) p s = v.visitPressureGroup g p s) ∧
    (∀ g p s, v.visit (.runwayState g) p s = v.visitRunwayStateGroup g p s) ∧
    (∀ g p s, v.visit (.seaSurface g) p s = v.visitSeaSurfaceGroup g p s) ∧
    (∀ g p s, v.visit (.minMaxTemperature g) p s = v.visitMinMaxTemperatureGroup g p s) ∧
    (∀ g p s, v.visit (.precipitation g) p s = v.visitPrecipitationGroup g p s) ∧
    (∀ g p s, v.visit (.layerForecast g) p s = v.visitLayerForecastGroup g p s) ∧
    (∀ g p s, v.visit (.pressureTendency g) p s = v.visitPressureTendencyGroup g p s) ∧
    (∀ g p s, v.visit (.cloudTypes g) p s = v.visitCloudTypesGroup g p s) ∧
    (∀ g p s, v.visit (.lowMidHighCloud g) p s = v.visitLowMidHighCloudGroup g p s) ∧
    (∀ g p s, v.visit (.lightning g) p s = v.visitLightningGroup g p s) ∧
    (∀ g p s, v.visit (.vicinity g) p s = v.visitVicinityGroup g p s) ∧
    (∀ g p s, v.visit (.misc g) p s = v.visitMiscGroup g p s) ∧
    (∀ g p s, v.visit (.unknown g) p s = v.visitUnknownGroup g p s) :=
  ⟨fun _ _ _ => rfl, fun _ _ _ => rfl, fun _ _ _ => rfl, fun _ _ _ => rfl, fun _ _ _ => rfl, fun _ _ _ => rfl, fun _ _ _ => rfl, fun _ _ _ => rfl, fun _ _ _ => rfl, fun _ _ _ => rfl, fun _ _ _ => rfl, fun _ _ _ => rfl, fun _ _ _ => rfl, fun _ _ _ => rfl, fun _ _ _ => rfl, fun _ _ _ => rfl, fun _ _ _ => rfl, fun _ _ _ => rfl, fun _ _ _ => rfl, fun _ _ _ => rfl, fun _ _ _ => rfl, fun _ _ _ => rfl⟩

/-- C50. Every group of a result is passed to one of the methods, with its own report part and text:
the value returned for no alternative is never returned. -/
theorem C50_total {T : Type} [Inhabited T] (v : Visitor T) (gi : GroupInfo) :
    (∃ g, gi.group = .keyword g ∧ v.visitInfo gi = v.visitKeywordGroup g gi.reportPart gi.rawString) ∨
    (∃ g, gi.group = .location g ∧ v.visitInfo gi = v.visitLocationGroup g gi.reportPart gi.rawString) ∨
    (∃ g, gi.group = .reportTime g ∧ v.visitInfo gi = v.visitReportTimeGroup g gi.reportPart gi.rawString) ∨
    (∃ g, gi.group = .trend g ∧ v.visitInfo gi = v.visitTrendGroup g gi.reportPart gi.rawString) ∨
    (∃ g, gi.group = .wind g ∧ v.visitInfo gi = v.visitWindGroup g gi.reportPart gi.rawString) ∨
    (∃ g, gi.group = .visibility g ∧ v.visitInfo gi = v.visitVisibilityGroup g gi.reportPart gi.rawString) ∨
    (∃ g, gi.group = .cloud g ∧ v.visitInfo gi = v.visitCloudGroup g gi.reportPart gi.rawString) ∨
    (∃ g, gi.group = .weather g ∧ v.visitInfo gi = v.visitWeatherGroup g gi.reportPart gi.rawString) ∨
    (∃ g, gi.group = .temperature g ∧ v.visitInfo gi = v.visitTemperatureGroup g gi.reportPart gi.rawString) ∨
    (∃ g, gi.group = .pressure g ∧ v.visitInfo gi = v.visitPressureGroup g gi.reportPart gi.rawString) ∨
    (∃ g, gi.group = .runwayState g ∧ v.visitInfo gi = v.visitRunwayStateGroup g gi.reportPart gi.rawString) ∨
    (∃ g, gi.group = .seaSurface g ∧ v.visitInfo gi = v.visitSeaSurfaceGroup g gi.reportPart gi.rawString) ∨
    (∃ g, gi.group = .minMaxTemperature g ∧ v.visitInfo gi = v.visitMinMaxTemperatureGroup g gi.reportPart gi.rawString) ∨
    (∃ g, gi.group = .precipitation g ∧ v.visitInfo gi = v.visitPrecipitationGroup g gi.reportPart gi.rawString) ∨
    (∃ g, gi.group = .layerForecast g ∧ v.visitInfo gi = v.visitLayerForecastGroup g gi.reportPart gi.rawString) ∨
    (∃ g, gi.group = .pressureTendency g ∧ v.visitInfo gi = v.visitPressureTendencyGroup g gi.reportPart gi.rawString) ∨
    (∃ g, gi.group = .cloudTypes g ∧ v.visitInfo gi = v.visitCloudTypesGroup g gi.reportPart gi.rawString) ∨
    (∃ g, gi.group = .lowMidHighCloud g ∧ v.visitInfo gi = v.visitLowMidHighCloudGroup g gi.reportPart gi.rawString) ∨
    (∃ g, gi.group = .lightning g ∧ v.visitInfo gi = v.visitLightningGroup g gi.reportPart gi.rawString) ∨
    (∃ g, gi.group = .vicinity g ∧ v.visitInfo gi = v.visitVicinityGroup g gi.reportPart gi.rawString) ∨
    (∃ g, gi.group = .misc g ∧ v.visitInfo gi = v.visitMiscGroup g gi.reportPart gi.rawString) ∨
    (∃ g, gi.group = .unknown g ∧ v.visitInfo gi = v.visitUnknownGroup g gi.reportPart gi.rawString) := by
  obtain ⟨g, p, s⟩ := gi
  cases g <;> simp [Visitor.visitInfo, Visitor.visit, Group.getIfKeyword, Group.getIfLocation,
    Group.getIfReportTime, Group.getIfTrend, Group.getIfWind, Group.getIfVisibility,
    Group.getIfCloud, Group.getIfWeather, Group.getIfTemperature, Group.getIfPressure,
    Group.getIfRunwayState, Group.getIfSeaSurface, Group.getIfMinMaxTemperature,
    Group.getIfPrecipitation, Group.getIfLayerForecast, Group.getIfPressureTendency,
    Group.getIfCloudTypes, Group.getIfLowMidHighCloud, Group.getIfLightning, Group.getIfVicinity,
    Group.getIfMisc, Group.getIfUnknown]
  rename_i g
  exact ⟨g⟩

/-- A visitor that writes down what it is called with. -/
def recorder : Visitor (List GroupInfo → List GroupInfo) where
  visitKeywordGroup g p s log := log ++ [⟨.keyword g, p, s⟩]
  visitLocationGroup g p s log := log ++ [⟨.location g, p, s⟩]
  visitReportTimeGroup g p s log := log ++ [⟨.reportTime g, p, s⟩]
  visitTrendGroup g p s log := log ++ [⟨.trend g, p, s⟩]
  visitWindGroup g p s log := log ++ [⟨.wind g, p, s⟩]
  visitVisibilityGroup g p s log := log ++ [⟨.visibility g, p, s⟩]
  visitCloudGroup g p s log := log ++ [⟨.cloud g, p, s⟩]
  visitWeatherGroup g p s log := log ++ [⟨.weather g, p, s⟩]
  visitTemperatureGroup g p s log := log ++ [⟨.temperature g, p, s⟩]
  visitPressureGroup g p s log := log ++ [⟨.pressure g, p, s⟩]
  visitRunwayStateGroup g p s log := log ++ [⟨.runwayState g, p, s⟩]
  visitSeaSurfaceGroup g p s log := log ++ [⟨.seaSurface g, p, s⟩]
  visitMinMaxTemperatureGroup g p s log := log ++ [⟨.minMaxTemperature g, p, s⟩]
  visitPrecipitationGroup g p s log := log ++ [⟨.precipitation g, p, s⟩]
  visitLayerForecastGroup g p s log := log ++ [⟨.layerForecast g, p, s⟩]
  visitPressureTendencyGroup g p s log := log ++ [⟨.pressureTendency g, p, s⟩]
  visitCloudTypesGroup g p s log := log ++ [⟨.cloudTypes g, p, s⟩]
  visitLowMidHighCloudGroup g p s log := log ++ [⟨.lowMidHighCloud g, p, s⟩]
  visitLightningGroup g p s log := log ++ [⟨.lightning g, p, s⟩]
  visitVicinityGroup g p s log := log ++ [⟨.vicinity g, p, s⟩]
  visitMiscGroup g p s log := log ++ [⟨.misc g, p, s⟩]
  visitUnknownGroup g p s log := log ++ [⟨.unknown g, p, s⟩]

/-- C50. Visiting the groups of a result one after the other calls the methods in the order of the
groups, once for each group, with its value, its report part and its text. -/
theorem C50_in_order (report : Str) (limit : Nat) (r : ParseResult) (_hr : Result report limit r)
    (log : List GroupInfo) :
    r.groups.foldl (fun log gi => recorder.visitInfo gi log) log = log ++ r.groups := by
  have one : ∀ gi log, recorder.visitInfo gi log = log ++ [gi] := by
    intro gi log
    obtain ⟨g, p, s⟩ := gi
    cases g <;> rfl
  clear _hr
  induction r.groups generalizing log with
  | nil => simp
  | cons gi gs ih => rw [List.foldl_cons, one, ih]; simp

section
attribute [local instance] exactFloat

example : ∃ r : ParseResult, Result c!"METAR ZZZZ 041115Z CAVOK" 200 r ∧
    (r.groups.foldl (fun log gi => recorder.visitInfo gi log) []).map (·.group.index) =
      [0, 1, 2, 0] := by
  refine ⟨{ reportMetadata := _, groups := _ }, rfl, ?_⟩
  decide +kernel

end

end Metaf.Props

import Verif.Spec.Reading
import Verif.Props.Kinds
import Verif.Props.MinMax
import Verif.Proofs.Inert

/-!
Lemmas on the reading of words as groups in the body of a report.
-/

set_option linter.unusedSectionVars false

namespace Metaf

open Spec

variable [FloatSem]

/-- The parts which form the body of a report. -/
def isBody (p : ReportPart) : Prop := p = .METAR ∨ p = .TAF

/-- In the body recognition depends on nothing said before. -/
theorem recognise_md {p : ReportPart} (hp : isBody p) (i : Nat) (s : Str) (md md' : ReportMetadata) :
    recognise i s p md = recognise i s p md' := by
  unfold recognise
  rcases hp with rfl | rfl <;> rfl

/-- What the groups found in the body look like. -/
def Plain (p : ReportPart) : Group → Prop
  | .keyword _ | .trend _ | .runwayState _ | .seaSurface _ | .layerForecast _ => True
  | .wind x => x.windType ≠ .WIND_SHIFT ∧
      (x.incompleteText = .NONE ∨ x.incompleteText = .WS ∨ x.incompleteText = .WS_ALL)
  | .visibility x => x.incompleteText = .NONE ∨ x.incompleteText = .INTEGER
  | .cloud x => x.incompleteText = .NONE
  | .weather x => x.incompleteText = .NONE
  | .temperature x => x.isIncomplete = false
  | .pressure x => x.isIncomplete = false
  | .minMaxTemperature x => x.t = .FORECAST ∧ p = .TAF ∧ x.Inv ∧
      (x.minTemp.isReported = true ∨ x.maxTemp.isReported = true)
  | .precipitation x => x.precType = .RAINFALL_9AM_10MIN
  | .misc x => x.incompleteText = .NONE
  | _ => False

theorem windPlain {s : Str} {p : ReportPart} (hp : isBody p) {g : WindGroup}
    (h : WindGroup.parse s p = some g) :
    g.windType ≠ .WIND_SHIFT ∧ (g.incompleteText = .NONE ∨ (g.incompleteText = .WS ∧ s = c!"WS")) := by
  have key : ∀ {g}, (match WindGroup.parseVariableSector s with
      | some g => some g
      | none => WindGroup.parseWind s) = some g → g.windType ≠ .WIND_SHIFT ∧ g.incompleteText = .NONE := by
    intro g h
    cases hv : WindGroup.parseVariableSector s with
    | some x =>
      rw [hv] at h
      obtain rfl := Option.some.inj h
      unfold WindGroup.parseVariableSector at hv
      split at hv
      · cases hv
      · split at hv
        · cases hv
        · split at hv
          · cases hv
          · obtain rfl := Option.some.inj hv
            exact ⟨nofun, rfl⟩
    | none =>
      rw [hv] at h
      simp only [WindGroup.parseWind] at h
      split at h
      · cases h
      · split at h
        · cases h
        · split at h
          · cases h
          · split at h
            · obtain rfl := Option.some.inj h
              exact ⟨nofun, rfl⟩
            · split at h
              · cases h
              · split at h
                · obtain rfl := Option.some.inj h
                  exact ⟨nofun, rfl⟩
                · obtain rfl := Option.some.inj h
                  exact ⟨nofun, rfl⟩
  unfold WindGroup.parse at h
  rcases hp with rfl | rfl
  · simp only [true_and, false_and, if_false, reduceCtorEq, ne_eq, not_true_eq_false] at h
    split at h
    · rename_i hs
      obtain rfl := Option.some.inj h
      exact ⟨nofun, Or.inr ⟨rfl, hs⟩⟩
    · exact ⟨(key h).1, Or.inl (key h).2⟩
  · simp only [true_and, false_and, if_false, reduceCtorEq, ne_eq, not_true_eq_false, and_false] at h
    split at h
    · obtain rfl := Option.some.inj h
      exact ⟨nofun, Or.inl rfl⟩
    · exact ⟨(key h).1, Or.inl (key h).2⟩

theorem visibilityPlain {s : Str} {p : ReportPart} (hp : isBody p) {g : VisibilityGroup}
    (h : VisibilityGroup.parse s p = some g) :
    g.incompleteText = .NONE ∨ (g.incompleteText = .INTEGER ∧ Unfinished [s]) := by
  have inc : ∀ {x}, VisibilityGroup.fromIncompleteInteger s = some x →
      x.incompleteText = .INTEGER ∧ Unfinished [s] := by
    intro x hx
    obtain ⟨k, n, hk, -, rfl, hg⟩ := (Props.incompleteInteger_iff s x).mp hx
    refine ⟨by rw [hg], ?_⟩
    rcases hk with rfl | rfl
    · exact .miles1 (digitChar_isDigit (Nat.mod_lt _ (by decide)))
    · exact .miles2 (digitChar_isDigit (Nat.mod_lt _ (by decide))) (digitChar_isDigit (Nat.mod_lt _ (by decide)))
  have met : ∀ {x}, VisibilityGroup.fromMeters s = some x → x.incompleteText = .NONE := by
    intro x hx
    obtain ⟨v, y, d, t, o, -, -, -, rfl⟩ := (Props.C47_visibility_meters s x).mp hx
    rfl
  have rvr : ∀ {x}, VisibilityGroup.fromRvr s = some x → x.incompleteText = .NONE := by
    intro x hx
    obtain ⟨v, -, -, rfl⟩ := (Props.C47_runway_visual_range s x).mp hx
    rfl
  unfold VisibilityGroup.parse at h
  rcases hp with rfl | rfl
  all_goals
    simp only at h
    cases h1 : VisibilityGroup.fromIncompleteInteger s with
    | some x => rw [h1] at h; obtain rfl := Option.some.inj h; exact Or.inr (inc h1)
    | none =>
      rw [h1] at h
      cases h2 : VisibilityGroup.fromMeters s with
      | some x => rw [h2] at h; obtain rfl := Option.some.inj h; exact Or.inl (met h2)
      | none =>
        rw [h2] at h
        cases h3 : Distance.fromMileString s with
        | some x => rw [h3] at h; obtain rfl := Option.some.inj h; exact Or.inl rfl
        | none =>
          rw [h3] at h
          first
            | exact Or.inl (rvr h)
            | cases h

theorem cloudPlain {s : Str} {p : ReportPart} (hp : isBody p) {g : CloudGroup}
    (h : CloudGroup.parse s p = some g) : g.incompleteText = .NONE := by
  have key : CloudGroup.parseCloudLayerOrVertVis s = some g → g.incompleteText = .NONE := by
    intro h
    unfold CloudGroup.parseCloudLayerOrVertVis at h
    ite_cases h
    iterate 4 (obtain rfl := Option.some.inj h; rfl)
    split at h
    · cases h
    · split at h
      · cases h
      · split at h
        · cases h
        · split at h
          · cases h
          · split at h
            · cases h
            · obtain rfl := Option.some.inj h; rfl
  rcases hp with rfl | rfl <;> exact key h

theorem weatherPlain {s : Str} {p : ReportPart} (hp : isBody p) {md : ReportMetadata} {g : WeatherGroup}
    (h : WeatherGroup.parse s p md = .ok (some g)) : g.incompleteText = .NONE := by
  unfold WeatherGroup.parse at h
  rcases hp with rfl | rfl
  all_goals
    simp only at h
    split at h
    · obtain rfl := Option.some.inj (Except.ok.inj h); rfl
    · split at h
      · cases h
      · obtain rfl := Option.some.inj (Except.ok.inj h); rfl

theorem temperaturePlain {s : Str} {p : ReportPart} (hp : isBody p) {g : TemperatureGroup}
    (h : TemperatureGroup.parse s p = some g) : g.isIncomplete = false := by
  unfold TemperatureGroup.parse at h
  rcases hp with rfl | rfl
  · simp only at h
    split at h
    · cases h
    · simp only [TemperatureGroup.fromMatch] at h
      split at h
      · cases h
      · split at h
        · obtain rfl := Option.some.inj h; rfl
        · split at h
          · cases h
          · obtain rfl := Option.some.inj h; rfl
  · cases h

theorem pressurePlain {s : Str} {p : ReportPart} (hp : isBody p) {g : PressureGroup}
    (h : PressureGroup.parse s p = some g) : g.isIncomplete = false := by
  unfold PressureGroup.parse at h
  rcases hp with rfl | rfl
  all_goals
    simp only at h
    split at h
    · obtain rfl := Option.some.inj h; rfl
    · cases h

theorem forecast_reported {s : Str} {g : MinMaxTemperatureGroup}
    (h : MinMaxTemperatureGroup.fromForecast s = some g) :
    g.minTemp.isReported = true ∨ g.maxTemp.isReported = true := by
  obtain ⟨f, -, -, rfl⟩ := (Props.fromForecast_iff s g).mp h
  obtain ⟨l, b, n, d, t⟩ := f
  cases l
  all_goals first
    | exact Or.inl rfl
    | exact Or.inr rfl

theorem minMaxPlain {s : Str} {p : ReportPart} (hp : isBody p) {g : MinMaxTemperatureGroup}
    (h : MinMaxTemperatureGroup.parse s p = some g) : g.t = .FORECAST ∧ p = .TAF ∧ g.Inv ∧
      (g.minTemp.isReported = true ∨ g.maxTemp.isReported = true) := by
  unfold MinMaxTemperatureGroup.parse at h
  rcases hp with rfl | rfl
  · cases h
  · simp only at h
    refine ⟨?_, rfl, MinMaxTemperatureGroup.fromForecast_inv h, forecast_reported h⟩
    unfold MinMaxTemperatureGroup.fromForecast at h
    split at h
    · cases h
    · split at h
      · cases h
      · split at h
        · cases h
        · ite_cases h <;> (obtain rfl := Option.some.inj h; rfl)

theorem precipitationPlain {s : Str} {p : ReportPart} (hp : isBody p) {md : ReportMetadata}
    {g : PrecipitationGroup} (h : PrecipitationGroup.parse s p md = some g) :
    g.precType = .RAINFALL_9AM_10MIN := by
  unfold PrecipitationGroup.parse at h
  rcases hp with rfl | rfl
  · simp only at h
    split at h
    · cases h
    · split at h
      · cases h
      · split at h
        · cases h
        · obtain rfl := Option.some.inj h; rfl
  · cases h

theorem miscPlain {s : Str} {p : ReportPart} (hp : isBody p) {g : MiscGroup}
    (h : MiscGroup.parse s p = some g) : g.incompleteText = .NONE := by
  unfold MiscGroup.parse at h
  rcases hp with rfl | rfl
  · simp only at h
    split at h
    · obtain rfl := Option.some.inj h; rfl
    · split at h
      · obtain rfl := Option.some.inj h; rfl
      · cases h
  · simp only at h
    split at h
    · obtain rfl := Option.some.inj h; rfl
    · cases h

theorem map_some {α β : Type} {f : α → β} {o : Option α} {b : β}
    (h : (.ok (o.map f) : Res (Option β)) = .ok (some b)) : ∃ a, o = some a ∧ b = f a := by
  obtain ⟨a, ha, rfl⟩ := Option.map_eq_some_iff.mp (Except.ok.inj h)
  exact ⟨a, ha, rfl⟩

theorem recognise_plain {i : Nat} {s : Str} {p : ReportPart} (hp : isBody p) {md : ReportMetadata}
    {g : Group} (h : recognise i s p md = .ok (some g)) : Plain p g := by
  have hi := (Props.recognise_shape h).1
  interval_cases i
  · obtain ⟨x, -, rfl⟩ := map_some h; trivial
  · obtain ⟨x, hx, rfl⟩ := map_some h; rcases hp with rfl | rfl <;> cases hx
  · obtain ⟨x, hx, rfl⟩ := map_some h; rcases hp with rfl | rfl <;> cases hx
  · obtain ⟨x, -, rfl⟩ := map_some h; trivial
  · obtain ⟨x, hx, rfl⟩ := map_some h
    obtain ⟨h1, h2 | ⟨h2, -⟩⟩ := windPlain hp hx
    · exact ⟨h1, Or.inl h2⟩
    · exact ⟨h1, Or.inr (Or.inl h2)⟩
  · obtain ⟨x, hx, rfl⟩ := map_some h
    rcases visibilityPlain hp hx with h2 | ⟨h2, -⟩
    · exact Or.inl h2
    · exact Or.inr h2
  · obtain ⟨x, hx, rfl⟩ := map_some h; exact cloudPlain hp hx
  · simp only [recognise] at h
    split at h
    · cases h
    · rename_i r hr
      obtain ⟨x, rfl, rfl⟩ := map_some h
      exact weatherPlain hp hr
  · obtain ⟨x, hx, rfl⟩ := map_some h; exact temperaturePlain hp hx
  · obtain ⟨x, hx, rfl⟩ := map_some h; exact pressurePlain hp hx
  · obtain ⟨x, -, rfl⟩ := map_some h; trivial
  · obtain ⟨x, -, rfl⟩ := map_some h; trivial
  · obtain ⟨x, hx, rfl⟩ := map_some h; exact minMaxPlain hp hx
  · obtain ⟨x, hx, rfl⟩ := map_some h; exact precipitationPlain hp hx
  · obtain ⟨x, -, rfl⟩ := map_some h; trivial
  · obtain ⟨x, hx, rfl⟩ := map_some h; rcases hp with rfl | rfl <;> cases hx
  · obtain ⟨x, hx, rfl⟩ := map_some h; rcases hp with rfl | rfl <;> cases hx
  · obtain ⟨x, hx, rfl⟩ := map_some h; rcases hp with rfl | rfl <;> cases hx
  · obtain ⟨x, hx, rfl⟩ := map_some h; rcases hp with rfl | rfl <;> cases hx
  · obtain ⟨x, hx, rfl⟩ := map_some h; rcases hp with rfl | rfl <;> cases hx
  · obtain ⟨x, hx, rfl⟩ := map_some h; exact miscPlain hp hx

/-- A group which waits for more words. -/
def Waits : Group → Prop
  | .wind x => x.incompleteText ≠ .NONE
  | .visibility x => x.incompleteText ≠ .NONE
  | _ => False

theorem recognise_trend {s : Str} {p : ReportPart} {md : ReportMetadata}
    (h : ∀ g, recognise 3 s p md ≠ .ok (some g)) : TrendGroup.parse s p = none := by
  cases hx : TrendGroup.parse s p with
  | none => rfl
  | some x => exact absurd (by simp [recognise, hx]) (h (.trend x))

theorem recognise_sector {s : Str} {p : ReportPart} (hp : isBody p) {md : ReportMetadata}
    (h : ∀ g, recognise 4 s p md ≠ .ok (some g)) : WindGroup.parseVariableSector s = none := by
  have hw : WindGroup.parse s p = none := by
    cases hx : WindGroup.parse s p with
    | none => rfl
    | some x => exact absurd (by simp [recognise, hx]) (h (.wind x))
  cases hv : WindGroup.parseVariableSector s with
  | none => rfl
  | some x =>
    exfalso
    unfold WindGroup.parse at hw
    rcases hp with rfl | rfl
    · simp only [true_and, false_and, if_false, reduceCtorEq, ne_eq, not_true_eq_false, hv] at hw
      split at hw <;> cases hw
    · simp only [true_and, false_and, if_false, reduceCtorEq, ne_eq, not_true_eq_false, and_false, hv] at hw
      split at hw <;> cases hw

theorem recognise_weather {s : Str} {p : ReportPart} (hp : isBody p) {md : ReportMetadata}
    (h : ∀ g, recognise 7 s p md ≠ .ok (some g)) : WeatherGroup.parseWeatherWithoutEvent s p = none := by
  cases hv : WeatherGroup.parseWeatherWithoutEvent s p with
  | none => rfl
  | some x =>
    exfalso
    have hw : ∃ g, WeatherGroup.parse s p md = .ok (some g) := by
      unfold WeatherGroup.parse
      rcases hp with rfl | rfl
      all_goals
        simp only [hv]
        split <;> exact ⟨_, rfl⟩
    obtain ⟨g, hg⟩ := hw
    exact h (.weather g) (by simp [recognise, hg])

theorem recognise_forecast {s : Str} {md : ReportMetadata}
    (h : ∀ g, recognise 12 s .TAF md ≠ .ok (some g)) : MinMaxTemperatureGroup.fromForecast s = none := by
  cases hv : MinMaxTemperatureGroup.fromForecast s with
  | none => rfl
  | some x => exact absurd (by simp [recognise, MinMaxTemperatureGroup.parse, hv]) (h (.minMaxTemperature x))

/-- A group which waits for nothing does not take a text of another kind. -/
theorem plain_reject {p : ReportPart} (hp : isBody p) {md : ReportMetadata} {g : Group} {s : Str}
    (hg : Plain p g) (hw : ¬ Waits g) (h : ∀ g', recognise g.index s p md ≠ .ok (some g')) :
    g.append s p md = .ok (g, .NOT_APPENDED) := by
  cases g with
  | keyword x => rfl
  | location x => rfl
  | reportTime x => rfl
  | trend x =>
    have := recognise_trend h
    simp only [Group.append, TrendGroup.append, this]
    split <;> rfl
  | wind x =>
    have hn : x.incompleteText = .NONE := Decidable.not_not.mp hw
    have := recognise_sector hp h
    simp only [Group.append, WindGroup.append, hn, WindGroup.appendVariableSector, this]
    cases ht : x.windType with
    | WIND_SHIFT => exact absurd ht hg.1
    | _ => rfl
  | visibility x =>
    have hn : x.incompleteText = .NONE := Decidable.not_not.mp hw
    simp only [Group.append, VisibilityGroup.append, hn]
  | cloud x =>
    have hn : x.incompleteText = .NONE := hg
    simp only [Group.append, CloudGroup.append, hn]
  | weather x =>
    have hn : x.incompleteText = .NONE := hg
    have := recognise_weather hp h
    simp only [Group.append, WeatherGroup.append, hn, this]
    split <;> rfl
  | temperature x =>
    have hn : x.isIncomplete = false := hg
    simp only [Group.append, TemperatureGroup.append, hn, Bool.false_and, Bool.false_eq_true, if_false]
  | pressure x =>
    have hn : x.isIncomplete = false := hg
    simp only [Group.append, PressureGroup.append, hn, Bool.false_and, Bool.false_eq_true, if_false]
  | runwayState x => rfl
  | seaSurface x => rfl
  | minMaxTemperature x =>
    obtain ⟨ht, rfl, -⟩ := hg
    have := recognise_forecast h
    simp only [Group.append, MinMaxTemperatureGroup.append, ht, MinMaxTemperatureGroup.appendForecast, this,
      ite_self]
  | precipitation x =>
    have hn : x.precType = .RAINFALL_9AM_10MIN := hg
    simp [Group.append, PrecipitationGroup.append, hn]
  | layerForecast x => rfl
  | misc x =>
    have hn : x.incompleteText = .NONE := hg
    simp only [Group.append, MiscGroup.append, hn]
  | _ => exact hg.elim

theorem appendForecast_type {g : MinMaxTemperatureGroup} {s : Str}
    {r : MinMaxTemperatureGroup × AppendResult} (h : g.appendForecast s = .ok r) : r.1.t = g.t := by
  have hite : ∀ (c : Prop) [Decidable c] (a b : MinMaxTemperatureGroup), a.t = g.t → b.t = g.t →
      (if c then a else b).t = g.t := by
    intro c _ a b ha hb
    split
    · exact ha
    · exact hb
  simp only [MinMaxTemperatureGroup.appendForecast] at h
  split at h
  · obtain rfl := Except.ok.inj h; rfl
  · split at h
    · obtain rfl := Except.ok.inj h; rfl
    · rename_i n hn
      split at h
      · obtain rfl := Except.ok.inj h; rfl
      · split at h
        · split at h
          · obtain rfl := Except.ok.inj h; rfl
          · split at h
            · obtain rfl := Except.ok.inj h; rfl
            · have h1 : ∀ (c : Prop) [Decidable c] (x : MinMaxTemperatureGroup),
                  (if c then (.ok (x, .NOT_APPENDED) : Res (MinMaxTemperatureGroup × AppendResult))
                    else .ok (x, .APPENDED)) = .ok r → r.1 = x := by
                intro c _ x hx
                split at hx
                · rw [← Except.ok.inj hx]
                · rw [← Except.ok.inj hx]
              rw [h1 _ _ h]
              repeat' apply hite
              all_goals rfl
        · split at h
          · obtain rfl := Except.ok.inj h; rfl
          · split at h
            · split at h
              · obtain rfl := Except.ok.inj h; rfl
              · obtain rfl := Except.ok.inj h; rfl
            · cases h

/-- A forecast temperature that takes a word is complete, and one that does not is not changed. -/
theorem appendForecast_reported {g : MinMaxTemperatureGroup} {s : Str}
    {r : MinMaxTemperatureGroup × AppendResult} (hi : g.Inv)
    (hg : g.minTemp.isReported = true ∨ g.maxTemp.isReported = true) (h : g.appendForecast s = .ok r) :
    (r.2 = .APPENDED → r.1.minTemp.isReported = true ∨ r.1.maxTemp.isReported = true) ∧
      (r.2 = .NOT_APPENDED → r.1 = g) := by
  simp only [MinMaxTemperatureGroup.appendForecast] at h
  split at h
  · obtain rfl := Except.ok.inj h; exact ⟨nofun, fun _ => rfl⟩
  · split at h
    · obtain rfl := Except.ok.inj h; exact ⟨nofun, fun _ => rfl⟩
    · rename_i hc n hn
      have hnr := forecast_reported hn
      split at h
      · obtain rfl := Except.ok.inj h; exact ⟨nofun, fun _ => rfl⟩
      · split at h
        · cases e1 : g.minTemp.isReported <;> cases e2 : g.maxTemp.isReported <;>
            cases e3 : n.minTemp.isReported <;> cases e4 : n.maxTemp.isReported <;>
            simp only [e1, e2, e3, e4, Bool.and_true, Bool.and_false,
              Bool.not_true, Bool.not_false, Bool.or_true, Bool.or_false, if_true, if_false, Bool.false_eq_true, or_self] at h hg hnr <;>
            (obtain rfl := Except.ok.inj h) <;> simp [e1, e2, e3, e4]
        · rename_i hinc
          obtain ⟨i1, i2⟩ := hi (by simpa using hinc)
          split at h
          · obtain rfl := Except.ok.inj h; exact ⟨fun _ => Or.inr i1, nofun⟩
          · split at h
            · split at h
              · obtain rfl := Except.ok.inj h; exact ⟨fun _ => Or.inr i1, nofun⟩
              · obtain rfl := Except.ok.inj h; exact ⟨fun _ => Or.inl i1, nofun⟩
            · cases h

/-- A group that takes a word keeps its form. -/
theorem plain_append {p : ReportPart} (hp : isBody p) {md : ReportMetadata} {g g' : Group} {s : Str}
    (hg : Plain p g) (h : g.append s p md = .ok (g', .APPENDED)) : Plain p g' := by
  cases g with
  | keyword x => cases h
  | location x => cases h
  | reportTime x => cases h
  | trend x =>
    simp only [Group.append, Except.ok.injEq, Prod.mk.injEq] at h
    rw [← h.1]
    trivial
  | wind x =>
    simp only [Group.append, Except.ok.injEq, Prod.mk.injEq] at h
    obtain ⟨rfl, h⟩ := h
    obtain ⟨ht, hi⟩ := hg
    simp only [WindGroup.append] at h ⊢
    rcases hi with hi | hi | hi
    · rw [hi] at h ⊢
      cases hwt : x.windType with
      | WIND_SHIFT => exact absurd hwt ht
      | SURFACE_WIND =>
        simp only [hwt, WindGroup.appendVariableSector] at h ⊢
        split at h
        · exact ⟨nofun, Or.inl hi⟩
        · cases h
      | _ => simp only [hwt] at h; cases h
    · rw [hi] at h ⊢
      simp only at h ⊢
      by_cases ha : s = c!"ALL"
      · rw [if_pos ha]
        exact ⟨ht, Or.inr (Or.inr rfl)⟩
      · rw [if_neg ha] at h ⊢
        split
        · exact ⟨ht, Or.inl rfl⟩
        · exact ⟨ht, Or.inr (Or.inl hi)⟩
    · rw [hi] at h ⊢
      simp only at h ⊢
      by_cases ha : s ≠ c!"RWY"
      · rw [if_pos ha] at h; cases h
      · rw [if_neg ha]
        exact ⟨ht, Or.inl rfl⟩
  | visibility x =>
    simp only [Group.append, Except.ok.injEq, Prod.mk.injEq] at h
    obtain ⟨rfl, h⟩ := h
    simp only [VisibilityGroup.append] at h ⊢
    rcases hg with hi | hi
    · rw [hi] at h; cases h
    · rw [hi] at h ⊢
      simp only [VisibilityGroup.firstOf] at h ⊢
      cases hf : VisibilityGroup.appendFractionToIncompleteInteger x s with
      | none => simp only [hf] at h; cases h
      | some y =>
        simp only
        unfold VisibilityGroup.appendFractionToIncompleteInteger at hf
        split at hf
        · cases hf
        · split at hf
          · cases hf
          · obtain rfl := Option.some.inj hf
            exact Or.inl rfl
  | cloud x =>
    have hn : x.incompleteText = .NONE := hg
    simp only [Group.append, CloudGroup.append, hn] at h
    cases h
  | weather x =>
    have hn : x.incompleteText = .NONE := hg
    simp only [Group.append, Except.ok.injEq, Prod.mk.injEq] at h
    obtain ⟨rfl, h⟩ := h
    simp only [WeatherGroup.append, hn] at h ⊢
    split
    · exact hn
    · split
      · exact hn
      · split
        · exact hn
        · split
          · exact hn
          · split
            · exact hn
            · rename_i y hy
              unfold WeatherGroup.addWeatherPhenomena at hy
              split at hy
              · cases hy
              · obtain rfl := Option.some.inj hy
                exact hn
  | temperature x =>
    have hn : x.isIncomplete = false := hg
    simp only [Group.append, TemperatureGroup.append, hn, Bool.false_and, Bool.false_eq_true, if_false] at h
    cases h
  | pressure x =>
    have hn : x.isIncomplete = false := hg
    simp only [Group.append, PressureGroup.append, hn, Bool.false_and, Bool.false_eq_true, if_false] at h
    cases h
  | runwayState x => cases h
  | seaSurface x => cases h
  | minMaxTemperature x =>
    obtain ⟨ht, rfl, hinv, hrep⟩ := hg
    obtain ⟨r, hr, hri⟩ := MinMaxTemperatureGroup.append_ok hinv s
    simp only [Group.append, hr, Except.ok.injEq, Prod.mk.injEq] at h
    obtain ⟨rfl, h⟩ := h
    simp only [MinMaxTemperatureGroup.append, ht] at hr
    exact ⟨by rw [appendForecast_type hr, ht], rfl, hri, (appendForecast_reported hinv hrep hr).1 h⟩
  | precipitation x =>
    have hn : x.precType = .RAINFALL_9AM_10MIN := hg
    simp [Group.append, PrecipitationGroup.append, hn] at h
  | layerForecast x => cases h
  | misc x =>
    have hn : x.incompleteText = .NONE := hg
    simp only [Group.append, MiscGroup.append, hn] at h
    cases h
  | _ => exact hg.elim

end Metaf

import Verif.Props.Division
import Verif.Props.MinMax
import Verif.Props.Visibility

/-!
C71: which groups of a report body `isValid()` rejects, in terms of the texts only.
-/

set_option linter.unusedSectionVars false

namespace Metaf.Props

open Metaf Metaf.Spec

variable [FloatIeee]

/-- The result of `isValid()` of the group held by the variant `Group` (metaf.hpp:62-85), as called
through `std::visit`. The member functions are cited in the model. -/
def groupValid : Group → Res Bool
  | .keyword g => .ok g.isValid
  | .location g => .ok g.isValid
  | .reportTime g => .ok g.isValid
  | .trend g => .ok g.isValid
  | .wind g => .ok g.isValid
  | .visibility g => .ok g.isValid
  | .cloud g => .ok g.isValid
  | .weather g => g.isValid
  | .temperature g => .ok g.isValid
  | .pressure g => .ok g.isValid
  | .runwayState g => .ok g.isValid
  | .seaSurface g => .ok g.isValid
  | .minMaxTemperature g => .ok g.isValid
  | .precipitation g => .ok g.isValid
  | .layerForecast g => .ok g.isValid
  | .pressureTendency g => .ok g.isValid
  | .cloudTypes g => .ok g.isValid
  | .lowMidHighCloud g => .ok g.isValid
  | .lightning g => .ok g.isValid
  | .vicinity g => .ok g.isValid
  | .misc g => .ok g.isValid
  | .unknown g => .ok g.isValid

/-! ### Specification -/

/-- Day (if written), hour and minute which can occur. The hour 24 is used for midnight. -/
def TimeWrong (day : Option Nat) (hour minute : Nat) : Prop :=
  (∃ d ∈ day, d = 0 ∨ 31 < d) ∨ 24 < hour ∨ 59 < minute

/-- A word of a trend with a time which cannot occur. -/
def TrendWrong : TrendWord → Prop
  | .span d h d' h' => TimeWrong (some d) h 0 ∨ TimeWrong (some d') h' 0
  | .spanMinutes h m h' m' => TimeWrong none h m ∨ TimeWrong none h' m'
  | .fromDay d h m => TimeWrong (some d) h m
  | .from h m | .until h m | .at h m => TimeWrong none h m
  | _ => False

/-- No such runway: the number exceeds 36 and is not one of 88 and 99 without designator. -/
def RunwayWrong (r : Runway) : Prop :=
  36 < r.rNumber ∧ ¬ ((r.rNumber = 88 ∨ r.rNumber = 99) ∧ r.rDesignator = .NONE)

/-- Wind from beyond 360 degrees, gusts of zero or not above the wind speed, wind shear at the ground, or
a wind of 999 without gusts. -/
def WindWrong (w : WindText) : Prop :=
  (∃ n, w.dir = .tens n ∧ 36 < n) ∨ (∃ x, w.gust = some x ∧ (x = 0 ∨ ∃ v, w.speed = some v ∧ x ≤ v)) ∨
  w.shear = some 0 ∨ (w.gust = none ∧ w.speed = some 999)

/-- Runway visual range of a runway which does not exist, or a range which is not from less to more. -/
def RvrWrong (v : RvrText) : Prop :=
  (∃ r, v.runway = some r ∧ RunwayWrong r) ∨
  ∃ m b, v.max = some (m, b) ∧ (v.value = none ∨ ∃ l a, v.value = some (l, a) ∧ b < a)

/-- The number of degrees with its sign. -/
def signed (f : ForecastTemperature) : Int := if f.below then -(f.degrees : Int) else f.degrees

/-- `Faulty p ws`: the words `ws`, which are a group in the body `p` of a report, say something which
cannot be, or are not complete. -/
inductive Faulty (p : ReportPart) : List Str → Prop
  | shear : p = .METAR → Faulty p [c!"WS"]
  | shearAll : p = .METAR → Faulty p [c!"WS", c!"ALL"]
  | wholeMiles {k n} : k = 1 ∨ k = 2 → n < 10 ^ k → Faulty p [decimal k n]
  | probability {w : TrendWord} : p = .TAF → w.isProbability = true → Faulty p [w.text]
  | trendTime {ws w} : TrendSentence p ws → w ∈ ws → TrendWrong w → Faulty p (ws.map TrendWord.text)
  | wind {w : WindText} : w.Ok → WindWrong w → Faulty p [w.text]
  | windAndSector {w : WindText} {a b} : w.Ok → w.shear = none → ¬ w.Calm → a < 100 → b < 100 →
      WindWrong w ∨ 36 < a ∨ 36 < b →
      Faulty p [w.text, decimal 3 (10 * a) ++ c!"V" ++ decimal 3 (10 * b)]
  | sector {a b} : a < 100 → b < 100 → 36 < a ∨ 36 < b →
      Faulty p [decimal 3 (10 * a) ++ c!"V" ++ decimal 3 (10 * b)]
  | shearRunway {r : Runway} {pre} : p = .METAR → r.rNumber < 100 → pre = c!"R" ∨ pre = c!"RWY" → RunwayWrong r →
      Faulty p [c!"WS", pre ++ decimal 2 r.rNumber ++ designatorText r.rDesignator]
  | runwayVisualRange {v : RvrText} : p = .METAR → v.Ok → RvrWrong v → Faulty p [v.text]
  | temperature {t d : Degrees} : p = .METAR → t.Ok → d.Ok → t.lower d = true →
      Faulty p [t.text ++ c!"/" ++ d.text]
  | runway {r rest g} : p = .METAR → r.rNumber < 100 → StateWritten r rest g → RunwayWrong r →
      Faulty p [runwayText r ++ '/' :: rest]
  | extent {r c d e x h q t f y} : p = .METAR → r.rNumber < 100 → CodeWritten depositsCode .NOT_REPORTED c d →
      CodeWritten extentCode .NOT_REPORTED e x → DepthWritten h q t → FrictionWritten f y →
      e ∈ c!"34678" → Faulty p [runwayText r ++ '/' :: ([c] ++ [e] ++ h ++ f)]
  | unmarked {a : ForecastTemperature} : p = .TAF → a.Ok → a.label = .none → Faulty p [a.text]
  | forecastTime {a : ForecastTemperature} : p = .TAF → a.Ok → TimeWrong (some a.day) a.hour 0 →
      Faulty p [a.text]
  | forecastTimes {a b : ForecastTemperature} {g} : p = .TAF → a.Ok → b.Ok → ForecastPair a b g →
      TimeWrong (some a.day) a.hour 0 ∨ TimeWrong (some b.day) b.hour 0 → Faulty p [a.text, b.text]
  | forecastEqual {a b : ForecastTemperature} : p = .TAF → a.Ok → b.Ok → a.label = .none → b.label = .none →
      signed a = signed b → Faulty p [a.text, b.text]
  | forecastMinMax {a b : ForecastTemperature} : p = .TAF → a.Ok → b.Ok → a.label = .min → b.label = .max →
      signed b ≤ signed a → Faulty p [a.text, b.text]
  | forecastMaxMin {a b : ForecastTemperature} : p = .TAF → a.Ok → b.Ok → a.label = .max → b.label = .min →
      signed a ≤ signed b → Faulty p [a.text, b.text]

/-! ### The parts -/

theorem time_wrong (t : MetafTime) : t.isValid = false ↔ TimeWrong t.dayValue t.hourValue t.minuteValue := by
  obtain ⟨d, h, m⟩ := t
  cases d with
  | none =>
    simp only [MetafTime.isValid, TimeWrong, Option.getD_none]
    by_cases h1 : 24 < h <;> by_cases h2 : 59 < m <;> simp [h1, h2]
  | some d =>
    simp only [MetafTime.isValid, TimeWrong, Option.getD_some]
    by_cases h0 : 31 < d <;> by_cases h0' : d = 0 <;> by_cases h1 : 24 < h <;> by_cases h2 : 59 < m <;>
      simp [h1, h2, h0, h0']

theorem runway_wrong (r : Runway) : r.isValid = false ↔ RunwayWrong r := by
  rw [← Bool.not_eq_true, C24_valid]
  obtain ⟨n, d⟩ := r
  simp only [RunwayWrong, Runway.mk.injEq]
  rw [not_or, not_le, ← or_and_right]

theorem trend_wrong (w : TrendWord) : TrendWrong w ↔
    (∃ t, w.since = some t ∧ t.isValid = false) ∨ (∃ t, w.till = some t ∧ t.isValid = false) ∨
      ∃ t, w.moment = some t ∧ t.isValid = false := by
  cases w <;> simp [TrendWrong, TrendWord.since, TrendWord.till, TrendWord.moment, time_wrong]

theorem trend_type {p : ReportPart} {ws : List TrendWord} (h : TrendSentence p ws) :
    (trendMeaning ws).t = .PROB ↔ ∃ w, ws = [w] ∧ w.isProbability = true := by
  have hs := says_of_built (sentence_built h)
  rcases hs.shape with ⟨w, rfl, -⟩ | ⟨hl, hsh⟩
  · cases w <;> simp [trendMeaning, TrendWord.type, TrendWord.isProbability]
  · constructor
    · intro e
      exfalso
      rcases hsh with ⟨⟨c, hc, hch⟩, hall⟩ | ⟨ht, -⟩
      · have := hall c hc hch
        rw [e] at this
        cases c <;> cases this <;> cases hch
      · rw [e] at ht; cases ht
    · rintro ⟨w, rfl, -⟩
      simp at hl

theorem trend_invalid (g : TrendGroup) : g.isValid = false ↔ g.t = .PROB ∨
    (∃ t, g.tFrom = some t ∧ t.isValid = false) ∨ (∃ t, g.tTill = some t ∧ t.isValid = false) ∨
      ∃ t, g.tAt = some t ∧ t.isValid = false := by
  obtain ⟨t, q, f, a, b, c⟩ := g
  simp only [TrendGroup.isValid]
  by_cases ht : t = .PROB
  · simp [ht]
  · rw [if_neg ht]
    have key : ∀ o : Option MetafTime, (o.any fun x => !x.isValid) = true ↔ ∃ t, o = some t ∧ t.isValid = false := by
      intro o; cases o <;> simp
    simp only [← key, ht, false_or]
    cases Option.any (fun x => !x.isValid) a <;> cases Option.any (fun x => !x.isValid) b <;>
      cases Option.any (fun x => !x.isValid) c <;> simp

theorem sentence_invalid {p : ReportPart} {ws : List TrendWord} (h : TrendSentence p ws) :
    (trendMeaning ws).isValid = false ↔ (∃ w, ws = [w] ∧ w.isProbability = true) ∨ ∃ w ∈ ws, TrendWrong w := by
  have hs := says_of_built (sentence_built h)
  rw [trend_invalid, trend_type h]
  refine or_congr Iff.rfl ?_
  simp only [hs.since, hs.till, hs.moment, trend_wrong]
  constructor
  · rintro (⟨t, ⟨w, hw, e⟩, hv⟩ | ⟨t, ⟨w, hw, e⟩, hv⟩ | ⟨t, ⟨w, hw, e⟩, hv⟩)
    · exact ⟨w, hw, Or.inl ⟨t, e, hv⟩⟩
    · exact ⟨w, hw, Or.inr (Or.inl ⟨t, e, hv⟩)⟩
    · exact ⟨w, hw, Or.inr (Or.inr ⟨t, e, hv⟩)⟩
  · rintro ⟨w, hw, ⟨t, e, hv⟩ | ⟨t, e, hv⟩ | ⟨t, e, hv⟩⟩
    · exact Or.inl ⟨t, ⟨w, hw, e⟩, hv⟩
    · exact Or.inr (Or.inl ⟨t, ⟨w, hw, e⟩, hv⟩)
    · exact Or.inr (Or.inr ⟨t, ⟨w, hw, e⟩, hv⟩)

theorem wind_invalid {w : WindText} (hok : w.Ok) : w.group.isValid = false ↔ WindWrong w := by
  rw [← Bool.not_eq_true, C63_valid_wind w hok]
  obtain ⟨sh, d, sp, gu, u⟩ := w
  have hsp : ∀ v, sp = some v → v < 1000 := fun v hv => hok.2.2.1 v hv
  simp only [WindWrong]
  have h1 : (∀ n, d = .tens n → n ≤ 36) ↔ ¬ ∃ n, d = .tens n ∧ 36 < n := by
    push Not; rfl
  rw [h1]
  generalize (∃ n, d = WindDirection.tens n ∧ 36 < n) = A
  clear h1
  cases sp with
  | none => cases gu <;> simp <;> tauto
  | some v =>
    have := hsp v rfl
    cases gu with
    | none =>
      have : ¬ v < 999 ↔ v = 999 := by omega
      simp only [reduceCtorEq, Option.mem_def, false_and, exists_false, false_or, Option.some.injEq, forall_eq',
        forall_true_left, true_and, not_and_or, this]
      simp
    | some x =>
      simp only [Option.mem_def, Option.some.injEq, forall_eq', exists_eq_left', reduceCtorEq, false_and,
        or_false, IsEmpty.forall_iff, and_true, not_and_or, not_not, not_lt, ne_eq]

theorem sector_invalid {g : WindGroup} {a b : Nat} {t : WindType} (hb : g.vsecBegin = {}) (he : g.vsecEnd = {}) :
    WindGroup.isValid { g with windType := t, vsecBegin := ⟨10 * a, .VALUE_DEGREES⟩,
                               vsecEnd := ⟨10 * b, .VALUE_DEGREES⟩ } = false ↔
      g.isValid = false ∨ 36 < a ∨ 36 < b := by
  have hd : ∀ d, Direction.isValid ⟨10 * d, .VALUE_DEGREES⟩ = true ↔ ¬ 36 < d := by
    intro d
    simp [Direction.isValid, Direction.isValue]
    omega
  rw [← Bool.not_eq_true, ← Bool.not_eq_true]
  obtain ⟨_, wd, ws, gs, sh, vb, ve, r, et, inc⟩ := g
  simp only at hb he
  subst hb he
  have h0 : Direction.isValid {} = true := rfl
  unfold WindGroup.isValid
  simp only
  split
  · simp
  · split
    · simp
    · split
      · simp
      · split
        · simp
        · split
          · simp
          · split
            · simp
            · simp only [Bool.and_eq_true, hd, h0]
              tauto

theorem rvr_invalid {v : RvrText} (hok : v.Ok) : v.group.isValid = false ↔ RvrWrong v := by
  obtain ⟨r, x, m, f, s, t⟩ := v
  have hr : (r.any fun y => !y.isValid) = true ↔ ∃ y, r = some y ∧ RunwayWrong y := by
    cases r <;> simp [← runway_wrong]
  have hx : ∀ l a, x = some (l, a) → f32 (a : Rat) = a := fun l a e =>
    f32_nat (by have := hok.2.1 _ (show (l, a) ∈ x from e); simp only at this; omega)
  have hm : ∀ l a, m = some (l, a) → f32 (a : Rat) = a := fun l a e =>
    f32_nat (by have := hok.2.2.1 _ (show (l, a) ∈ m from e); simp only at this; omega)
  simp only [RvrWrong, ← hr, VisibilityGroup.isValid, RvrText.group]
  cases m with
  | none =>
    simp [Distance.toUnit, Distance.distance]
  | some m =>
    obtain ⟨m, b⟩ := m
    have eb := hm m b rfl
    have e1 : (RvrText.distance (some (m, b)) f).toUnit (RvrText.distance x f).distUnit = some (b : Rat) := by
      cases f <;> rcases x with _ | ⟨l, a⟩ <;> cases m <;>
        simp [RvrText.distance, Distance.toUnit, Distance.distance, RvrLimit.modifier, Distance.metersToUnit,
          Distance.feetToUnit, eb]
    simp only [Option.isSome_some, if_true, e1]
    cases x with
    | none =>
      have e2 : (RvrText.distance none f).toUnit (RvrText.distance none f).distUnit = none := by
        cases f <;> rfl
      simp [e2]
    | some x =>
      obtain ⟨l, a⟩ := x
      have ea := hx l a rfl
      have e2 : (RvrText.distance (some (l, a)) f).toUnit (RvrText.distance (some (l, a)) f).distUnit =
          some (a : Rat) := by
        cases f <;> cases l <;>
          simp [RvrText.distance, Distance.toUnit, Distance.distance, RvrLimit.modifier, Distance.metersToUnit,
            Distance.feetToUnit, ea]
      simp only [e2]
      by_cases hlt : b < a
      · rw [if_pos (by exact_mod_cast hlt)]
        simp [hlt]
      · rw [if_neg (by rw [gt_iff_lt]; exact_mod_cast hlt)]
        simp [hlt]

theorem extent_code {e : Char} {x : Extent} (h : CodeWritten extentCode .NOT_REPORTED e x) :
    (∀ k, extentCode[k]? = some x → k ≠ 3 ∧ k ≠ 4 ∧ k ≠ 6 ∧ k ≠ 7 ∧ k ≠ 8) ↔ e ∉ c!"34678" := by
  have fin : (∀ k, extentCode[k]? = some x → k ≠ 3 ∧ k ≠ 4 ∧ k ≠ 6 ∧ k ≠ 7 ∧ k ≠ 8) ↔
      ∀ k, k < 10 → extentCode[k]? = some x → k ≠ 3 ∧ k ≠ 4 ∧ k ≠ 6 ∧ k ≠ 7 ∧ k ≠ 8 := by
    refine ⟨fun h k _ => h k, fun h k hk => h k ?_ hk⟩
    have := (List.getElem?_eq_some_iff.mp hk).1
    simpa [extentCode] using this
  rw [fin]
  rcases h with ⟨rfl, rfl⟩ | ⟨k, hk, rfl⟩
  · decide
  · have hk' : k < 10 := by simpa [extentCode] using (List.getElem?_eq_some_iff.mp hk).1
    clear fin
    interval_cases k <;> (obtain rfl := Option.some.inj hk; clear hk hk'; decide)

theorem state_runway {r : Runway} {rest : Str} {g : RunwayStateGroup} (h : StateWritten r rest g) : g.rw = r := by
  cases h <;> rfl

theorem state_invalid {r : Runway} {rest : Str} {g : RunwayStateGroup} (h : StateWritten r rest g)
    (hv : g.isValid = false) : RunwayWrong r ∨ ∃ c d e x hh q t f y,
      CodeWritten depositsCode .NOT_REPORTED c d ∧
      CodeWritten extentCode .NOT_REPORTED e x ∧ DepthWritten hh q t ∧ FrictionWritten f y ∧
      e ∈ c!"34678" ∧ rest = [c] ++ [e] ++ hh ++ f := by
  rw [← Bool.not_eq_true, C54_valid, state_runway h, not_and_or, Bool.not_eq_true, runway_wrong] at hv
  refine hv.imp_right fun hv => ?_
  have hnr : ∀ k : Nat, extentCode[k]? ≠ some Extent.NOT_REPORTED := by
    intro k hk
    exact absurd (List.mem_of_getElem? hk) (by decide)
  cases h with
  | state hc he hh hf =>
    rw [extent_code he, not_not] at hv
    exact ⟨_, _, _, _, _, _, _, _, _, hc, he, hh, hf, hv, rfl⟩
  | _ => exact absurd (fun k hk => absurd hk (hnr k)) hv

theorem forecast_time {a : ForecastTemperature} : a.time.isValid = false ↔ TimeWrong (some a.day) a.hour 0 :=
  time_wrong _

/-- A minimum and a maximum. -/
theorem minMax_invalid {a b : ForecastTemperature} (ha : a.Ok) (hb : b.Ok) :
    MinMaxTemperatureGroup.isValid
      { t := .FORECAST, minTemp := a.temperature, minTime := some a.time,
        maxTemp := b.temperature, maxTime := some b.time } = false ↔
      TimeWrong (some a.day) a.hour 0 ∨ TimeWrong (some b.day) b.hour 0 ∨ signed b ≤ signed a := by
  have e1 := temperature_value ha
  have e2 := temperature_value hb
  rw [← forecast_time, ← forecast_time]
  simp only [MinMaxTemperatureGroup.isValid, e1, e2, Option.getD_some, Bool.false_eq_true, if_false]
  have h0 : (a.temperature.isReported && b.temperature.isReported && !a.temperature.freezing &&
      b.temperature.freezing) = true → signed b ≤ signed a := by
    simp only [ForecastTemperature.temperature, Temperature.isReported, Option.isSome_some, Bool.true_and,
      Bool.and_eq_true, Bool.not_eq_true', signed]
    rintro ⟨h1, h2⟩
    rw [h1, h2]
    simp
  have h3 : decide (((if a.below then -(a.degrees : Int) else a.degrees : Int) : Rat) <
      ((if b.below then -(b.degrees : Int) else b.degrees : Int) : Rat)) = false ↔ signed b ≤ signed a := by
    rw [decide_eq_false_iff_not, not_lt, Int.cast_le]
    rfl
  split
  · rename_i h
    simp [h0 h]
  · rw [← h3]
    cases a.time.isValid <;> cases b.time.isValid <;> simp

theorem single_invalid {a : ForecastTemperature} {g : MinMaxTemperatureGroup} (ha : a.Ok)
    (h : ForecastSingle a g) : g.isValid = false ↔ a.label = .none ∨ TimeWrong (some a.day) a.hour 0 := by
  have e1 := temperature_value ha
  have hb : -100 < (if a.below then -(a.degrees : Int) else a.degrees : Int) ∧
      (if a.below then -(a.degrees : Int) else a.degrees : Int) < 100 := by
    have := ha.1
    split <;> omega
  have hb1 : (-100 : Rat) < ((if a.below then -(a.degrees : Int) else a.degrees : Int) : Rat) := by
    exact_mod_cast hb.1
  have hb2 : ((if a.below then -(a.degrees : Int) else a.degrees : Int) : Rat) < 100 := by
    exact_mod_cast hb.2
  have hn : Temperature.temperature {} = none := rfl
  have hd : MetafTime.isValid {} = true := rfl
  rw [← forecast_time]
  cases h with
  | min hl =>
    simp only [MinMaxTemperatureGroup.isValid, e1, hl, hn, Option.getD_some, Option.getD_none, hd, decide_eq_true hb2,
      Temperature.isReported]
    cases a.time.isValid <;> simp
  | max hl =>
    simp only [MinMaxTemperatureGroup.isValid, e1, hl, hn, Option.getD_some, Option.getD_none, hd, decide_eq_true hb1,
      Temperature.isReported]
    cases a.time.isValid <;> simp
  | none hl => simp [MinMaxTemperatureGroup.isValid, hl]

theorem lower_signed {a b : ForecastTemperature} (h : b.lower a = true) : signed b ≤ signed a := by
  obtain ⟨l, s, n, d, t⟩ := a
  obtain ⟨l', s', n', d', t'⟩ := b
  cases s <;> cases s' <;> simp_all [ForecastTemperature.lower, signed] <;> omega

theorem not_lower_signed {a b : ForecastTemperature} (h : ¬ b.lower a = true) : signed a ≤ signed b := by
  obtain ⟨l, s, n, d, t⟩ := a
  obtain ⟨l', s', n', d', t'⟩ := b
  cases s <;> cases s' <;> simp_all [ForecastTemperature.lower, signed]

theorem weather_valid {p : ReportPart} {es : List WeatherParts}
    (h : ∀ e ∈ es, WeatherWord (weatherWritten e.1 e.2.1 e.2.2) p e.1 e.2.1 e.2.2) :
    WeatherGroup.allValid (es.map fun e => made e.1 e.2.1 e.2.2) = .ok true := by
  induction es with
  | nil => rfl
  | cons e es ih =>
    have hv : (made e.1 e.2.1 e.2.2).isValid = .ok true := by
      obtain ⟨q, d, ws⟩ := e
      rcases (h _ List.mem_cons_self).2 with ⟨-, hq, hd, hw⟩ | ⟨-, ha⟩
      · simp only at hq hd hw
        subst hd hw
        rcases hq with rfl | rfl <;> decide
      · exact C41_valid _ true _ ((C41_weather _ _ _).mpr ⟨_, _, _, ha, rfl, rfl⟩)
    simp only [List.map_cons, WeatherGroup.allValid, hv]
    exact ih fun e he => h e (List.mem_cons_of_mem _ he)

/-! ### Validity of groups -/

/-- A faulty group is a group, and is not valid. -/
theorem faulty_written {p : ReportPart} (hp : isBody p) {ws : List Str} (h : Faulty p ws) :
    ∃ g, Written p ws g ∧ groupValid g = .ok false := by
  cases h with
  | shear h => exact ⟨_, .wind (.shear h), rfl⟩
  | shearAll h => exact ⟨_, .wind (.shearAll h), rfl⟩
  | wholeMiles hk hn => exact ⟨_, .visibility (Or.inl ⟨_, _, hk, hn, rfl, rfl⟩), rfl⟩
  | @probability w h hw =>
    have hs : TrendSentence p [w] := .one (by cases w <;> trivial)
      (by cases w <;> first | exact h | cases hw)
    exact ⟨_, .trend hs, congrArg Except.ok ((sentence_invalid hs).mpr (Or.inl ⟨w, rfl, hw⟩))⟩
  | trendTime hs hm hw =>
    exact ⟨_, .trend hs, congrArg Except.ok ((sentence_invalid hs).mpr (Or.inr ⟨_, hm, hw⟩))⟩
  | wind hok hw => exact ⟨_, .wind (.wind hp hok), congrArg Except.ok ((wind_invalid hok).mpr hw)⟩
  | windAndSector hok hs hc ha hb hw =>
    refine ⟨_, .wind (.windAndSector hp hok hs hc ha hb), congrArg Except.ok ((sector_invalid ?_ ?_).mpr ?_)⟩
    · unfold WindText.group; split <;> rfl
    · unfold WindText.group; split <;> rfl
    · rw [wind_invalid hok]; exact hw
  | sector ha hb hw =>
    exact ⟨_, .wind (.sector hp ha hb), congrArg Except.ok ((sector_invalid (g := ⟨.VARIABLE_WIND_SECTOR, {}, {}, {}, {}, {}, {}, none, none, .NONE⟩) rfl rfl).mpr (Or.inr hw))⟩
  | @shearRunway r pre h hr hpre hw =>
    refine ⟨_, .wind (.shearRunway h hr hpre), congrArg Except.ok ?_⟩
    rw [← runway_wrong, ← Bool.not_eq_true, C24_valid] at hw
    rw [← Bool.not_eq_true, (C63_valid 0 0 {} _ rfl).2.2]
    exact hw
  | runwayVisualRange h hok hw => exact ⟨_, .runwayVisualRange h hok, congrArg Except.ok ((rvr_invalid hok).mpr hw)⟩
  | @temperature t d h ht hd hl =>
    refine ⟨_, .temperature h ht (d := some d) (by rintro x ⟨⟩; exact hd), congrArg Except.ok ?_⟩
    exact (C51_valid t (some d) ht (by rintro x ⟨⟩; exact hd) _
      ((C51_body _ _).mpr ⟨_, _, ht, by rintro x ⟨⟩; exact hd, rfl, rfl⟩)).mpr ⟨d, rfl, hl⟩
  | runway h hr hs hw =>
    refine ⟨_, .runwayState h hr hs, congrArg Except.ok ?_⟩
    rw [← Bool.not_eq_true, C54_valid, state_runway hs, not_and_or, Bool.not_eq_true, runway_wrong]
    exact Or.inl hw
  | extent h hr hc he hh hf hm =>
    refine ⟨_, .runwayState h hr (.state hc he hh hf), congrArg Except.ok ?_⟩
    rw [← Bool.not_eq_true, C54_valid, extent_code he, not_and_or, not_not]
    exact Or.inr hm
  | unmarked h ha hl =>
    exact ⟨_, .forecastTemperature h ha (single_forecast.mpr rfl),
      congrArg Except.ok ((single_invalid ha (single_forecast.mpr rfl)).mpr (Or.inl hl))⟩
  | forecastTime h ha hl =>
    exact ⟨_, .forecastTemperature h ha (single_forecast.mpr rfl),
      congrArg Except.ok ((single_invalid ha (single_forecast.mpr rfl)).mpr (Or.inr hl))⟩
  | forecastTimes h ha hb hpair hw =>
    refine ⟨_, .forecastTemperatures h ha hb hpair, congrArg Except.ok ?_⟩
    cases hpair with
    | rising | minMax => exact (minMax_invalid ha hb).mpr (by tauto)
    | falling | maxMin => exact (minMax_invalid hb ha).mpr (by tauto)
  | @forecastEqual a b h ha hb la lb he =>
    by_cases hl : b.lower a = true
    · exact ⟨_, .forecastTemperatures h ha hb (.falling la lb hl), congrArg Except.ok
        ((minMax_invalid hb ha).mpr (Or.inr (Or.inr he.le)))⟩
    · exact ⟨_, .forecastTemperatures h ha hb (.rising la lb hl), congrArg Except.ok
        ((minMax_invalid ha hb).mpr (Or.inr (Or.inr he.ge)))⟩
  | forecastMinMax h ha hb la lb he =>
    exact ⟨_, .forecastTemperatures h ha hb (.minMax la lb), congrArg Except.ok
      ((minMax_invalid ha hb).mpr (Or.inr (Or.inr he)))⟩
  | forecastMaxMin h ha hb la lb he =>
    exact ⟨_, .forecastTemperatures h ha hb (.maxMin la lb), congrArg Except.ok
      ((minMax_invalid hb ha).mpr (Or.inr (Or.inr he)))⟩

/-- The check succeeds, and says that a group is not valid only if it is faulty. -/
theorem written_valid {p : ReportPart} (hp : isBody p) {ws : List Str} {g : Group} (h : Written p ws g) :
    groupValid g = .ok true ∨ (groupValid g = .ok false ∧ Faulty p ws) := by
  have dec : ∀ {b : Bool}, (b = false → Faulty p ws) →
      (Except.ok b : Res Bool) = .ok true ∨ ((Except.ok b : Res Bool) = .ok false ∧ Faulty p ws) := by
    intro b h
    cases b
    · exact Or.inr ⟨rfl, h rfl⟩
    · exact Or.inl rfl
  cases h with
  | keyword | noClouds | noWeather | pressure | forecastPressure | snowClosed | seaSurface | rainfall | layer =>
    exact Or.inl rfl
  | trend hs =>
    refine dec fun hv => ?_
    rcases (sentence_invalid hs).mp hv with ⟨w, rfl, hw⟩ | ⟨w, hm, hw⟩
    · refine .probability ?_ hw
      generalize hl : [w] = l at hs
      cases hs with
      | one _ ha =>
        obtain rfl := List.singleton_inj.mp hl
        cases w <;> first | exact ha | cases hw
      | @more ws _ h =>
        have := congrArg List.length hl
        cases h <;> simp at this
    · exact .trendTime hs hm hw
  | wind hs =>
    refine dec fun hv => ?_
    cases hs with
    | wind _ hok => exact .wind hok ((wind_invalid hok).mp hv)
    | windAndSector _ hok hs hc ha hb =>
      refine .windAndSector hok hs hc ha hb ?_
      rw [← wind_invalid hok]
      refine (sector_invalid ?_ ?_).mp hv
      · unfold WindText.group; split <;> rfl
      · unfold WindText.group; split <;> rfl
    | sector _ ha hb =>
      exact .sector ha hb (((sector_invalid (g := ⟨.VARIABLE_WIND_SECTOR, {}, {}, {}, {}, {}, {}, none, none, .NONE⟩) rfl rfl).mp hv).resolve_left (by intro h; cases h))
    | shear h => exact .shear h
    | shearAll h => exact .shearAll h
    | @shearRunway n d pre h hr hpre =>
      refine .shearRunway (r := ⟨n, d⟩) h hr hpre ?_
      rw [← Bool.not_eq_true, (C63_valid 0 0 {} _ rfl).2.2] at hv
      rw [← runway_wrong, ← Bool.not_eq_true, C24_valid]
      exact hv
    | shearConditions | shearAllRunways => cases hv
    | missing h | missingWind h | peak h | peakWord h | peakWind h | shift h | shiftFront h | shiftTime h
    | shiftTimeFront h => exact absurd h (body_not_rmk hp)
  | visibility h =>
    refine dec fun hv => ?_
    rcases h with ⟨k, n, hk, hn, rfl, rfl⟩ | ⟨v, x, d, t, o, -, hx, rfl, rfl⟩ | ⟨d, -, rfl⟩
    · exact .wholeMiles hk hn
    · exfalso
      have ho : o.any (fun d => !d.isValid) = false := by
        rcases hx with ⟨-, -, rfl⟩ | ⟨n, hn, -, rfl⟩ | ⟨-, -, rfl⟩ | ⟨-, -, rfl⟩
        · rfl
        · have : ∀ q ∈ octants, q.2 ≤ 360 := by decide
          have := this _ hn
          simp only at this
          simp [Direction.isValid, this]
        · rfl
        · rfl
      simp only [VisibilityGroup.isValid, ho] at hv
      cases hv
    · cases hv
  | runwayVisualRange h hok => exact dec fun hv => .runwayVisualRange h hok ((rvr_invalid hok).mp hv)
  | milesAndFraction => exact Or.inl rfl
  | cloud h =>
    obtain ⟨_, _, _, _, _, _, _, _, _, _, rfl⟩ := h
    exact Or.inl rfl
  | weather _ _ h => exact Or.inl (weather_valid fun e he => (h e he).1)
  | recentWeather _ _ h => exact Or.inl (weather_valid fun e he => (h e he).1)
  | @temperature t d h ht hd =>
    refine dec fun hv => ?_
    obtain ⟨x, rfl, hl⟩ := (C51_valid t d ht hd _ ((C51_body _ _).mpr ⟨_, _, ht, hd, rfl, rfl⟩)).mp hv
    exact .temperature h ht (hd x rfl) hl
  | runwayState h hr hs =>
    refine dec fun hv => ?_
    rcases state_invalid hs hv with hw | ⟨_, _, _, _, _, _, _, _, _, h1, h2, h3, h4, h5, rfl⟩
    · exact .runway h hr hs hw
    · exact .extent h hr h1 h2 h3 h4 h5
  | forecastTemperature h ha hs =>
    refine dec fun hv => ?_
    rcases (single_invalid ha hs).mp hv with hl | hl
    · exact .unmarked h ha hl
    · exact .forecastTime h ha hl
  | forecastTemperatures h ha hb hpair =>
    refine dec fun hv => ?_
    cases hpair with
    | rising la lb hl =>
      rcases (minMax_invalid ha hb).mp hv with h1 | h1 | h1
      · exact .forecastTimes h ha hb (.rising la lb hl) (Or.inl h1)
      · exact .forecastTimes h ha hb (.rising la lb hl) (Or.inr h1)
      · exact .forecastEqual h ha hb la lb (le_antisymm (not_lower_signed hl) h1)
    | falling la lb hl =>
      rcases (minMax_invalid hb ha).mp hv with h1 | h1 | h1
      · exact .forecastTimes h ha hb (.falling la lb hl) (Or.inr h1)
      · exact .forecastTimes h ha hb (.falling la lb hl) (Or.inl h1)
      · exact .forecastEqual h ha hb la lb (le_antisymm h1 (lower_signed hl))
    | minMax la lb =>
      rcases (minMax_invalid ha hb).mp hv with h1 | h1 | h1
      · exact .forecastTimes h ha hb (.minMax la lb) (Or.inl h1)
      · exact .forecastTimes h ha hb (.minMax la lb) (Or.inr h1)
      · exact .forecastMinMax h ha hb la lb h1
    | maxMin la lb =>
      rcases (minMax_invalid hb ha).mp hv with h1 | h1 | h1
      · exact .forecastTimes h ha hb (.maxMin la lb) (Or.inr h1)
      · exact .forecastTimes h ha hb (.maxMin la lb) (Or.inl h1)
      · exact .forecastMaxMin h ha hb la lb h1
  | misc h =>
    cases h with
    | colour | correction | issuerN | issuerS => exact Or.inl rfl
    | _ => exact absurd rfl (body_not_rmk hp)

/-- C71. The check of validity of a group of a report body always gives an answer, and the answer is no
exactly if the group is faulty. -/
theorem C71_valid {p : ReportPart} (hp : p = .METAR ∨ p = .TAF) {ws : List Str} {g : Group} (h : Written p ws g) :
    ∃ b, groupValid g = .ok b ∧ (b = false ↔ Faulty p ws) := by
  rcases written_valid hp h with hv | ⟨hv, hf⟩
  · refine ⟨true, hv, by simp, fun hf => ?_⟩
    obtain ⟨g', hw, hv'⟩ := faulty_written hp hf
    rw [C69_unique hp h hw, hv'] at hv
    cases hv
  · exact ⟨false, hv, fun _ => hf, fun _ => rfl⟩

end Metaf.Props

namespace Metaf.Props

open Metaf Metaf.Spec

attribute [local instance] ieee

/-- Gusts below the wind speed. -/
example : Written .METAR [c!"24020G15KT"] (.wind (WindText.group ⟨none, .tens 24, some 20, some 15, .KNOTS⟩)) ∧
    Faulty .METAR [c!"24020G15KT"] ∧
    groupValid (.wind (WindText.group ⟨none, .tens 24, some 20, some 15, .KNOTS⟩)) = .ok false := by
  have hok : (WindText.mk none (.tens 24) (some 20) (some 15) .KNOTS).Ok :=
    ⟨by simp, by simp [WindDirection.Ok], by simp, by simp, by decide⟩
  have h : Written .METAR [c!"24020G15KT"] (.wind (WindText.group ⟨none, .tens 24, some 20, some 15, .KNOTS⟩)) :=
    .wind (.wind (w := ⟨none, .tens 24, some 20, some 15, .KNOTS⟩) (Or.inl rfl) hok)
  have hf : Faulty .METAR [c!"24020G15KT"] :=
    .wind (w := ⟨none, .tens 24, some 20, some 15, .KNOTS⟩) hok (Or.inr (Or.inl ⟨15, rfl, Or.inr ⟨20, rfl, by decide⟩⟩))
  obtain ⟨b, hb, hi⟩ := C71_valid (Or.inl rfl) h
  rw [hi.mpr hf] at hb
  exact ⟨h, hf, hb⟩

/-- A time span with an hour which does not exist is faulty, after a probability too. -/
example : Faulty .TAF [c!"PROB30", c!"1225/1306"] :=
  .trendTime (ws := [.prob30, .span 12 25 13 6]) (w := .span 12 25 13 6)
    (.more (ws := [.prob30]) (.one trivial rfl) (by simp [TrendWord.Ok]) (Or.inl rfl)
      (Or.inl ⟨.prob30, rfl, rfl, Or.inr (Or.inr rfl)⟩))
    (by simp) (Or.inl (Or.inr (Or.inl (by decide))))

/-- Minus zero and zero cannot be told apart as minimum and maximum. -/
example : Faulty .TAF [c!"TNM00/0205Z", c!"TX00/0214Z"] :=
  .forecastMinMax (a := ⟨.min, true, 0, 2, 5⟩) (b := ⟨.max, false, 0, 2, 14⟩) rfl
    (by simp [ForecastTemperature.Ok]) (by simp [ForecastTemperature.Ok]) rfl rfl (by decide)

example : groupValid (.minMaxTemperature
    { t := .FORECAST, minTemp := ⟨some 0, true, false⟩, minTime := some ⟨some 2, 5, 0⟩
      maxTemp := ⟨some 0, false, false⟩, maxTime := some ⟨some 2, 14, 0⟩ }) = .ok false := by
  decide +kernel

end Metaf.Props

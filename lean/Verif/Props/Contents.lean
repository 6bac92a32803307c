import Verif.Props.Accessors

/-!
C78, C79, C80: what the accessors of a wind, trend or weather group give, depending on its type, for every
group of the result of parsing any text at all.
-/

set_option linter.unusedSectionVars false

namespace Metaf.Props

open Metaf Metaf.Spec

variable [FloatIeee]

/-! ### Specification -/

/-- What the accessors of a wind group in part `p` give. -/
structure WindOffers (p : ReportPart) (g : WindGroup) : Prop where
  /-- Where the types are found. -/
  remarks : g.windType ∈ [.PEAK_WIND, .WIND_SHIFT, .WIND_SHIFT_FROPA, .WND_MISG] ↔ p = .RMK
  forecast : g.windType = .WSCONDS → p = .TAF
  observed : g.windType = .WIND_SHEAR_IN_LOWER_LAYERS → p = .METAR
  /-- Direction and speed are given for these types only. -/
  direction : g.windDir.isReported = true →
    g.windType ∈ [.SURFACE_WIND, .SURFACE_WIND_WITH_VARIABLE_SECTOR, .WIND_SHEAR, .PEAK_WIND]
  speed : g.wSpeed.isReported = true →
    g.windType ∈ [.SURFACE_WIND, .SURFACE_WIND_CALM, .SURFACE_WIND_WITH_VARIABLE_SECTOR, .WIND_SHEAR, .PEAK_WIND]
  /-- Calm wind: the speed is zero, there is no direction and no gust. -/
  calm : g.windType = .SURFACE_WIND_CALM →
    g.wSpeed.speedValue = some 0 ∧ g.windDir.isReported = false ∧ g.gSpeed.isReported = false
  /-- Peak wind: direction in degrees, speed in knots and time are always given. -/
  peak : g.windType = .PEAK_WIND → (∃ n, g.windDir.degrees = some n) ∧
    g.wSpeed.isReported = true ∧ g.wSpeed.speedUnit = .KNOTS ∧ g.evTime.isSome = true
  /-- Gusts are given for these types only, in the same unit as the speed if it is given. -/
  gust : g.gSpeed.isReported = true →
    g.windType ∈ [.SURFACE_WIND, .SURFACE_WIND_WITH_VARIABLE_SECTOR, .WIND_SHEAR] ∧
    (g.wSpeed.isReported = true → g.gSpeed.speedUnit = g.wSpeed.speedUnit)
  /-- The height is given just for wind shear at a height, in feet. -/
  height : (g.wShHeight.isReported = true ↔ g.windType = .WIND_SHEAR) ∧
    (g.wShHeight.isReported = true → g.wShHeight.distUnit = .FEET)
  /-- The sector is given just for these types, both ends in tens of degrees, and not reported otherwise. -/
  sector : (g.windType ∈ [.VARIABLE_WIND_SECTOR, .SURFACE_WIND_WITH_VARIABLE_SECTOR] →
      ∃ a b, g.vsecBegin.degrees = some (10 * a) ∧ g.vsecEnd.degrees = some (10 * b)) ∧
    (g.windType ∉ [.VARIABLE_WIND_SECTOR, .SURFACE_WIND_WITH_VARIABLE_SECTOR] →
      g.vsecBegin.isReported = false ∧ g.vsecEnd.isReported = false)
  /-- The time of the event is given for these types only. It has no day. -/
  time : g.evTime.isSome = true → g.windType ∈ [.WIND_SHIFT, .WIND_SHIFT_FROPA, .PEAK_WIND]
  noDay : ∀ t ∈ g.evTime, t.dayValue = none
  /-- The runway is given just for wind shear on runways. -/
  runway : g.rw.isSome = true ↔ g.windType = .WIND_SHEAR_IN_LOWER_LAYERS

/-- What the accessors of a trend group in part `p` give. -/
structure TrendOffers (p : ReportPart) (g : TrendGroup) : Prop where
  /-- Where the types are found. -/
  inReport : p = .METAR ∨ p = .TAF ∨ (p = .HEADER ∧ g.t = .TIME_SPAN)
  observed : g.t ∈ [.NOSIG, .UNTIL, .AT] → p = .METAR
  forecast : g.t = .PROB ∨ g.prob ≠ .NONE → p = .TAF
  /-- These types have just these contents. -/
  nosig : g.t = .NOSIG → g.prob = .NONE ∧ g.tFrom = none ∧ g.tTill = none ∧ g.tAt = none
  prob : g.t = .PROB → g.prob ≠ .NONE ∧ g.tFrom = none ∧ g.tTill = none ∧ g.tAt = none
  since : g.t = .FROM → g.prob = .NONE ∧ g.tFrom.isSome = true ∧ g.tTill = none ∧ g.tAt = none
  till : g.t = .UNTIL → g.prob = .NONE ∧ g.tFrom = none ∧ g.tTill.isSome = true ∧ g.tAt = none
  moment : g.t = .AT → g.prob = .NONE ∧ g.tFrom = none ∧ g.tTill = none ∧ g.tAt.isSome = true
  span : g.t = .TIME_SPAN → g.tFrom.isSome = true ∧ g.tTill.isSome = true ∧ g.tAt = none
  /-- `PROB30` or `PROB40` is never said of a gradual change. -/
  becmg : g.t = .BECMG → g.prob = .NONE
  /-- There is either a time of the event or a period, not both. -/
  oneKind : g.tAt.isSome = true → g.tFrom = none ∧ g.tTill = none
  /-- Times have a day except in a weather report. -/
  days : ∀ t, g.tFrom = some t ∨ g.tTill = some t ∨ g.tAt = some t → (t.dayValue = none ↔ p = .METAR)

/-- What the accessors of a weather group in part `p` give. -/
structure WeatherOffers (p : ReportPart) (g : WeatherGroup) : Prop where
  /-- Where the types are found. -/
  remarks : g.t ∈ [.EVENT, .PWINO, .WX_MISG, .TSNO, .TS_LTNG_TEMPO_UNAVBL] ↔ p = .RMK
  /-- Phenomena are given just for these types, at most twenty. -/
  phenomena : g.weatherPhenomena ≠ [] ↔ g.t ∈ [.CURRENT, .RECENT, .EVENT]
  few : g.weatherPhenomena.length ≤ 20
  /-- All phenomena of a group are recent or none is. -/
  recent : ∀ w ∈ g.weatherPhenomena, w.qualifier = .RECENT ↔ g.t = .RECENT
  /-- Beginning or end with a time are given just for events. The time has no day. -/
  event : ∀ w ∈ g.weatherPhenomena, (w.event ≠ .NONE ↔ g.t = .EVENT) ∧ (w.tm.isSome = true ↔ g.t = .EVENT)
  noDay : ∀ w ∈ g.weatherPhenomena, ∀ t ∈ w.tm, t.dayValue = none

/-! ### Groups of every result -/

/-- What holds of a group whatever its text is, holds of all groups of a result. -/
theorem every_group {O : ReportPart → Group → Prop} (unknown : ∀ u p, O p (.unknown u))
    (header : ∀ s g, HeaderWord s g → O .HEADER g)
    (afterNil : ∀ k, O .UNKNOWN (.keyword ⟨k⟩))
    (body : ∀ p ws g, p = .METAR ∨ p = .TAF → Written p ws g → ¬ Unfinished ws → O p g)
    (remark : ∀ now ws g next, Remark now ws g → ¬ Lacking next ws → O .RMK (settled g))
    (remnant : ∀ now w y, w ∈ ambiguous → Remark now [w] (.vicinity y) → O .RMK (.vicinity y))
    {report : Str} {limit : Nat} {r : ParseResult} (h : Result report limit r) :
    ∀ x ∈ r.groups, O x.reportPart x.group := by
  intro x hx
  cases C75_said h x hx with
  | unknown => exact unknown _ _
  | header hw => exact header _ _ hw
  | afterNil => exact afterNil _
  | body hp hw hu => exact body _ _ _ hp hw hu
  | remark hr hl => exact remark _ _ _ _ hr hl
  | remnant hw hr => exact remnant _ _ _ hw hr

/-! ### Wind -/

theorem direction_reported (n : Nat) : (⟨n, .VALUE_DEGREES⟩ : Direction).degrees = some n := rfl

theorem eventTime_noDay {now : Option Nat} {s : Str} {t : MetafTime} (h : EventTime now s t) :
    t.dayValue = none := by
  cases h <;> rfl

theorem speedOf_reported {o : Option Nat} {u : SpeedUnit} (h : (WindText.speedOf o u).isReported = true) :
    (WindText.speedOf o u).speedUnit = u := by
  cases o with
  | none => cases h
  | some n => rfl

theorem wind_text {p : ReportPart} (hp : p = .METAR ∨ p = .TAF) (w : WindText) : WindOffers p w.group := by
  have hr : p ≠ .RMK := body_not_rmk hp
  unfold WindText.group
  split
  · rename_i hc
    obtain ⟨h1, h2, h3, h4⟩ := hc
    rw [h3]
    constructor <;> simp [hr, WindText.speedOf, Direction.isReported, Speed.isReported, Distance.isReported,
      Distance.isValue]
  · cases hs : w.shear with
    | none =>
      constructor <;> simp [hr, Direction.isReported, Distance.isReported, Distance.isValue]
      intro h1 h2
      rw [speedOf_reported h1, speedOf_reported h2]
    | some n =>
      constructor <;> simp [hr, Direction.isReported, Distance.isReported, Distance.isValue]
      intro h1 h2
      rw [speedOf_reported h1, speedOf_reported h2]

local macro "wind_case" "[" ts:Lean.Parser.Tactic.simpLemma,* "]" : tactic =>
  `(tactic| (constructor <;> simp [Direction.isReported, Speed.isReported, Distance.isReported,
      Distance.isValue, direction_reported, $ts,*]))

theorem wind_offers {p : ReportPart} {now : Option Nat} {ws : List Str} {g : WindGroup}
    (h : WindSequence p now ws g) (hu : p ≠ .RMK → ¬ Unfinished ws) (hl : p = .RMK → ws ∉ halfPhrases) : WindOffers p g := by
  cases h with
  | wind hp => exact wind_text hp _
  | @windAndSector w a b hp hok hs hc =>
    have hr := body_not_rmk hp
    have e : w.group = { windType := .SURFACE_WIND, windDir := w.dir.direction, wSpeed := WindText.speedOf w.speed w.unit,
                         gSpeed := WindText.speedOf w.gust w.unit } := by
      rw [WindText.group, if_neg hc, hs]; rfl
    rw [e]
    constructor <;> simp [hr, Distance.isReported, Distance.isValue, direction_reported]
    intro h1 h2
    rw [speedOf_reported h1, speedOf_reported h2]
  | sector hp =>
    have hr := body_not_rmk hp
    wind_case [hr]
  | shearConditions hp => subst hp; wind_case []
  | shear hp => exact absurd .shear (hu (by simp [hp]))
  | shearAll hp => exact absurd .shearAll (hu (by simp [hp]))
  | shearAllRunways hp => subst hp; wind_case []
  | shearRunway hp => subst hp; wind_case []
  | missing hp | peak hp | peakWord hp => exact absurd (by simp [halfPhrases]) (hl hp)
  | missingWind hp => subst hp; wind_case []
  | peakWind hp _ _ ht => subst hp; wind_case [eventTime_noDay ht]
  | shift hp => subst hp; wind_case []
  | shiftFront hp => subst hp; wind_case []
  | shiftTime hp ht => subst hp; wind_case [eventTime_noDay ht]
  | shiftTimeFront hp ht => subst hp; wind_case [eventTime_noDay ht]

/-! ### Trends -/

/-- The contents of the types, without the part of the report. -/
structure TrendContents (g : TrendGroup) : Prop where
  nosig : g.t = .NOSIG → g.prob = .NONE ∧ g.tFrom = none ∧ g.tTill = none ∧ g.tAt = none
  prob : g.t = .PROB → g.prob ≠ .NONE ∧ g.tFrom = none ∧ g.tTill = none ∧ g.tAt = none
  since : g.t = .FROM → g.prob = .NONE ∧ g.tFrom.isSome = true ∧ g.tTill = none ∧ g.tAt = none
  till : g.t = .UNTIL → g.prob = .NONE ∧ g.tFrom = none ∧ g.tTill.isSome = true ∧ g.tAt = none
  moment : g.t = .AT → g.prob = .NONE ∧ g.tFrom = none ∧ g.tTill = none ∧ g.tAt.isSome = true
  span : g.t = .TIME_SPAN → g.tFrom.isSome = true ∧ g.tTill.isSome = true ∧ g.tAt = none
  becmg : g.t = .BECMG → g.prob = .NONE
  oneKind : g.tAt.isSome = true → g.tFrom = none ∧ g.tTill = none

theorem word_contents (w : TrendWord) : TrendContents (wordGroup w) := by
  cases w <;> constructor <;> simp [wordGroup, TrendWord.type, TrendWord.probability, TrendWord.since,
    TrendWord.till, TrendWord.moment]

theorem built_contents {ws : List TrendWord} {g : TrendGroup} (h : Built ws g) : TrendContents g := by
  induction h with
  | first hok ha hp =>
    rw [parse_word hok ha] at hp
    cases hp
    exact word_contents _
  | @next ws w p g g' hb hok ha happ ih =>
    rw [append_word hok ha] at happ
    split at happ
    · cases happ
    rename_i hn
    split at happ
    · rename_i g'' hc
      simp only [Prod.mk.injEq, and_true] at happ
      subst happ
      rcases (says_of_built hb).shape with ⟨v, rfl, rfl⟩ | ⟨hl, ⟨⟨c, hcm, hch⟩, hall⟩ | ⟨ht, hall⟩⟩
      · have hv : v ≠ .nosig := by rintro rfl; exact hn rfl
        obtain ⟨hcont, rfl⟩ := (combined_single v w _ hv).mp hc
        cases v <;> cases w <;> simp [TrendWord.Continues, TrendWord.Compatible, TrendWord.isProbability,
          TrendWord.isSpan, TrendWord.isTime, TrendWord.isChange, TrendWord.type, TrendWord.since,
          TrendWord.till, TrendWord.moment] at hcont <;> constructor <;>
          simp [wordGroup, TrendGroup.combineTime, TrendWord.type, TrendWord.probability, TrendWord.since,
            TrendWord.till, TrendWord.moment, TrendWord.isChange]
      · have hg : g.t = .BECMG ∨ g.t = .TEMPO ∨ g.t = .INTER := by rw [hall c hcm hch]; exact change_type hch
        obtain ⟨htime, hcan, rfl⟩ := (combined_change g w _ hg).mp hc
        obtain ⟨t, pr, fl, a, b, m⟩ := g
        have i1 := ih.becmg
        have i2 := ih.oneKind
        simp only at hg i1 i2
        constructor <;> simp only [TrendGroup.combineTime]
        all_goals first
          | (intro h; rcases hg with e | e | e <;> rw [e] at h <;> cases h; done)
          | exact i1
          | skip
        have i3 := (word_contents w).oneKind
        simp only [TrendGroup.canCombineTime, wordGroup] at hcan i2 i3 ⊢
        cases a <;> cases b <;> cases m <;> cases hs : w.since <;> cases ht : w.till <;> cases hm : w.moment <;>
          simp [hs, ht, hm] at hcan i2 i3 ⊢
      · rw [combined_span g w ht] at hc
        cases hc
    · cases happ

theorem trend_offers {p : ReportPart} {ws : List TrendWord} (h : TrendSentence p ws)
    (hp : p = .METAR ∨ p = .TAF ∨ ∃ d h d' h', p = .HEADER ∧ ws = [.span d h d' h']) :
    TrendOffers p (trendMeaning ws) := by
  have hb := sentence_built h
  have hc := built_contents hb
  have hs := says_of_built hb
  have hall : ∀ w ∈ ws, w.AllowedIn p := by
    clear hb hc hs hp
    induction h with
    | one hok ha => simpa using ha
    | more _ hok ha _ ih =>
      intro w hw
      rcases List.mem_append.mp hw with hw | hw
      · exact ih w hw
      · rw [List.mem_singleton.mp hw]; exact ha
  have hty := C45_type hb
  have hpr : (trendMeaning ws).prob ≠ .NONE → p = .TAF := by
    intro hq
    obtain ⟨w, hw, e⟩ := (hs.prob _ hq).mp rfl
    have := hall w hw
    cases w <;> first | exact this | exact absurd e.symm hq
  refine ⟨?_, ?_, ?_, hc.nosig, hc.prob, hc.since, hc.till, hc.moment, hc.span, hc.becmg, hc.oneKind, ?_⟩
  · rcases hp with hp | hp | ⟨d, h, d', h', hp, rfl⟩
    · exact Or.inl hp
    · exact Or.inr (Or.inl hp)
    · exact Or.inr (Or.inr ⟨hp, rfl⟩)
  · intro ht
    rcases hs.shape with ⟨v, rfl, e⟩ | ⟨hl, ⟨⟨c, hcm, hch⟩, hall'⟩ | ⟨ht', -⟩⟩
    · have := hall v (by simp)
      rw [e] at ht
      cases v <;> first | exact this | simp [wordGroup, TrendWord.type] at ht
    · rw [hall' c hcm hch] at ht
      rcases change_type hch with e | e | e <;> rw [e] at ht <;> simp at ht
    · rw [ht'] at ht; simp at ht
  · rintro (ht | hq)
    · exact hpr (hc.prob ht).1
    · exact hpr hq
  · have key : ∀ w ∈ ws, ∀ t, w.since = some t ∨ w.till = some t ∨ w.moment = some t →
        (t.dayValue = none ↔ p = .METAR) := by
      intro w hw t ht
      have ha := hall w hw
      cases w <;> simp [TrendWord.since, TrendWord.till, TrendWord.moment] at ht <;>
        simp only [TrendWord.AllowedIn] at ha
      all_goals first
        | (subst ht; simp [ha])
        | (rcases ht with rfl | rfl <;> rcases ha with rfl | rfl <;> simp)
    rintro t (ht | ht | ht)
    · obtain ⟨w, hw, e⟩ := (hs.since t).mp ht
      exact key w hw t (Or.inl e)
    · obtain ⟨w, hw, e⟩ := (hs.till t).mp ht
      exact key w hw t (Or.inr (Or.inl e))
    · obtain ⟨w, hw, e⟩ := (hs.moment t).mp ht
      exact key w hw t (Or.inr (Or.inr e))

/-! ### Weather -/

theorem made_parts (q : Qualifier) (d : Descriptor) (ws : List Weather) :
    (made q d ws).qualifier = q ∧ (made q d ws).event = .NONE ∧ (made q d ws).tm = none :=
  ⟨made_qualifier q d ws, WeatherPhenomena.pack_event .., rfl⟩

theorem stored_parts (e : Event) : (stored e).qualifier = .NONE ∧
    (stored e).event = (if e.ending then .ENDING else .BEGINNING) ∧ (stored e).tm = some ⟨none, e.hour, e.minute⟩ :=
  ⟨WeatherPhenomena.pack_qualifier .., WeatherPhenomena.pack_event .., rfl⟩

theorem readEvents_ne {hour : Nat} {before : Option (Descriptor × List Weather)} {fs : List EventForm} {es : List Event}
    (hf : fs ≠ []) (h : readEvents hour before fs = some es) : es ≠ [] := by
  cases fs with
  | nil => exact absurd rfl hf
  | cons f fs =>
    rw [readEvents] at h
    split at h
    · cases h
    · rw [Option.map_eq_some_iff] at h
      obtain ⟨a, -, rfl⟩ := h
      simp

theorem event_weather {es : List Event} (h : es ≠ []) :
    WeatherOffers .RMK { t := .EVENT, w := (es.take 20).map stored } := by
  constructor
  · simp
  · simp [WeatherGroup.weatherPhenomena, h]
  · simp [WeatherGroup.weatherPhenomena]
  · intro w hw
    obtain ⟨e, -, rfl⟩ := List.mem_map.mp hw
    simp [stored_parts]
  · intro w hw
    obtain ⟨e, -, rfl⟩ := List.mem_map.mp hw
    simp only [stored_parts]
    cases e.ending <;> simp
  · intro w hw
    obtain ⟨e, -, rfl⟩ := List.mem_map.mp hw
    simp [stored_parts]

theorem plain_weather {p : ReportPart} (hp : p = .METAR ∨ p = .TAF) {es : List WeatherParts} (h : es ≠ [])
    (hl : es.length ≤ 20) {t : WeatherGroupType} (ht : (t = .CURRENT ∧ ∀ e ∈ es, e.1 ≠ .RECENT) ∨
      (t = .RECENT ∧ ∀ e ∈ es, e.1 = .RECENT)) :
    WeatherOffers p { t := t, w := es.map fun e => made e.1 e.2.1 e.2.2 } := by
  have hr := body_not_rmk hp
  constructor
  · rcases ht with ⟨rfl, -⟩ | ⟨rfl, -⟩ <;> simp [hr]
  · rcases ht with ⟨rfl, -⟩ | ⟨rfl, -⟩ <;> simp [WeatherGroup.weatherPhenomena, h]
  · simpa [WeatherGroup.weatherPhenomena] using hl
  · intro w hw
    obtain ⟨e, he, rfl⟩ := List.mem_map.mp hw
    rcases ht with ⟨rfl, ht⟩ | ⟨rfl, ht⟩ <;> simp [made_parts, ht e he]
  · intro w hw
    obtain ⟨e, he, rfl⟩ := List.mem_map.mp hw
    rcases ht with ⟨rfl, ht⟩ | ⟨rfl, ht⟩ <;> simp [made_parts]
  · intro w hw
    obtain ⟨e, he, rfl⟩ := List.mem_map.mp hw
    simp [made_parts]

/-! ### Theorems -/

/-- What the accessors of these groups give. -/
def Offers (p : ReportPart) : Group → Prop
  | .wind g => WindOffers p g
  | .trend g => TrendOffers p g
  | .weather g => WeatherOffers p g
  | _ => True

theorem fixed_offers {s : Str} {g : Group} (h : (s, g) ∈ fixedWords) : Offers .RMK g := by
  simp only [fixedWords, List.mem_cons, Prod.mk.injEq, List.not_mem_nil, or_false] at h
  rcases h with h | h | h | h | h | h | h <;> obtain ⟨-, rfl⟩ := h <;> first | trivial | skip
  all_goals constructor <;> simp [WeatherGroup.weatherPhenomena]

theorem missing_offers {s : Str} {g g' : Group} (h : (s, g, g') ∈ missingWords) : Offers .RMK g ∧ Offers .RMK g' := by
  simp only [missingWords, List.mem_cons, Prod.mk.injEq, List.not_mem_nil, or_false] at h
  rcases h with h | h | h | h | h | h <;> obtain ⟨-, rfl, rfl⟩ := h <;> first | exact ⟨trivial, trivial⟩ | skip
  constructor <;> constructor <;> simp [WeatherGroup.weatherPhenomena]

theorem body_offers {p : ReportPart} {ws : List Str} {g : Group} (hp : p = .METAR ∨ p = .TAF) (h : Written p ws g)
    (hu : ¬ Unfinished ws) : Offers p g := by
  cases h with
  | trend h => exact trend_offers h (hp.imp_right Or.inl)
  | wind h => exact wind_offers h (fun _ => hu) (fun e => absurd e (body_not_rmk hp))
  | noWeather =>
    have hr := body_not_rmk hp
    constructor <;> simp [WeatherGroup.weatherPhenomena, hr]
  | weather h1 h2 h3 => exact plain_weather hp h1 h2 (Or.inl ⟨rfl, fun e he => (h3 e he).2⟩)
  | recentWeather h1 h2 h3 => exact plain_weather hp h1 h2 (Or.inr ⟨rfl, fun e he => (h3 e he).2⟩)
  | _ => trivial

theorem remark_offers {now : Option Nat} {ws : List Str} {g : Group} {next : Str} (h : Remark now ws g)
    (hl : ¬ Lacking next ws) : Offers .RMK (settled g) := by
  cases h with
  | fixed h => 
    have := fixed_offers h
    cases g <;> exact this
  | missing h =>
    have := (missing_offers h).1
    cases g <;> exact this
  | missingSaid h =>
    have := (missing_offers h).2
    cases g <;> exact this
  | wind h => exact wind_offers h (fun e => absurd rfl e) (fun _ hm => hl (.phrase hm))
  | events _ h2 _ h4 => exact event_weather (readEvents_ne h2 h4)
  | lightningSensor => constructor <;> simp [WeatherGroup.weatherPhenomena]
  | lightningSensorTemporarily => constructor <;> simp [WeatherGroup.weatherPhenomena]
  | lightningSensorUnavailable => constructor <;> simp [WeatherGroup.weatherPhenomena]
  | _ => trivial

/-- What the accessors of wind, trend and weather groups give, for every group of every result. -/
theorem all_offers {report : Str} {limit : Nat} {r : ParseResult} (h : Result report limit r) :
    ∀ x ∈ r.groups, Offers x.reportPart x.group := by
  refine every_group (fun _ _ => trivial) ?_ (fun _ => trivial) (fun _ _ _ => body_offers)
    (fun _ _ _ _ => remark_offers) (fun _ _ _ _ _ => trivial) h
  intro s g hw
  cases hw with
  | period h1 h2 h3 h4 =>
    exact trend_offers (.one ⟨h1, h2, h3, h4⟩ (Or.inr rfl)) (Or.inr (Or.inr ⟨_, _, _, _, rfl, rfl⟩))
  | _ => trivial

/-- C78. For every wind group of every result, the type tells which accessors give what. -/
theorem C78_wind (report : Str) (limit : Nat) (r : ParseResult) (h : Result report limit r) :
    ∀ x ∈ r.groups, ∀ g, x.group = .wind g → WindOffers x.reportPart g := by
  intro x hx g hg
  have := all_offers h x hx
  rw [hg] at this
  exact this

/-- C79. For every trend group of every result, the type tells which accessors give what. -/
theorem C79_trend (report : Str) (limit : Nat) (r : ParseResult) (h : Result report limit r) :
    ∀ x ∈ r.groups, ∀ g, x.group = .trend g → TrendOffers x.reportPart g := by
  intro x hx g hg
  have := all_offers h x hx
  rw [hg] at this
  exact this

/-- C80. For every weather group of every result, the type tells which accessors give what. -/
theorem C80_weather (report : Str) (limit : Nat) (r : ParseResult) (h : Result report limit r) :
    ∀ x ∈ r.groups, ∀ g, x.group = .weather g → WeatherOffers x.reportPart g := by
  intro x hx g hg
  have := all_offers h x hx
  rw [hg] at this
  exact this

end Metaf.Props

/-! ### Cases -/

namespace Metaf.Props

open Metaf Metaf.Spec

section
attribute [local instance] ieee

set_option maxRecDepth 4000 in
/-- Wind, weather and trends of several types in one report: the type and what the accessors give. -/
example : ∃ r, Result c!"METAR ULLI 112330Z 24005G10MPS 200V280 -RA RESN BECMG FM1200 TL1400 RMK PK WND 24015/23 RAB20E30" 100 r ∧
    (r.groups.filterMap fun x => match x.group with
      | .wind g => some (x.reportPart, g.windType, g.windDir.degrees, g.gSpeed.isReported, g.vsecEnd.degrees, g.evTime)
      | _ => none) =
      [(.METAR, .SURFACE_WIND_WITH_VARIABLE_SECTOR, some 240, true, some 280, none),
       (.RMK, .PEAK_WIND, some 240, false, none, some ⟨none, 23, 23⟩)] ∧
    (r.groups.filterMap fun x => match x.group with
      | .trend g => some (g.t, g.tFrom, g.tTill, g.tAt)
      | _ => none) = [(.BECMG, some ⟨none, 12, 0⟩, some ⟨none, 14, 0⟩, none)] ∧
    (r.groups.filterMap fun x => match x.group with
      | .weather g => some (x.reportPart, g.t, g.weatherPhenomena.map fun w => (w.event, w.tm))
      | _ => none) =
      [(.METAR, .CURRENT, [(.NONE, none)]), (.METAR, .RECENT, [(.NONE, none)]),
       (.RMK, .EVENT, [(.BEGINNING, some ⟨none, 23, 20⟩), (.ENDING, some ⟨none, 23, 30⟩)])] ∧
    (∀ x ∈ r.groups, ∀ g, x.group = .wind g → WindOffers x.reportPart g) ∧
    (∀ x ∈ r.groups, ∀ g, x.group = .trend g → TrendOffers x.reportPart g) ∧
    ∀ x ∈ r.groups, ∀ g, x.group = .weather g → WeatherOffers x.reportPart g := by
  obtain ⟨r, hr, -⟩ := C01_parse_total
    c!"METAR ULLI 112330Z 24005G10MPS 200V280 -RA RESN BECMG FM1200 TL1400 RMK PK WND 24015/23 RAB20E30" 100
  have h : ((Parser.parse
      c!"METAR ULLI 112330Z 24005G10MPS 200V280 -RA RESN BECMG FM1200 TL1400 RMK PK WND 24015/23 RAB20E30" 100).toOption.map fun r =>
    (r.groups.filterMap fun x => match x.group with
      | .wind g => some (x.reportPart, g.windType, g.windDir.degrees, g.gSpeed.isReported, g.vsecEnd.degrees, g.evTime)
      | _ => none,
     r.groups.filterMap fun x => match x.group with
      | .trend g => some (g.t, g.tFrom, g.tTill, g.tAt)
      | _ => none,
     r.groups.filterMap fun x => match x.group with
      | .weather g => some (x.reportPart, g.t, g.weatherPhenomena.map fun w => (w.event, w.tm))
      | _ => none)) = some
      ([(.METAR, .SURFACE_WIND_WITH_VARIABLE_SECTOR, some 240, true, some 280, none),
        (.RMK, .PEAK_WIND, some 240, false, none, some ⟨none, 23, 23⟩)],
       [(.BECMG, some ⟨none, 12, 0⟩, some ⟨none, 14, 0⟩, none)],
       [(.METAR, .CURRENT, [(.NONE, none)]), (.METAR, .RECENT, [(.NONE, none)]),
        (.RMK, .EVENT, [(.BEGINNING, some ⟨none, 23, 20⟩), (.ENDING, some ⟨none, 23, 30⟩)])]) := by
    kernel_rfl
  rw [hr] at h
  simp only [Except.toOption, Option.map_some, Option.some.injEq, Prod.mk.injEq] at h
  exact ⟨r, hr, h.1, h.2.1, h.2.2, C78_wind _ _ _ hr, C79_trend _ _ _ hr, C80_weather _ _ _ hr⟩

end

end Metaf.Props

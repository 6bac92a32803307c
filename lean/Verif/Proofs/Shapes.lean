import Verif.Proofs.RegexDisjoint
import Verif.Proofs.Recognise
import Verif.Props.Visibility
import Verif.Props.Clouds
import Verif.Props.WeatherEvents
import Verif.Props.CloudTypes
import Verif.Props.Pressure

/-!
For every kind of group and part of a report a regular expression that covers the texts recognised.
-/

set_option linter.unusedSectionVars false

namespace Metaf.Props

open Metaf.Spec

namespace Rx'

open Rx

/-- Letters of the phenomena that may be combined. -/
def codes : Rx :=
  .lits [c!"DZ", c!"RA", c!"SN", c!"SG", c!"IC", c!"PL", c!"GR", c!"GS", c!"UP", c!"BR", c!"FG", c!"FU",
    c!"VA", c!"DU", c!"SA", c!"HZ", c!"PY", c!"PO", c!"SQ", c!"FC", c!"SS", c!"DS"]

/-- Descriptor and phenomena. -/
def phenomena : Rx :=
  .lits [[], c!"MI", c!"PR", c!"BC", c!"DR", c!"BL", c!"SH", c!"TS", c!"FZ"] ⬝ .upTo codes 3

/-- Weather with qualifier. -/
def weather : Rx := .lits [[], c!"-", c!"+", c!"VC", c!"RE"] ⬝ phenomena

/-- Colour codes. -/
def colours : Rx :=
  .lits [c!"BLU+", c!"BLU", c!"WHT", c!"GRN", c!"YLO", c!"YLO1", c!"YLO2", c!"AMB", c!"RED",
    c!"BLACKBLU+", c!"BLACKBLU", c!"BLACKWHT", c!"BLACKGRN", c!"BLACKYLO", c!"BLACKYLO1",
    c!"BLACKYLO2", c!"BLACKAMB", c!"BLACKRED"]

/-- Miles with the unit. -/
def miles : Rx :=
  .lit c!"////SM" ∥ (.opt (.oneOf c!"PM") ⬝ (.d ∥ (.d ⬝ .d)) ⬝ .opt (.chr '/' ⬝ (.d ∥ (.d ⬝ .d))) ⬝ .lit c!"SM")

/-- Cloud types. -/
def clouds : Rx := .lits ((cloudNames ++ obscurationNames).map (·.1))

end Rx'

/-- Regular expression for the texts recognised as the `i`-th kind of group in a part of the report. -/
def shape : Nat → ReportPart → Rx
  | 0, .HEADER => .lits [c!"METAR", c!"SPECI", c!"TAF", c!"AMD", c!"COR", c!"NIL", c!"CNL", c!"$"]
  | 0, .METAR => .lits [c!"COR", c!"NIL", c!"CNL", c!"AUTO", c!"CAVOK", c!"RMK", c!"$"]
  | 0, .TAF => .lits [c!"NIL", c!"CNL", c!"CAVOK", c!"RMK", c!"$"]
  | 0, .RMK => .lits [c!"AO1", c!"AO2", c!"AO1A", c!"AO2A", c!"NOSPECI", c!"$"]
  | 0, .UNKNOWN => .lits [c!"$"]
  | 1, .HEADER => LocationGroup.rgx
  | 2, .HEADER => ReportTimeGroup.rgx
  | 3, .HEADER => TrendGroup.timeSpanRgx
  | 3, .METAR =>
    .lits [c!"BECMG", c!"TEMPO", c!"INTER", c!"NOSIG"] ∥ TrendGroup.trendTimeRgx ∥ TrendGroup.timeSpanRgx
  | 3, .TAF =>
    .lits [c!"BECMG", c!"TEMPO", c!"INTER", c!"PROB30", c!"PROB40"] ∥ TrendGroup.fmRgx ∥
      TrendGroup.timeSpanRgx
  | 4, .METAR => .lits [c!"WS"] ∥ WindGroup.varWindRgx ∥ WindGroup.windRgx
  | 4, .TAF => .lits [c!"WSCONDS"] ∥ WindGroup.varWindRgx ∥ WindGroup.windRgx
  | 4, .RMK => .lits [c!"WSHFT", c!"PK", c!"WND"]
  | 5, .METAR => .d ∥ (.d ⬝ .d) ∥ VisibilityGroup.metersRgx ∥ Rx'.miles ∥ VisibilityGroup.rvrRgx
  | 5, .TAF => .d ∥ (.d ⬝ .d) ∥ VisibilityGroup.metersRgx ∥ Rx'.miles
  | 5, .RMK => .lits [c!"VIS", c!"SFC", c!"TWR", c!"RVRNO", c!"VISNO", c!"RVR"]
  | 6, .METAR | 6, .TAF => .lits [c!"NCD", c!"NSC", c!"CLR", c!"SKC"] ∥ CloudGroup.layerRgx
  | 6, .RMK =>
    .lits (c!"CLD" :: c!"CIG" :: c!"CHINO" :: remarkObscurations.map (·.1)) ∥
      (.lits [c!"FEW", c!"SCT", c!"BKN", c!"OVC"] ⬝ .opt (.d ⬝ .d ⬝ .d))
  | 7, .METAR | 7, .TAF => .lits [c!"NSW", c!"//", c!"RE//"] ∥ Rx'.weather
  | 7, .RMK =>
    .lits [c!"PWINO", c!"TSNO", c!"WX", c!"TS/LTNG"] ∥ (Rx'.phenomena ⬝ .oneOf c!"BE" ⬝ .d ⬝ .star .any)
  | 8, .METAR => TemperatureGroup.rgx
  | 8, .RMK => .lits [c!"T", c!"TD"] ∥ TemperatureGroup.rmkRgx
  | 9, .METAR => .oneOf c!"AQ" ⬝ (.lit c!"////" ∥ (.d ⬝ .d ⬝ .d ⬝ .d))
  | 9, .TAF => .lit c!"QNH" ⬝ (.d ⬝ .d ⬝ .d ⬝ .d) ⬝ .lit c!"INS"
  | 9, .RMK =>
    (.oneOf c!"AQ" ⬝ (.lit c!"////" ∥ (.d ⬝ .d ⬝ .d ⬝ .d))) ∥ .lits [c!"SLPNO", c!"PRES"] ∥
      (.lit c!"SLP" ⬝ (.d ⬝ .d ⬝ .d)) ∥
      (.lit c!"QFE" ⬝ (.d ⬝ .d ⬝ .d) ⬝ .opt (.chr '/' ⬝ (.d ⬝ .d ⬝ .d ⬝ .d)))
  | 10, .METAR =>
    .lits [c!"SNOCLO", c!"R/SNOCLO"] ∥ (.chr 'R' ⬝ .d ⬝ .d ⬝ .opt (.oneOf c!"RCL") ⬝ .chr '/' ⬝
      (.lit c!"SNOCLO" ∥ (.opt (.d ⬝ .d) ⬝ .chr 'D') ∥
       (((RunwayStateGroup.digitOrSlash ⬝ RunwayStateGroup.digitOrSlash ⬝ RunwayStateGroup.twoRx) ∥
         .lit c!"CLRD") ⬝ RunwayStateGroup.twoRx)))
  | 11, .METAR => SeaSurfaceGroup.rgx
  | 12, .TAF => MinMaxTemperatureGroup.forecastRgx
  | 12, .RMK => MinMaxTemperatureGroup.sixHourlyRgx ∥ MinMaxTemperatureGroup.daily24Rgx
  | 13, .METAR => PrecipitationGroup.rfRgx
  | 13, .RMK => .lits [c!"PNO", c!"FZRANO", c!"ICG", c!"PCPN", c!"SNINCR"] ∥ PrecipitationGroup.rgx
  | 14, .TAF => LayerForecastGroup.rgx
  | 15, .RMK => .lits [c!"PRESRR", c!"PRESFR"] ∥ PressureTendencyGroup.rgx
  | 16, .RMK => (.d ⬝ Rx'.clouds ⬝ .star .any) ∥ (Rx'.clouds ⬝ .d ⬝ .star .any)
  | 17, .RMK => LowMidHighCloudGroup.rgx
  | 18, .RMK => .lits [c!"OCNL", c!"FRQ", c!"CONS"] ∥ (.lit c!"LTG" ⬝ .star .any)
  | 19, .RMK =>
    .lits [c!"TS", c!"CB", c!"CBMAM", c!"ACC", c!"TCU", c!"SCSL", c!"ACSL", c!"CCSL", c!"ROTOR", c!"VIRGA",
      c!"VCSH", c!"FOG", c!"FG", c!"HAZE", c!"HZ", c!"SMOKE", c!"FU", c!"BLSN", c!"BLDU", c!"BLSA",
      c!"MIFG", c!"BCFG"]
  | 20, .METAR => Rx'.colours ∥ MiscGroup.correctionRgx
  | 20, .TAF => MiscGroup.issuerRgx
  | 20, .RMK => Rx'.colours ∥ .lits [c!"GR", c!"DENSITY", c!"FROIN"] ∥ MiscGroup.sunshineRgx
  | _, _ => .set []

def parts : List ReportPart := [.UNKNOWN, .HEADER, .METAR, .TAF, .RMK]

/-- No text has two of these shapes, except for clouds and vicinity in remarks. -/
def shapesApart : Bool :=
  parts.all fun p => (List.range 21).all fun i => (List.range 21).all fun j =>
    i == j || Rx.apart 12 (shape i p) (shape j p) || (p == .RMK && (i == 6 && j == 19 || i == 19 && j == 6))

theorem shapes_apart : shapesApart = true := by decide +kernel

theorem shape_apart {i j : Nat} {p : ReportPart} {s : Str} (hi : i < 21) (hj : j < 21) (hne : i ≠ j)
    (h1 : Rx.Lang (shape i p) s) (h2 : Rx.Lang (shape j p) s) :
    p = .RMK ∧ (i = 6 ∧ j = 19 ∨ i = 19 ∧ j = 6) := by
  have hp : p ∈ parts := by cases p <;> decide
  have := List.all_eq_true.mp (List.all_eq_true.mp (List.all_eq_true.mp shapes_apart p hp) i
    (List.mem_range.mpr hi)) j (List.mem_range.mpr hj)
  simp only [Bool.or_eq_true, Bool.and_eq_true, beq_iff_eq] at this
  rcases this with (h | h) | h
  · exact absurd h hne
  · exact (Rx.apart_sound _ _ _ h s h1 h2).elim
  · exact h

/-! ### Coverage -/

open Rx (Lang)

theorem lang_d {c : Char} (h : isDigit c = true) : Lang .d [c] := by
  refine Rx.lang_set.mpr ⟨c, ?_, rfl⟩
  simpa [Rx.inSet, isDigit] using h

theorem lang_append {a b : Rx} {u v : Str} (h1 : Lang a u) (h2 : Lang b v) : Lang (a ⬝ b) (u ++ v) :=
  Rx.lang_seq.mpr ⟨u, v, h1, h2, rfl⟩

theorem lang_left {a b : Rx} {u : Str} (h : Lang a u) : Lang (a ∥ b) u := Rx.lang_alt.mpr (Or.inl h)

theorem lang_right {a b : Rx} {u : Str} (h : Lang b u) : Lang (a ∥ b) u := Rx.lang_alt.mpr (Or.inr h)

theorem lang_digits : ∀ (k : Nat) {s : Str}, s.length = k + 1 → (∀ c ∈ s, isDigit c = true) →
    Lang (.rep .d (k + 1)) s
  | 0, s, hl, hd => by
    obtain ⟨c, rfl⟩ := List.length_eq_one_iff.mp hl
    exact lang_d (hd c (by simp))
  | k + 1, s, hl, hd => by
    match s, hl, hd with
    | c :: s, hl, hd =>
      exact lang_append (u := [c]) (lang_d (hd c (by simp)))
        (lang_digits k (by simpa using hl) fun x hx => hd x (by simp [hx]))

theorem lang_decimal1 (n : Nat) : Lang .d (decimal 1 n) :=
  lang_digits 0 (decimal_length 1 n) (decimal_digits 1 n)
theorem lang_decimal2 (n : Nat) : Lang (.d ⬝ .d) (decimal 2 n) :=
  lang_digits 1 (decimal_length 2 n) (decimal_digits 2 n)
theorem lang_decimal3 (n : Nat) : Lang (.d ⬝ .d ⬝ .d) (decimal 3 n) :=
  lang_digits 2 (decimal_length 3 n) (decimal_digits 3 n)
theorem lang_decimal4 (n : Nat) : Lang (.d ⬝ .d ⬝ .d ⬝ .d) (decimal 4 n) :=
  lang_digits 3 (decimal_length 4 n) (decimal_digits 4 n)

theorem lang_word {ws : List Str} {s : Str} (h : s ∈ ws) : Lang (.lits ws) s := (Rx.lang_lits ws).mpr h

theorem lang_isNone {r : Rx} {s : Str} (h : ¬ (regexMatch r s).isNone = true) : Lang r s := by
  cases hm : regexMatch r s with
  | none => rw [hm] at h; exact absurd rfl h
  | some m => exact Rx.lang_of_regexMatch hm

theorem lang_bind {α : Type} {r : Rx} {s : Str} {f : Caps → Option α} {a : α}
    (h : (match regexMatch r s with | none => none | some m => f m) = some a) : Lang r s := by
  cases hm : regexMatch r s with
  | none => rw [hm] at h; cases h
  | some m => exact Rx.lang_of_regexMatch hm

theorem lang_decimal_any (k n : Nat) (s : Str) : Lang (.d ⬝ .star .any) (decimal (k + 1) n ++ s) := by
  have hl := decimal_length (k + 1) n
  have hd := decimal_digits (k + 1) n
  cases he : decimal (k + 1) n with
  | nil => rw [he] at hl; simp at hl
  | cons c t =>
    rw [he] at hd
    exact lang_append (u := [c]) (lang_d (hd c (by simp))) (Rx.lang_all _)

section

variable [FloatSem]

theorem shape_keyword {s : Str} {p : ReportPart} {g : KeywordGroup} (h : KeywordGroup.parse s p = some g) :
    Lang (shape 0 p) s := by
  unfold KeywordGroup.parse at h
  ite_cases h
  all_goals first
    | (cases h; done)
    | (cases p <;> refine lang_word ?_ <;> simp_all)

theorem shape_location {s : Str} {p : ReportPart} {g : LocationGroup} (h : LocationGroup.parse s p = some g) :
    Lang (shape 1 p) s := by
  unfold LocationGroup.parse at h
  ite_cases h
  all_goals cases h
  rename_i h1 h2
  obtain rfl : p = .HEADER := by simpa using h1
  exact lang_isNone h2

theorem shape_time {s : Str} {p : ReportPart} {g : ReportTimeGroup} (h : ReportTimeGroup.parse s p = some g) :
    Lang (shape 2 p) s := by
  unfold ReportTimeGroup.parse at h
  ite_cases h
  all_goals first
    | cases h
    | skip
  rename_i h1 h2
  obtain rfl : p = .HEADER := by simpa using h1
  exact lang_isNone h2

theorem shape_trend {s : Str} {p : ReportPart} {g : TrendGroup} (h : TrendGroup.parse s p = some g) :
    Lang (shape 3 p) s := by
  have span : ∀ {x}, TrendGroup.fromTimeSpan s = some x → Lang TrendGroup.timeSpanRgx s := fun hx => lang_bind hx
  have spanHM : ∀ {x}, TrendGroup.fromTimeSpanHHMM s = some x → Lang TrendGroup.timeSpanRgx s :=
    fun hx => lang_bind hx
  have fm : ∀ {x}, TrendGroup.fromFm s = some x → Lang TrendGroup.fmRgx s := by
    intro x hx
    unfold TrendGroup.fromFm at hx
    ite_cases hx
    · cases hx
    · exact lang_isNone (by assumption)
  have tt : ∀ {x}, TrendGroup.fromTrendTime s = some x → Lang TrendGroup.trendTimeRgx s := fun hx => lang_bind hx
  unfold TrendGroup.parse at h
  by_cases w : s ∈ [c!"BECMG", c!"TEMPO", c!"INTER"] ∧ (p = .METAR ∨ p = .TAF)
  · obtain ⟨hw, rfl | rfl⟩ := w <;>
    · refine lang_left (lang_word ?_)
      simp only [List.mem_cons, List.not_mem_nil, or_false] at hw ⊢
      tauto
  · simp only [List.mem_cons, List.not_mem_nil, or_false] at w
    rw [if_neg (by tauto), if_neg (by tauto), if_neg (by tauto)] at h
    cases p with
    | UNKNOWN => cases h
    | RMK => cases h
    | HEADER => exact span h
    | METAR =>
      simp only at h
      ite_cases h
      · exact lang_left (lang_word (by simp_all))
      · cases ht : TrendGroup.fromTrendTime s with
        | some x => exact lang_right (lang_left (tt ht))
        | none => rw [ht] at h; exact lang_right (lang_right (spanHM h))
    | TAF =>
      simp only at h
      ite_cases h
      · exact lang_left (lang_word (by simp_all))
      · exact lang_left (lang_word (by simp_all))
      · cases ht : TrendGroup.fromTimeSpan s with
        | some x => exact lang_right (lang_right (span ht))
        | none =>
          rw [ht] at h
          cases hf : TrendGroup.fromFm s with
          | some x => exact lang_right (lang_left (fm hf))
          | none => rw [hf] at h; cases h

theorem shape_wind {s : Str} {p : ReportPart} {g : WindGroup} (h : WindGroup.parse s p = some g) :
    Lang (shape 4 p) s := by
  unfold WindGroup.parse at h
  ite_cases h
  · rename_i hc; obtain ⟨rfl, rfl⟩ := hc; exact lang_left (lang_word (by simp))
  · rename_i hc; obtain ⟨rfl, rfl⟩ := hc; exact lang_left (lang_word (by simp))
  · rename_i hc; obtain ⟨rfl, rfl⟩ := hc; exact lang_word (by simp)
  · rename_i hc; obtain ⟨rfl, rfl⟩ := hc; exact lang_word (by simp)
  · rename_i hc; obtain ⟨rfl, rfl⟩ := hc; exact lang_word (by simp)
  · cases h
  · rename_i hc
    have : Lang (WindGroup.varWindRgx ∥ WindGroup.windRgx) s := by
      cases hv : WindGroup.parseVariableSector s with
      | some x => exact lang_left (lang_bind hv)
      | none => rw [hv] at h; exact lang_right (lang_bind h)
    cases p <;> first | exact lang_right this | exact absurd ⟨by simp, by simp⟩ hc

theorem lang_one_two {k n : Nat} (hk : k = 1 ∨ k = 2) : Lang (.d ∥ (.d ⬝ .d)) (decimal k n) := by
  rcases hk with rfl | rfl
  · exact lang_left (lang_decimal1 n)
  · exact lang_right (lang_decimal2 n)

theorem lang_miles {s : Str} {d : Distance} (h : Distance.fromMileString s = some d) : Lang Rx'.miles s := by
  rcases (C32_miles s d).mp h with ⟨rfl, -⟩ | ⟨q, t, m, x, rfl, hq, ht, -⟩
  · exact lang_left ((Rx.lang_lit _).mpr rfl)
  · refine lang_right ?_
    rw [List.append_assoc]
    refine lang_append ?_ ?_
    · rw [Rx.lang_opt]
      rcases hq with ⟨rfl, -⟩ | ⟨rfl, -⟩ | ⟨rfl, -⟩
      · exact Or.inr rfl
      · exact Or.inl (Rx.lang_set.mpr ⟨_, by decide, rfl⟩)
      · exact Or.inl (Rx.lang_set.mpr ⟨_, by decide, rfl⟩)
    · rcases ht with ⟨k, n, hk, -, rfl, -⟩ | ⟨i, j, a, b, hi, hj, -, -, rfl, -⟩
      · exact lang_append (lang_one_two hk)
          (lang_append (u := []) (Rx.lang_opt.mpr (Or.inr rfl)) ((Rx.lang_lit _).mpr rfl))
      · rw [List.append_assoc]
        refine lang_append (lang_one_two hi) (lang_append (u := '/' :: decimal j b) (Rx.lang_opt.mpr (Or.inl ?_))
          ((Rx.lang_lit _).mpr rfl))
        exact lang_append (u := ['/']) (Rx.lang_chr.mpr rfl) (lang_one_two hj)

theorem shape_visibility {s : Str} {p : ReportPart} {g : VisibilityGroup}
    (h : VisibilityGroup.parse s p = some g) : Lang (shape 5 p) s := by
  have inc : ∀ {x}, VisibilityGroup.fromIncompleteInteger s = some x → ∀ r, Lang (.d ∥ (.d ⬝ .d) ∥ r) s := by
    intro x hx r
    obtain ⟨k, n, hk, -, rfl, -⟩ := (incompleteInteger_iff s x).mp hx
    rcases hk with rfl | rfl
    · exact lang_left (lang_decimal1 n)
    · exact lang_right (lang_left (lang_decimal2 n))
  unfold VisibilityGroup.parse at h
  cases p with
  | UNKNOWN => cases h
  | HEADER => cases h
  | RMK =>
    simp only at h
    ite_cases h
    all_goals first
      | (cases h; done)
      | exact lang_word (by simp_all)
  | METAR =>
    simp only at h
    cases h1 : VisibilityGroup.fromIncompleteInteger s with
    | some x => exact inc h1 _
    | none =>
      rw [h1] at h
      cases h2 : VisibilityGroup.fromMeters s with
      | some x => exact lang_right (lang_right (lang_left (lang_bind h2)))
      | none =>
        rw [h2] at h
        cases h3 : Distance.fromMileString s with
        | some x => exact lang_right (lang_right (lang_right (lang_left (lang_miles h3))))
        | none => rw [h3] at h; exact lang_right (lang_right (lang_right (lang_right (lang_bind h))))
  | TAF =>
    simp only at h
    cases h1 : VisibilityGroup.fromIncompleteInteger s with
    | some x => exact inc h1 _
    | none =>
      rw [h1] at h
      cases h2 : VisibilityGroup.fromMeters s with
      | some x => exact lang_right (lang_right (lang_left (lang_bind h2)))
      | none =>
        rw [h2] at h
        cases h3 : Distance.fromMileString s with
        | some x => exact lang_right (lang_right (lang_right (lang_miles h3)))
        | none => rw [h3] at h; cases h

theorem shape_cloud {s : Str} {p : ReportPart} {g : CloudGroup} (h : CloudGroup.parse s p = some g) :
    Lang (shape 6 p) s := by
  have body : CloudGroup.parseCloudLayerOrVertVis s = some g →
      Lang (.lits [c!"NCD", c!"NSC", c!"CLR", c!"SKC"] ∥ CloudGroup.layerRgx) s := by
    intro h
    unfold CloudGroup.parseCloudLayerOrVertVis at h
    ite_cases h
    · exact lang_left (lang_word (by simp_all))
    · exact lang_left (lang_word (by simp_all))
    · exact lang_left (lang_word (by simp_all))
    · exact lang_left (lang_word (by simp_all))
    · exact lang_right (lang_bind h)
  cases p with
  | UNKNOWN => cases h
  | HEADER => cases h
  | METAR => exact body h
  | TAF => exact body h
  | RMK =>
    rcases (C48_remark s g).mp h with ⟨rfl, -⟩ | ⟨rfl, -⟩ | ⟨rfl, -⟩ | ⟨k, hk, -⟩ | ⟨a, n, ⟨t, ht, -, rfl⟩, -⟩
    · exact lang_left (lang_word (by simp))
    · exact lang_left (lang_word (by simp))
    · exact lang_left (lang_word (by simp))
    · refine lang_left (lang_word ?_)
      simp only [List.mem_cons]
      exact Or.inr (Or.inr (Or.inr (List.mem_map.mpr ⟨_, hk, rfl⟩)))
    · refine lang_right (lang_append (lang_word ?_) ?_)
      · simp only [List.mem_cons, Prod.mk.injEq, List.not_mem_nil, or_false] at ht ⊢
        tauto
      · cases n with
        | none => exact Rx.lang_opt.mpr (Or.inr rfl)
        | some n => exact Rx.lang_opt.mpr (Or.inl (lang_decimal3 n))

theorem allowed_reported {en : Bool} {q : Qualifier} {d : Descriptor} {ws : List Weather}
    (h : AllowedWeather en q d ws) : ws.length ≤ 3 ∧ Weather.NOT_REPORTED ∉ ws := by
  have prec : ∀ {d ws}, PrecipitationWeather d ws → ws.length ≤ 3 ∧ Weather.NOT_REPORTED ∉ ws := by
    intro d ws h
    exact ⟨h.atMost, fun hm => by simpa [isPrecipitation] using h.kind _ hm⟩
  cases h with
  | plain h =>
    cases h <;> refine ⟨by simp, ?_⟩ <;> intro hm
    all_goals first
      | (simp at hm; done)
      | (simp only [List.mem_singleton] at hm; subst hm; rename_i h; revert h; decide)
  | qualified _ h =>
    cases h <;> refine ⟨by simp, ?_⟩ <;> intro hm
    all_goals first
      | (simp at hm; done)
      | (simp only [List.mem_singleton] at hm; subst hm; rename_i h; revert h; decide)
  | precipitation _ h => exact prec h
  | intensity _ _ h => exact prec h

theorem lang_code {w : Weather} (h : w ≠ .NOT_REPORTED) : Lang Rx'.codes (weatherText w) := by
  refine lang_word ?_
  revert h
  cases w <;> decide

theorem lang_codes : ∀ (k : Nat) {ws : List Weather}, ws.length ≤ k → Weather.NOT_REPORTED ∉ ws →
    Lang (.upTo Rx'.codes k) (ws.map weatherText).flatten
  | 0, ws, hl, _ => by
    obtain rfl : ws = [] := List.length_eq_zero_iff.mp (by omega)
    exact Rx.lang_eps.mpr rfl
  | k + 1, [], _, _ => Rx.lang_opt.mpr (Or.inr rfl)
  | k + 1, w :: ws, hl, hn => by
    refine Rx.lang_opt.mpr (Or.inl ?_)
    simp only [List.mem_cons, not_or] at hn
    exact lang_append (lang_code (Ne.symm hn.1)) (lang_codes k (by simpa using hl) hn.2)

theorem lang_phenomena {d : Descriptor} {ws : List Weather} (h : ws.length ≤ 3 ∧ Weather.NOT_REPORTED ∉ ws) :
    Lang Rx'.phenomena (descriptorText d ++ (ws.map weatherText).flatten) :=
  lang_append (lang_word (by cases d <;> decide)) (lang_codes 3 h.1 h.2)

theorem lang_weather {q : Qualifier} {d : Descriptor} {ws : List Weather}
    (h : ws.length ≤ 3 ∧ Weather.NOT_REPORTED ∉ ws) : Lang Rx'.weather (weatherWritten q d ws) := by
  unfold weatherWritten
  rw [List.append_assoc]
  exact lang_append (lang_word (by cases q <;> decide)) (lang_phenomena h)

theorem shape_weather {s : Str} {p : ReportPart} {md : ReportMetadata} {g : WeatherGroup}
    (h : WeatherGroup.parse s p md = .ok (some g)) : Lang (shape 7 p) s := by
  have body : p = .METAR ∨ p = .TAF → Lang (.lits [c!"NSW", c!"//", c!"RE//"] ∥ Rx'.weather) s := by
    intro hp
    rcases (C42_parse s p hp md g).mp h with ⟨rfl, -⟩ | ⟨q, d, ws, ⟨rfl, ⟨-, hq, rfl, rfl⟩ | ⟨-, ha⟩⟩, -⟩
    · exact lang_left (lang_word (by simp))
    · refine lang_left (lang_word ?_)
      rcases hq with rfl | rfl <;> decide
    · exact lang_right (lang_weather (allowed_reported ha))
  cases p with
  | UNKNOWN => cases h
  | HEADER => cases h
  | METAR => exact body (Or.inl rfl)
  | TAF => exact body (Or.inr rfl)
  | RMK =>
    rcases (C42_remark s md g).mp h with ⟨rfl, -⟩ | ⟨rfl, -⟩ | ⟨rfl, -⟩ | ⟨rfl, -⟩ | ⟨rt, fs, es, -, hne, hok, rfl, hr, -⟩
    · exact lang_left (lang_word (by simp))
    · exact lang_left (lang_word (by simp))
    · exact lang_left (lang_word (by simp))
    · exact lang_left (lang_word (by simp))
    · refine lang_right ?_
      cases fs with
      | nil => exact absurd rfl hne
      | cons f fs =>
        obtain ⟨what, ending, hour, minute⟩ := f
        cases what with
        | none => simp [readEvents, readEvent] at hr
        | some w =>
          have ha := allowed_reported ((hok _ List.mem_cons_self).1 w rfl)
          simp only [List.map_cons, List.flatten_cons, EventForm.text, EventForm.names, weatherWritten,
            List.append_assoc]
          rw [show qualifierText .NONE = [] from rfl, List.nil_append, ← List.append_assoc]
          refine lang_append (lang_phenomena ha) (lang_append (u := [if ending then 'E' else 'B']) ?_ ?_)
          · exact Rx.lang_set.mpr ⟨_, by cases ending <;> decide, rfl⟩
          · cases hour with
            | none => exact lang_decimal_any 1 minute _
            | some x => exact (List.append_assoc .. ▸ lang_decimal_any 1 x _)

theorem shape_temperature {s : Str} {p : ReportPart} {g : TemperatureGroup}
    (h : TemperatureGroup.parse s p = some g) : Lang (shape 8 p) s := by
  unfold TemperatureGroup.parse at h
  cases p with
  | UNKNOWN => cases h
  | HEADER => cases h
  | TAF => cases h
  | METAR => exact lang_bind h
  | RMK =>
    simp only at h
    ite_cases h
    · exact lang_left (lang_word (by simp_all))
    · exact lang_left (lang_word (by simp_all))
    · exact lang_right (lang_bind h)

theorem lang_qnh {s : Str} {x : Pressure} (h : QnhWritten s x) :
    Lang (.oneOf c!"AQ" ⬝ (.lit c!"////" ∥ (.d ⬝ .d ⬝ .d ⬝ .d))) s := by
  have a : Lang (.oneOf c!"AQ") ['A'] := Rx.lang_set.mpr ⟨_, by decide, rfl⟩
  have q : Lang (.oneOf c!"AQ") ['Q'] := Rx.lang_set.mpr ⟨_, by decide, rfl⟩
  rcases h with ⟨rfl, -⟩ | ⟨rfl, -⟩ | ⟨n, -, rfl, -⟩ | ⟨n, -, rfl, -⟩
  · exact lang_append a (lang_left ((Rx.lang_lit _).mpr rfl))
  · exact lang_append q (lang_left ((Rx.lang_lit _).mpr rfl))
  · exact lang_append a (lang_right (lang_decimal4 n))
  · exact lang_append q (lang_right (lang_decimal4 n))

theorem shape_pressure {s : Str} {p : ReportPart} {g : PressureGroup}
    (h : PressureGroup.parse s p = some g) : Lang (shape 9 p) s := by
  cases p with
  | UNKNOWN => cases h
  | HEADER => cases h
  | METAR =>
    obtain ⟨x, hx, -⟩ := (C52_body s g).mp h
    exact lang_qnh hx
  | TAF =>
    obtain ⟨n, -, rfl, -⟩ := (C52_forecast s g).mp h
    rw [List.append_assoc]
    exact lang_append ((Rx.lang_lit _).mpr rfl) (lang_append (lang_decimal4 n) ((Rx.lang_lit _).mpr rfl))
  | RMK =>
    rcases (C52_remark s g).mp h with ⟨x, hx, -⟩ | ⟨rfl, -⟩ | ⟨rfl, -⟩ | ⟨n, -, rfl, -⟩ | ⟨n, -, -, hs⟩
    · exact lang_left (lang_qnh hx)
    · exact lang_right (lang_left (lang_word (by simp)))
    · exact lang_right (lang_left (lang_word (by simp)))
    · exact lang_right (lang_right (lang_left (lang_append ((Rx.lang_lit _).mpr rfl) (lang_decimal3 n))))
    · refine lang_right (lang_right (lang_right ?_))
      rcases hs with rfl | ⟨m, -, rfl⟩
      · refine lang_append ((Rx.lang_lit _).mpr rfl) ?_
        rw [← List.append_nil (decimal 3 n)]
        exact lang_append (lang_decimal3 n) (Rx.lang_opt.mpr (Or.inr rfl))
      · simp only [List.append_assoc]
        refine lang_append ((Rx.lang_lit _).mpr rfl) (lang_append (lang_decimal3 n) (Rx.lang_opt.mpr (Or.inl ?_)))
        exact lang_append (u := ['/']) (Rx.lang_chr.mpr rfl) (lang_decimal4 m)

theorem shape_runwayState {s : Str} {p : ReportPart} {g : RunwayStateGroup}
    (h : RunwayStateGroup.parse s p = some g) : Lang (shape 10 p) s := by
  unfold RunwayStateGroup.parse at h
  by_cases hp : p = .METAR
  · subst hp
    rw [if_neg (by simp)] at h
    by_cases hs : s = c!"SNOCLO" ∨ s = c!"R/SNOCLO"
    · exact lang_left (lang_word (by simpa using hs))
    · rw [if_neg hs] at h
      cases hm : regexMatch RunwayStateGroup.rgx s with
      | none => rw [hm] at h; cases h
      | some m =>
        rw [hm] at h
        have hl := Rx.lang_of_regexMatch hm
        unfold RunwayStateGroup.rgx at hl
        rcases Rx.lang_alt.mp hl with hl | hl
        · refine lang_right ?_
          simp only [Rx.lang_seq, Rx.lang_cap, Rx.lang_alt, Rx.lang_opt, RunwayStateGroup.digitOrSlash,
            RunwayStateGroup.twoRx] at hl ⊢
          obtain ⟨u, v, ⟨r, w, hr, ⟨d1, w, hd1, ⟨d2, w, hd2, ho, rfl⟩, rfl⟩, rfl⟩, ⟨c, x, hc, hx, rfl⟩, rfl⟩ := hl
          exact ⟨r, _, hr, ⟨d1, _, hd1, ⟨d2, _, hd2, ⟨_, _, ho, ⟨c, x, hc, hx, rfl⟩, rfl⟩, rfl⟩, rfl⟩, by simp⟩
        · rw [Rx.lang_eps] at hl
          subst hl
          have : regexMatch RunwayStateGroup.rgx [] = some [] := by decide +kernel
          rw [this] at hm
          obtain rfl := Option.some.inj hm
          cases h
  · rw [if_pos hp] at h; cases h

theorem shape_seaSurface {s : Str} {p : ReportPart} {g : SeaSurfaceGroup}
    (h : SeaSurfaceGroup.parse s p = some g) : Lang (shape 11 p) s := by
  unfold SeaSurfaceGroup.parse at h
  by_cases hp : p = .METAR
  · subst hp
    rw [if_neg (by simp)] at h
    exact lang_bind h
  · rw [if_pos hp] at h; cases h

theorem shape_minMax {s : Str} {p : ReportPart} {g : MinMaxTemperatureGroup}
    (h : MinMaxTemperatureGroup.parse s p = some g) : Lang (shape 12 p) s := by
  unfold MinMaxTemperatureGroup.parse at h
  cases p with
  | UNKNOWN => cases h
  | HEADER => cases h
  | METAR => cases h
  | TAF => exact lang_bind h
  | RMK =>
    simp only at h
    cases h6 : MinMaxTemperatureGroup.from6hourly s with
    | some x => exact lang_left (lang_bind h6)
    | none => rw [h6] at h; exact lang_right (lang_bind h)

theorem shape_precipitation {s : Str} {p : ReportPart} {md : ReportMetadata} {g : PrecipitationGroup}
    (h : PrecipitationGroup.parse s p md = some g) : Lang (shape 13 p) s := by
  unfold PrecipitationGroup.parse at h
  cases p with
  | UNKNOWN => cases h
  | HEADER => cases h
  | TAF => cases h
  | METAR => exact lang_bind h
  | RMK =>
    simp only at h
    ite_cases h
    · exact lang_left (lang_word (by simp_all))
    · exact lang_left (lang_word (by simp_all))
    · exact lang_left (lang_word (by simp_all))
    · exact lang_left (lang_word (by simp_all))
    · exact lang_left (lang_word (by simp_all))
    · exact lang_right (lang_bind h)

theorem shape_layerForecast {s : Str} {p : ReportPart} {g : LayerForecastGroup}
    (h : LayerForecastGroup.parse s p = some g) : Lang (shape 14 p) s := by
  unfold LayerForecastGroup.parse at h
  by_cases hp : p = .TAF
  · subst hp
    rw [if_neg (by simp)] at h
    exact lang_bind h
  · rw [if_pos hp] at h; cases h

theorem shape_pressureTendency {s : Str} {p : ReportPart} {g : PressureTendencyGroup}
    (h : PressureTendencyGroup.parse s p = some g) : Lang (shape 15 p) s := by
  unfold PressureTendencyGroup.parse at h
  by_cases hp : p = .RMK
  · subst hp
    rw [if_neg (by simp)] at h
    ite_cases h
    · exact lang_left (lang_word (by simp_all))
    · exact lang_left (lang_word (by simp_all))
    · exact lang_right (lang_bind h)
  · rw [if_pos hp] at h; cases h

theorem shape_cloudTypes {s : Str} {p : ReportPart} {g : CloudTypesGroup}
    (h : CloudTypesGroup.parse s p = some g) : Lang (shape 16 p) s := by
  by_cases hp : p = .RMK
  · subst hp
    rcases (C43_parse s g).mp h with ⟨c, ⟨t, k, n, x, hk, -, -, rfl, -⟩, -⟩ | ⟨l, cs, hne, -, rfl, ho, -⟩
    · refine lang_left ?_
      rw [List.append_assoc]
      exact lang_append (lang_decimal1 n) (lang_append
        (lang_word (List.mem_map.mpr ⟨(t, k), List.mem_append_left _ hk, rfl⟩)) (Rx.lang_all _))
    · cases l with
      | nil => exact absurd rfl hne
      | cons t l =>
        cases ho with
        | cons h1 h2 =>
          obtain ⟨t, k, n, hk, -, rfl, -⟩ := h1
          refine lang_right ?_
          simp only [List.flatten_cons, List.append_assoc]
          exact lang_append (lang_word (List.mem_map.mpr ⟨(t, k), hk, rfl⟩))
            (lang_append (lang_decimal1 n) (Rx.lang_all _))
  · rw [C43_elsewhere s p hp] at h; cases h

theorem shape_lowMidHigh {s : Str} {p : ReportPart} {g : LowMidHighCloudGroup}
    (h : LowMidHighCloudGroup.parse s p = some g) : Lang (shape 17 p) s := by
  unfold LowMidHighCloudGroup.parse at h
  by_cases hp : p = .RMK
  · subst hp
    rw [if_neg (by simp)] at h
    exact lang_bind h
  · rw [if_pos hp] at h; cases h

theorem shape_lightning {s : Str} {p : ReportPart} {g : LightningGroup}
    (h : LightningGroup.parse s p = some g) : Lang (shape 18 p) s := by
  unfold LightningGroup.parse LightningGroup.fromLtgGroup at h
  by_cases hp : p = .RMK
  · subst hp
    rw [if_neg (by simp)] at h
    ite_cases h
    · exact lang_left (lang_word (by simp_all))
    · exact lang_left (lang_word (by simp_all))
    · exact lang_left (lang_word (by simp_all))
    · subst s
      exact lang_right (lang_append (v := []) ((Rx.lang_lit _).mpr rfl) (Rx.lang_all _))
    · cases h
    · cases h
    · rename_i hs
      refine lang_right ?_
      have : s = c!"LTG" ++ s.drop 3 := by
        have e : substr s 0 3 = s.take 3 := rfl
        rw [e, not_not] at hs
        rw [← hs]
        exact (List.take_append_drop 3 s).symm
      rw [this]
      exact lang_append ((Rx.lang_lit _).mpr rfl) (Rx.lang_all _)
  · rw [if_pos hp] at h; cases h

theorem shape_vicinity {s : Str} {p : ReportPart} {g : VicinityGroup}
    (h : VicinityGroup.parse s p = some g) : Lang (shape 19 p) s := by
  unfold VicinityGroup.parse at h
  by_cases hp : p = .RMK
  · subst hp
    rw [if_neg (by simp)] at h
    ite_cases h
    all_goals first
      | (cases h; done)
      | (clear h; refine lang_word ?_; subst s; simp)
      | (clear h; refine lang_word ?_; rename_i h; rcases h with rfl | rfl <;> simp)
  · rw [if_pos hp] at h; cases h

theorem lang_colour {s : Str} {t : MiscType} (h : MiscGroup.parseColourCode s = some t) :
    Lang Rx'.colours s := by
  unfold MiscGroup.parseColourCode at h
  ite_cases h
  all_goals first
    | (cases h; done)
    | (clear h; refine lang_word ?_; subst s; simp)

theorem shape_misc {s : Str} {p : ReportPart} {g : MiscGroup}
    (h : MiscGroup.parse s p = some g) : Lang (shape 20 p) s := by
  unfold MiscGroup.parse at h
  cases p with
  | UNKNOWN => cases h
  | HEADER => cases h
  | TAF =>
    simp only at h
    cases hm : regexMatch MiscGroup.issuerRgx s with
    | none => rw [hm] at h; cases h
    | some m => exact Rx.lang_of_regexMatch hm
  | METAR =>
    simp only at h
    cases hc : MiscGroup.parseColourCode s with
    | some t => exact lang_left (lang_colour hc)
    | none =>
      rw [hc] at h
      cases hm : regexMatch MiscGroup.correctionRgx s with
      | none => rw [hm] at h; cases h
      | some m => exact lang_right (Rx.lang_of_regexMatch hm)
  | RMK =>
    simp only at h
    cases hc : MiscGroup.parseColourCode s with
    | some t => exact lang_left (lang_colour hc)
    | none =>
      rw [hc] at h
      simp only at h
      ite_cases h
      · exact lang_right (lang_left (lang_word (by simp_all)))
      · exact lang_right (lang_left (lang_word (by simp_all)))
      · cases hm : regexMatch MiscGroup.sunshineRgx s with
        | some m => exact lang_right (lang_right (Rx.lang_of_regexMatch hm))
        | none =>
          rw [hm] at h
          simp only at h
          ite_cases h
          · exact lang_right (lang_left (lang_word (by simp_all)))
          · cases h

/-- The text recognised as some kind of group has the shape of that kind. -/
theorem recognise_shape {i : Nat} {s : Str} {p : ReportPart} {md : ReportMetadata} {g : Group}
    (h : recognise i s p md = .ok (some g)) : i < 21 ∧ Lang (shape i p) s := by
  unfold recognise at h
  split at h
  case h_8 =>
    split at h
    · cases h
    · rename_i r hr
      cases r with
      | none => cases h
      | some x => exact ⟨by decide, shape_weather hr⟩
  case h_22 => cases h
  all_goals
    obtain ⟨x, hx, -⟩ := Option.map_eq_some_iff.mp (Except.ok.inj h)
    refine ⟨by decide, ?_⟩
    first
      | exact shape_keyword hx | exact shape_location hx | exact shape_time hx | exact shape_trend hx
      | exact shape_wind hx | exact shape_visibility hx | exact shape_cloud hx
      | exact shape_temperature hx | exact shape_pressure hx | exact shape_runwayState hx
      | exact shape_seaSurface hx | exact shape_minMax hx | exact shape_precipitation hx
      | exact shape_layerForecast hx | exact shape_pressureTendency hx | exact shape_cloudTypes hx
      | exact shape_lowMidHigh hx | exact shape_lightning hx | exact shape_vicinity hx | exact shape_misc hx

end

end Metaf.Props

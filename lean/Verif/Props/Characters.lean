import Verif.Props.AnyReport
import Verif.Props.Reparse
import Verif.Ieee

/-!
C131: groups are recognised case-sensitively. Words which contain a small letter or any other character
than capitals, digits and `/ + - $ .` are not recognised; only what follows `LTG` is not looked at.
-/

namespace Metaf.Props

set_option linter.unusedSectionVars false

open Metaf Metaf.Spec

/-! ### Specification -/

/-- The characters reports are made of. -/
def ReportCharacter (c : Char) : Prop := Capital c ∨ Digit c ∨ c ∈ c!"/+-$."

/-- A word made of the characters of reports. -/
def ReportWord (w : Str) : Prop := ∀ c ∈ w, ReportCharacter c

/-! ### Words made of these characters -/

def plainChar (c : Char) : Bool :=
  ('A' ≤ c && c ≤ 'Z') || ('0' ≤ c && c ≤ '9') || c == '/' || c == '+' || c == '-' || c == '$' || c == '.'

def clean (w : Str) : Bool := w.all plainChar

theorem reportCharacter_iff (c : Char) : plainChar c = true ↔ ReportCharacter c := by
  simp [plainChar, ReportCharacter, Capital, Digit, or_assoc]

theorem clean_iff (w : Str) : clean w = true ↔ ReportWord w := by
  simp [clean, ReportWord, reportCharacter_iff]

theorem clean_append (a b : Str) : clean (a ++ b) = (clean a && clean b) := List.all_append

theorem clean_cons (c : Char) (b : Str) : clean (c :: b) = (plainChar c && clean b) := rfl

theorem clean_nil : clean [] = true := rfl

theorem clean_decimal (k n : Nat) : clean (decimal k n) = true := by
  refine List.all_eq_true.mpr fun c hc => ?_
  have h := decimal_digits k n c hc
  simp only [isDigit, Bool.and_eq_true, decide_eq_true_eq] at h
  rw [reportCharacter_iff]
  exact Or.inr (Or.inl h)

theorem clean_flatten {l : List Str} (h : ∀ w ∈ l, clean w = true) : clean l.flatten = true := by
  induction l with
  | nil => rfl
  | cons a l ih =>
    rw [List.flatten_cons, clean_append, h a (by simp), ih fun w hw => h w (by simp [hw])]
    rfl

theorem clean_slashes (k : Nat) : clean (List.replicate k '/') = true := by
  induction k with
  | zero => rfl
  | succ k ih => rw [List.replicate_succ, clean_cons, ih]; rfl

theorem clean_digitChar (k : Nat) : k < 10 → plainChar (Nat.digitChar k) = true := by
  intro h
  interval_cases k <;> rfl

/-- Closes goals about texts put together from clean pieces. -/
macro "clean_up" : tactic =>
  `(tactic| (simp only [clean_append, clean_cons, clean_decimal, clean_nil, Bool.and_eq_true, and_true,
      true_and]; try decide))

theorem clean_keyword {p : ReportPart} {s : Str} {k : KeywordType} (h : IsKeyword p s k) : clean s = true := by
  obtain ⟨ps, h, -⟩ := h
  have ht : ∀ x ∈ keywords, clean x.1 = true := by decide
  exact ht _ h

theorem clean_octant {w : Str} {n : Nat} (h : (w, n) ∈ octantNames) : clean w = true := by
  have ht : ∀ x ∈ octantNames, clean x.1 = true := by decide
  exact ht _ h

theorem clean_designator (d : Designator) : clean (designatorText d) = true := by cases d <;> rfl

theorem clean_dashed {x : Str} {l : List Str} (hx : clean x = true) (hl : ∀ w ∈ l, clean w = true) :
    clean (dashed x l) = true := by
  induction l generalizing x with
  | nil => exact hx
  | cons y l ih =>
    rw [dashed, clean_append, clean_cons, hx, ih (hl y (by simp)) fun w hw => hl w (by simp [hw])]
    rfl

theorem clean_sector {x y : Str} {n m : Nat} {mid : List Str} (hx : (x, n) ∈ octantNames)
    (hy : (y, m) ∈ octantNames) (hm : ∀ w ∈ mid, IsOctant w) : clean (dashed x (mid ++ [y])) = true := by
  refine clean_dashed (clean_octant hx) fun w hw => ?_
  rcases List.mem_append.mp hw with hw | hw
  · obtain ⟨n, h⟩ := hm w hw
    exact clean_octant h
  · exact List.mem_singleton.mp hw ▸ clean_octant hy

theorem clean_heading {w : Str} {f t : Option Direction} {c : List Cardinal} (h : HeadingText w f t c) :
    clean w = true := by
  cases h with
  | octant h => exact clean_octant h
  | ndv | overhead | allQuadrants => decide
  | sector h1 h2 h3 => exact clean_sector h1 h2 h3

theorem clean_where {w : Str} {d f t : Option Direction} (h : WhereWord w d f t) : clean w = true := by
  cases h with
  | octant h => exact clean_octant h
  | ndv => decide
  | sector h1 h2 h3 => exact clean_sector h1 h2 h3

theorem clean_speed (n : Nat) : clean (speedText n) = true := by
  unfold speedText; split <;> exact clean_decimal _ _

theorem clean_wind (w : WindText) : clean w.text = true := by
  obtain ⟨s, d, v, g, u⟩ := w
  unfold WindText.text
  cases s <;> cases d <;> cases v <;> cases g <;> cases u <;>
    simp only [WindDirection.text, unitText, Option.getD, clean_append, clean_cons, clean_decimal, clean_nil,
      clean_speed, Bool.and_true, Bool.true_and, List.append_nil, List.nil_append] <;> decide

theorem clean_eventTime {now : Option Nat} {s : Str} {t : MetafTime} (h : EventTime now s t) :
    clean s = true := by
  cases h <;> clean_up

theorem clean_runway {s : Str} {r : Runway} (h : RunwayWord s r) : clean s = true := by
  obtain ⟨-, pre, hp, rfl⟩ := h
  have hd := clean_designator r.rDesignator
  rcases hp with rfl | rfl <;> simp only [clean_append, clean_decimal, hd] <;> decide

theorem all_one {a : Str} (h : clean a = true) : ∀ w ∈ [a], clean w = true := by simpa using h

theorem all_two {a b : Str} (h : clean a = true) (h' : clean b = true) : ∀ w ∈ [a, b], clean w = true := by
  simp [h, h']

theorem all_three {a b c : Str} (h : clean a = true) (h' : clean b = true) (h'' : clean c = true) :
    ∀ w ∈ [a, b, c], clean w = true := by simp [h, h', h'']

theorem all_cons {a : Str} {l : List Str} (h : clean a = true) (h' : ∀ w ∈ l, clean w = true) :
    ∀ w ∈ a :: l, clean w = true := by
  intro w hw
  rcases List.mem_cons.mp hw with rfl | hw
  · exact h
  · exact h' w hw

theorem all_join {k l : List Str} (h : ∀ w ∈ k, clean w = true) (h' : ∀ w ∈ l, clean w = true) :
    ∀ w ∈ k ++ l, clean w = true := by
  intro w hw
  rcases List.mem_append.mp hw with hw | hw
  · exact h w hw
  · exact h' w hw

theorem clean_windSequence [FloatIeee] {p : ReportPart} {now : Option Nat} {ws : List Str} {g : WindGroup}
    (h : WindSequence p now ws g) : ∀ w ∈ ws, clean w = true := by
  have hs (a b : Nat) : clean (decimal 3 (10 * a) ++ c!"V" ++ decimal 3 (10 * b)) = true := by clean_up
  cases h with
  | wind => exact all_one (clean_wind _)
  | windAndSector => exact all_two (clean_wind _) (hs _ _)
  | sector => exact all_one (hs _ _)
  | shearRunway _ hn hp =>
    refine all_two (by decide) ?_
    have hd := clean_designator
    rcases hp with rfl | rfl <;> simp only [clean_append, clean_decimal, hd] <;> decide
  | peakWind _ _ _ ht =>
    refine all_three (by decide) (by decide) ?_
    simp only [clean_append, clean_decimal, clean_speed, clean_eventTime ht]
    decide
  | shiftTime _ ht => exact all_two (by decide) (clean_eventTime ht)
  | shiftTimeFront _ ht => exact all_three (by decide) (clean_eventTime ht) (by decide)
  | _ => decide

/-! ### Visibility -/

theorem clean_mileText {t : Str} {q : Rat} (h : MileText t q) : clean t = true := by
  rcases h with ⟨k, n, -, -, rfl, -⟩ | ⟨i, j, a, b, -, -, -, -, rfl, -⟩ <;> clean_up

theorem clean_milePrefix {t : Str} {m : Modifier} (h : MilePrefix t m) : clean t = true := by
  rcases h with ⟨rfl, -⟩ | ⟨rfl, -⟩ | ⟨rfl, -⟩ <;> rfl

theorem clean_mileWord {t : Str} {m : Modifier} {q : Rat} (h : MileWord t m q) : clean t = true := by
  obtain ⟨p, t, hp, ht, rfl⟩ := h
  rw [clean_append, clean_milePrefix hp, clean_mileText ht]
  rfl

theorem clean_fraction {t : Str} {q : Rat} (h : FractionWord t q) : clean t = true := by
  obtain ⟨i, j, a, b, -, -, -, -, -, rfl, -⟩ := h
  clean_up

theorem clean_meters {t : Str} {d : Distance} (h : MeterWord t d) : clean t = true := by
  rcases h with ⟨rfl, -⟩ | ⟨n, -, rfl, -⟩
  · decide
  · clean_up

theorem clean_minimum {ws : List Str} {a : Str} {d : Distance} (h : Minimum ws a d) :
    (∀ w ∈ ws, clean w = true) ∧ clean a = true := by
  cases h with
  | plain h => exact ⟨by simp, clean_mileWord h⟩
  | mixed h1 h2 => exact ⟨all_one (clean_mileWord h1.1), clean_mileWord h2.1⟩

theorem clean_range {a b : Str} (ha : clean a = true) (hb : clean b = true) : clean (a ++ 'V' :: b) = true := by
  rw [clean_append, clean_cons, ha, hb]; rfl

theorem clean_amount {ws : List Str} {k : AmountKind} {v x : Distance} (h : Amount ws k v x) :
    ∀ w ∈ ws, clean w = true := by
  cases h with
  | whole h => exact all_one (clean_mileWord h.1)
  | part h => exact all_one (clean_mileWord h.1)
  | mixed h1 h2 => exact all_two (clean_mileWord h1.1) (clean_mileWord h2.1)
  | meters h => exact all_one (clean_meters h)
  | rangeWhole h1 h2 =>
    exact all_join (clean_minimum h1).1 (all_one (clean_range (clean_minimum h1).2 (clean_mileWord h2.1)))
  | range h1 h2 =>
    exact all_join (clean_minimum h1).1 (all_one (clean_range (clean_minimum h1).2 (clean_mileWord h2.1)))
  | rangeMixed h1 h2 h3 =>
    exact all_join (clean_minimum h1).1
      (all_two (clean_range (clean_minimum h1).2 (clean_mileWord h2.1)) (clean_fraction h3))
  | meterRange h1 h2 => exact all_one (clean_range (clean_meters h1) (clean_meters h2))

theorem clean_observer {w : Str} {t : VisibilityType}
    (h : (w, t) ∈ [(c!"SFC", VisibilityType.SURFACE), (c!"TWR", .TOWER)]) : clean w = true := by
  have ht : ∀ x ∈ [(c!"SFC", VisibilityType.SURFACE), (c!"TWR", .TOWER)], clean x.1 = true := by decide
  exact ht _ h

theorem clean_visRemark {ws : List Str} {g : VisibilityGroup} (h : VisRemark ws g) :
    ∀ w ∈ ws, clean w = true := by
  cases h with
  | visAmount h => exact all_cons (by decide) (clean_amount h)
  | visAmountRunway h h' =>
    exact all_cons (by decide) (all_join (clean_amount h) (all_one (clean_runway h')))
  | visWhere h => exact all_two (by decide) (clean_where h)
  | visWhereAmount h h' => exact all_cons (by decide) (all_cons (clean_where h) (clean_amount h'))
  | observer h => exact all_one (clean_observer h)
  | observerVis h => exact all_two (clean_observer h) (by decide)
  | observerAmount h h' => exact all_cons (clean_observer h) (all_cons (by decide) (clean_amount h'))
  | visnoRunway h => exact all_two (by decide) (clean_runway h)
  | visnoWhere h => exact all_two (by decide) (clean_where h)
  | _ => decide

theorem clean_milesGroup {s : Str} {d : Distance} (h : MilesGroup s d) : clean s = true := by
  rcases h with ⟨rfl, -⟩ | ⟨p, t, m, q, rfl, hp, ht, -⟩
  · decide
  · simp only [clean_append, clean_milePrefix hp, clean_mileText ht]
    decide

theorem clean_meterText {s : Str} {d : Distance} (h : MeterText s d) : clean s = true := by
  rcases h with ⟨rfl, -⟩ | ⟨rfl, -⟩ | ⟨n, -, rfl, -⟩
  · decide
  · decide
  · clean_up

theorem clean_suffix {s : Str} {t : VisibilityType} {d : Option Direction} (h : SuffixText s t d) :
    clean s = true := by
  rcases h with ⟨rfl, -⟩ | ⟨n, h, -⟩ | ⟨rfl, -⟩ | ⟨⟨-, -, h⟩, -⟩
  · rfl
  · exact clean_octant h
  · decide
  · have ht : ∀ a ∈ c!"NSWE", ∀ b ∈ [[], c!"W", c!"E", c!"D"], ∀ v ∈ [[], c!"V"],
        clean (a :: (b ++ v)) = true := by decide
    obtain ⟨a, ha, b, hb, v, hv, rfl⟩ := h
    exact ht a ha b hb v hv

theorem clean_bodyVisibility {s : Str} {g : VisibilityGroup} (h : BodyVisibility s g) : clean s = true := by
  rcases h with ⟨k, n, -, -, rfl, -⟩ | ⟨v, x, d, t, o, hv, hx, rfl, -⟩ | ⟨d, h, -⟩
  · exact clean_decimal _ _
  · rw [clean_append, clean_meterText hv, clean_suffix hx]; rfl
  · exact clean_milesGroup h

theorem clean_rvrValue (x : RvrLimit × Nat) : clean (RvrText.valueText x) = true := by
  obtain ⟨a, b⟩ := x
  cases a <;> simp only [RvrText.valueText, RvrLimit.text] <;> clean_up

theorem clean_rvr (v : RvrText) : clean v.text = true := by
  obtain ⟨r, x, y, f, s, t⟩ := v
  have h1 : clean (RvrText.runwayPart r) = true := by
    cases r with
    | none => decide
    | some r => simp only [RvrText.runwayPart, clean_append, clean_decimal, clean_designator]; decide
  have h2 : clean (RvrText.valuePart x) = true := by
    cases x with
    | none => decide
    | some r => exact clean_rvrValue _
  have h3 : clean (RvrText.maxPart y) = true := by
    cases y with
    | none => decide
    | some r => rw [RvrText.maxPart, clean_cons, clean_rvrValue]; rfl
  have h4 : clean (RvrText.unitPart f s) = true := by cases f <;> cases s <;> rfl
  have h5 : clean (rvrTrendText t) = true := by cases t <;> rfl
  simp only [RvrText.text, clean_append, h1, h2, h3, h4, h5]
  decide

/-! ### Clouds and weather -/

theorem clean_layer {s : Str} {g : CloudGroup} (h : LayerGroup s g) : clean s = true := by
  obtain ⟨a, am, h, ct, c, ha, -, hc, -, rfl, -⟩ := h
  have h1 : ∀ x ∈ amountNames, clean x.1 = true := by decide
  have h2 : ∀ x ∈ convectiveNames, clean x.1 = true := by decide
  have h3 : clean (heightText h) = true := by
    cases h with
    | none => decide
    | some n => exact clean_decimal _ _
  rw [clean_append, clean_append, h1 _ ha, h2 _ hc, h3]
  rfl

theorem clean_place {w : Str} {r : Option Runway} {d : Option Direction} (h : PlaceWord w r d) :
    clean w = true := by
  cases h with
  | runway h => exact clean_runway h
  | octant h => exact clean_octant h
  | ndv => decide

theorem clean_ceiling {w : Str} {g : CloudGroup} (h : CeilingWord w g) : clean w = true := by
  cases h <;> clean_up

theorem clean_obscuration {s : Str} {k : CloudTypeKind} (h : (s, k) ∈ remarkObscurations) : clean s = true := by
  have ht : ∀ x ∈ remarkObscurations, clean x.1 = true := by decide
  exact ht _ h

theorem clean_amountText {s : Str} {a : Metaf.Amount} {o : Option Nat} (h : AmountText s a o) : clean s = true := by
  obtain ⟨t, ha, -, rfl⟩ := h
  have ht : ∀ x ∈ [(c!"FEW", Metaf.Amount.FEW), (c!"SCT", .SCATTERED), (c!"BKN", .BROKEN), (c!"OVC", .OVERCAST)],
      clean x.1 = true := by decide
  rw [clean_append, ht _ ha]
  cases o with
  | none => rfl
  | some n => exact clean_decimal _ _

theorem clean_cloudRemark {ws : List Str} {g : CloudGroup} (h : CloudRemark ws g) :
    ∀ w ∈ ws, clean w = true := by
  cases h with
  | ceilingHeight h => exact all_two (by decide) (clean_ceiling h)
  | ceilingPlace h h' => exact all_three (by decide) (clean_ceiling h) (clean_place h')
  | noCeilingPlace h => exact all_two (by decide) (clean_place h)
  | obscuration h => exact all_one (clean_obscuration h)
  | obscurationAmount h h' => exact all_two (clean_obscuration h) (clean_amountText h')
  | amount h => exact all_one (clean_amountText h)
  | amountV h => exact all_two (clean_amountText h) (by decide)
  | varying h h' =>
    have ht : ∀ x ∈ variableAmounts, clean x.2.1 = true := by decide
    exact all_three (clean_amountText h) (by decide) (ht _ h')
  | _ => decide

theorem clean_weather (q : Qualifier) (d : Descriptor) (ws : List Weather) :
    clean (weatherWritten q d ws) = true := by
  have h1 : clean (qualifierText q) = true := by cases q <;> rfl
  have h2 : clean (descriptorText d) = true := by cases d <;> rfl
  have h3 : clean (ws.map weatherText).flatten = true := by
    refine clean_flatten fun w hw => ?_
    obtain ⟨x, -, rfl⟩ := List.mem_map.mp hw
    cases x <;> rfl
  rw [weatherWritten, clean_append, clean_append, h1, h2, h3]
  rfl

theorem clean_event (f : EventForm) : clean f.text = true := by
  obtain ⟨a, b, c, d⟩ := f
  have h1 : clean (EventForm.names ⟨a, b, c, d⟩) = true := by
    cases a with
    | none => rfl
    | some p => exact clean_weather _ _ _
  rw [EventForm.text, clean_append, clean_append, clean_append, h1, clean_decimal]
  cases b <;> cases c with
  | none => rfl
  | some n => simp only [Option.map, Option.getD, clean_decimal]; rfl

/-! ### The other groups -/

theorem clean_trend (w : TrendWord) : clean w.text = true := by
  cases w <;> simp only [TrendWord.text] <;> clean_up

theorem clean_degrees (d : Degrees) : clean d.text = true := by
  cases d with
  | missing => decide
  | value b n => cases b <;> simp only [Degrees.text] <;> clean_up

theorem clean_dew (d : Option Degrees) : clean (dewText d) = true := by
  cases d with
  | none => rfl
  | some d => exact clean_degrees d

theorem clean_tenths (t : Tenths) : clean t.text = true := by
  obtain ⟨b, n⟩ := t
  cases b <;> simp only [Tenths.text, clean_append, clean_decimal] <;> rfl

theorem clean_tenthsDew (d : Option Tenths) : clean (tenthsText d) = true := by
  cases d with
  | none => rfl
  | some d => exact clean_tenths d

theorem clean_remarkTemperature (b : Bool) (n : Nat) : clean (remarkTemperatureText b n) = true := by
  cases b <;> simp only [remarkTemperatureText, clean_append, clean_decimal] <;> rfl

theorem clean_qnh [FloatIeee] {s : Str} {p : Pressure} (h : QnhWritten s p) : clean s = true := by
  rcases h with ⟨rfl, -⟩ | ⟨rfl, -⟩ | ⟨n, -, rfl, -⟩ | ⟨n, -, rfl, -⟩
  · decide
  · decide
  · clean_up
  · clean_up

theorem clean_friction {s : Str} {x : SurfaceFriction} (h : FrictionWritten s x) : clean s = true := by
  rcases h with ⟨rfl, -⟩ | ⟨rfl, -⟩ | ⟨n, -, rfl, -⟩ | ⟨n, c, -, rfl, -⟩
  · decide
  · decide
  · clean_up
  · clean_up

theorem clean_depth {s : Str} {p : Precipitation} {t : RunwayStateType} (h : DepthWritten s p t) :
    clean s = true := by
  rcases h with ⟨rfl, -⟩ | ⟨rfl, -⟩ | ⟨n, -, -, rfl, -⟩
  · decide
  · decide
  · clean_up

theorem clean_code {α : Type} {table : List α} {m x : α} {c : Char} (hl : table.length ≤ 10)
    (h : CodeWritten table m c x) : plainChar c = true := by
  rcases h with ⟨rfl, -⟩ | ⟨k, hk, rfl⟩
  · rfl
  · obtain ⟨hk, -⟩ := List.getElem?_eq_some_iff.mp hk
    exact clean_digitChar k (by omega)

theorem clean_state {r : Runway} {s : Str} {g : RunwayStateGroup} (h : StateWritten r s g) : clean s = true := by
  cases h with
  | snoclo | cleared => decide
  | clearedFriction h => rw [clean_append, clean_friction h]; rfl
  | clrd h => rw [clean_append, clean_friction h]; rfl
  | state h1 h2 h3 h4 =>
    simp only [clean_append, clean_cons, clean_nil, clean_code (by decide) h1, clean_code (by decide) h2,
      clean_depth h3, clean_friction h4]
    rfl

theorem clean_seaTemperature {s : Str} {t : Temperature} (h : SeaTemperatureWritten s t) : clean s = true := by
  rcases h with ⟨rfl, -⟩ | ⟨n, -, rfl, -⟩
  · decide
  · clean_up

theorem clean_waves {s : Str} {w : WaveHeight} (h : WavesWritten s w) : clean s = true := by
  rcases h with ⟨rfl, -⟩ | ⟨rfl, -⟩ | ⟨k, n, -, -, -, rfl, -⟩ | ⟨n, h, -, rfl, -⟩
  · decide
  · decide
  · clean_up
  · clean_up

theorem clean_forecast (f : ForecastTemperature) : clean f.text = true := by
  obtain ⟨l, b, x, y, z⟩ := f
  cases l <;> cases b <;>
    simp only [ForecastTemperature.text, ExtremeLabel.text, clean_append, clean_decimal] <;> rfl

theorem clean_rain [FloatIeee] {k : Nat} {s : Str} {p : Precipitation} (h : RainWritten k s p) :
    clean s = true := by
  rcases h with ⟨rfl, -⟩ | ⟨a, f, -, -, rfl, -⟩
  · rw [clean_append, clean_slashes]; rfl
  · clean_up

theorem clean_layerKind {s : Str} {t : LayerForecastType} (h : LayerKindWritten s t) : clean s = true := by
  have hk : icingCode.length ≤ 10 := by decide
  have hk' : turbulenceCode.length ≤ 10 := by decide
  rcases h with ⟨k, h, rfl⟩ | ⟨k, h, rfl⟩ | ⟨rfl, -⟩
  · obtain ⟨h, -⟩ := List.getElem?_eq_some_iff.mp h
    rw [clean_cons, clean_cons, clean_digitChar k (by omega)]; rfl
  · obtain ⟨h, -⟩ := List.getElem?_eq_some_iff.mp h
    rw [clean_cons, clean_cons, clean_digitChar k (by omega)]; rfl
  · rfl

theorem clean_layerHeights {s : Str} {b t : Distance} (h : LayerWritten s b t) : clean s = true := by
  rcases h with ⟨rfl, -⟩ | ⟨n, m, -, -, rfl, -⟩
  · decide
  · clean_up

theorem clean_misc [FloatIeee] {p : ReportPart} {ws : List Str} {g : MiscGroup} (h : MiscText p ws g) :
    ∀ w ∈ ws, clean w = true := by
  have hq : ∀ x ∈ quarterTexts, clean x.1 = true := by decide
  cases h with
  | colour _ h =>
    have ht : ∀ x ∈ colourCodes, clean x.1 = true := by decide
    exact all_one (ht _ h)
  | correction h =>
    refine all_one ?_
    rename_i i
    interval_cases i <;> rfl
  | issuerN | issuerS | sunshine => exact all_one (by clean_up)
  | densityValue => exact all_three (by decide) (by decide) (by clean_up)
  | hailInches => exact all_two (by decide) (by clean_up)
  | hailQuarters h => exact all_two (by decide) (hq _ h)
  | hailBoth _ _ h => exact all_three (by decide) (by clean_up) (hq _ h)
  | _ => decide

/-- Words of the body of a report. -/
theorem clean_written [FloatIeee] {p : ReportPart} {ws : List Str} {g : Group} (h : Written p ws g) :
    ∀ w ∈ ws, clean w = true := by
  cases h with
  | keyword h => exact all_one (clean_keyword h)
  | trend h =>
    intro w hw
    obtain ⟨x, -, rfl⟩ := List.mem_map.mp hw
    exact clean_trend x
  | wind h => exact clean_windSequence h
  | visibility h => exact all_one (clean_bodyVisibility h)
  | runwayVisualRange => exact all_one (clean_rvr _)
  | milesAndFraction _ _ h => exact all_two (clean_decimal _ _) (clean_milesGroup h)
  | noClouds h =>
    have ht : ∀ x ∈ noClouds, clean x.1 = true := by decide
    exact all_one (ht _ h)
  | cloud h => exact all_one (clean_layer h)
  | noWeather => decide
  | weather | recentWeather =>
    intro w hw
    obtain ⟨x, -, rfl⟩ := List.mem_map.mp hw
    exact clean_weather _ _ _
  | temperature =>
    refine all_one ?_
    simp only [clean_append, clean_degrees, clean_dew]; rfl
  | pressure _ h => exact all_one (clean_qnh h)
  | forecastPressure => exact all_one (by clean_up)
  | snowClosed _ h => rcases h with rfl | rfl <;> decide
  | runwayState _ _ h =>
    refine all_one ?_
    simp only [runwayText, clean_append, clean_cons, clean_decimal, clean_designator, clean_state h]; decide
  | seaSurface _ h h' =>
    refine all_one ?_
    simp only [clean_append, clean_seaTemperature h, clean_waves h']; decide
  | forecastTemperature => exact all_one (clean_forecast _)
  | forecastTemperatures => exact all_two (clean_forecast _) (clean_forecast _)
  | rainfall _ h h' =>
    refine all_one ?_
    simp only [clean_append, clean_rain h, clean_rain h']; decide
  | layer _ h h' =>
    refine all_one ?_
    rw [clean_append, clean_layerKind h, clean_layerHeights h']; rfl
  | misc h => exact clean_misc h

theorem clean_noTemperature {ms : List Str} (h : ∀ m ∈ ms, m ∈ noTemperature) : ∀ w ∈ ms, clean w = true := by
  have ht : ∀ x ∈ noTemperature, clean x = true := by decide
  exact fun w hw => ht w (h w hw)

theorem clean_six {ws : List Str} {x n : Temperature} (h : SixHourly ws x n) : ∀ w ∈ ws, clean w = true := by
  have h1 (b : Bool) (n : Nat) : clean (c!"1" ++ remarkTemperatureText b n) = true := by
    rw [clean_append, clean_remarkTemperature]; rfl
  have h2 (b : Bool) (n : Nat) : clean (c!"2" ++ remarkTemperatureText b n) = true := by
    rw [clean_append, clean_remarkTemperature]; rfl
  cases h with
  | missing _ h => exact clean_noTemperature h
  | maximum h h' => exact all_join (clean_noTemperature h) (all_cons (h1 _ _) (clean_noTemperature h'))
  | minimum h h' => exact all_join (clean_noTemperature h) (all_cons (h2 _ _) (clean_noTemperature h'))
  | maxMin h h' =>
    exact all_join (all_join (clean_noTemperature h) (all_cons (h1 _ _) (clean_noTemperature h')))
      (all_one (h2 _ _))
  | minMax h h' =>
    exact all_join (all_join (clean_noTemperature h) (all_cons (h2 _ _) (clean_noTemperature h')))
      (all_one (h1 _ _))

theorem clean_kind {ws : List Str} {t : VicinityType} (h : KindWords ws t) : ∀ w ∈ ws, clean w = true := by
  rcases h with ⟨w, h, rfl⟩ | ⟨rfl, -⟩
  · have ht : ∀ x ∈ vicinityWords, clean x.1 = true := by decide
    exact all_one (ht _ h)
  · decide

theorem clean_distance {w : Str} {d : Distance} (h : DistanceWord w d) : clean w = true := by
  rcases h with ⟨rfl, -⟩ | ⟨rfl, -⟩ | ⟨k, n, -, -, rfl, -⟩
  · decide
  · decide
  · clean_up

theorem clean_distances {ws : List Str} {d : Distance} (h : DistanceWords ws d) : ∀ w ∈ ws, clean w = true := by
  rcases h with ⟨rfl, -⟩ | ⟨w, h, rfl⟩
  · simp
  · exact all_one (clean_distance h)

theorem clean_second {ws : List Str} {f t : Option Direction} {c : List Cardinal}
    (h : SecondHeading ws f t c) : ∀ w ∈ ws, clean w = true := by
  cases h with
  | none => simp
  | bare h => exact all_one (clean_heading h)
  | and h => exact all_two (by decide) (clean_heading h)

theorem clean_movement {w : Str} {d : Direction} (h : MovementWord w d) : clean w = true := by
  rcases h with ⟨n, h, -⟩ | ⟨rfl, -⟩ | ⟨rfl, -⟩
  · exact clean_octant h
  · decide
  · decide

theorem clean_vicinity {ws : List Str} {g : VicinityGroup} {c c' : List Cardinal}
    (h : VicinityText ws g c c') : ∀ w ∈ ws, clean w = true := by
  cases h with
  | rotor => decide
  | kind h => exact clean_kind h
  | distance h h' => exact all_join (clean_kind h) (all_one (clean_distance h'))
  | heading h1 h2 h3 =>
    exact all_join (all_join (clean_kind h1) (clean_distances h2)) (all_one (clean_heading h3))
  | headingAnd h1 h2 h3 =>
    exact all_join (all_join (all_join (clean_kind h1) (clean_distances h2)) (all_one (clean_heading h3)))
      (by decide)
  | headings h1 h2 h3 h4 =>
    exact all_join (all_join (all_join (clean_kind h1) (clean_distances h2)) (all_one (clean_heading h3)))
      (clean_second h4)
  | moving h1 h2 h3 h4 =>
    exact all_join (all_join (all_join (all_join (clean_kind h1) (clean_distances h2))
      (all_one (clean_heading h3))) (clean_second h4)) (by decide)
  | moved h1 h2 h3 h4 h5 =>
    exact all_join (all_join (all_join (all_join (all_join (clean_kind h1) (clean_distances h2))
      (all_one (clean_heading h3))) (clean_second h4)) (by decide)) (all_one (clean_movement h5))

theorem clean_two {ws : List Str} {a b c d : Option Direction} {e f : List Cardinal}
    (h : TwoHeadings ws a b c d e f) : ∀ w ∈ ws, clean w = true := by
  have ha {l : List Str} (h : ∀ x ∈ l, x = c!"AND") : ∀ w ∈ l, clean w = true := by
    intro w hw
    rw [h w hw]; rfl
  cases h with
  | none => simp
  | one h h' => exact all_cons (clean_heading h) (ha h')
  | two h h' h'' => exact all_join (all_cons (clean_heading h) (ha h')) (all_one (clean_heading h''))

/-- A word for the types of lightning. -/
def LightningWord (w : Str) : Prop := ∃ t, w = c!"LTG" ++ t

theorem clean_lightning {ws : List Str} {g : LightningGroup} {c c' : List Cardinal}
    (h : LightningText ws g c c') : ∀ w ∈ ws, clean w = true ∨ LightningWord w := by
  have hf : ∀ x ∈ frequencyWords, ∀ w ∈ x.1, clean w = true := by decide
  rcases h with ⟨w, f, hm, rfl, -⟩ | ⟨fw, f, ty, ds, hd, f1, t1, f2, t2, hm, hds, hhd, rfl, -⟩
  · intro x hx
    exact Or.inl (hf _ hm x hx)
  · intro x hx
    rcases List.mem_append.mp hx with hx | hx
    · exact Or.inl (hf _ hm x hx)
    rcases List.mem_cons.mp hx with rfl | hx
    · exact Or.inr ⟨ty, rfl⟩
    rcases List.mem_append.mp hx with hx | hx
    · rcases hds x hx with rfl | rfl <;> exact Or.inl (by decide)
    · exact Or.inl (clean_two hhd x hx)

/-- Words of the remarks. -/
theorem clean_remark [FloatIeee] {now : Option Nat} {ws : List Str} {g : Group} (h : Remark now ws g) :
    ∀ w ∈ ws, clean w = true ∨ (∃ l, g = .lightning l) ∧ LightningWord w := by
  have key : (∀ w ∈ ws, clean w = true) ∨
      ∃ l, g = .lightning l ∧ ∀ w ∈ ws, clean w = true ∨ LightningWord w := by
    cases h with
    | lightning h => exact Or.inr ⟨_, rfl, clean_lightning h⟩
    | keyword h => exact Or.inl (all_one (clean_keyword h))
    | fixed h =>
      have ht : ∀ x ∈ fixedWords.map (·.1), clean x = true := by decide
      exact Or.inl (all_one (ht _ (List.mem_map.mpr ⟨_, h, rfl⟩)))
    | missing h =>
      have ht : ∀ x ∈ missingWords.map (·.1), clean x = true := by decide
      exact Or.inl (all_one (ht _ (List.mem_map.mpr ⟨_, h, rfl⟩)))
    | missingSaid h =>
      have ht : ∀ x ∈ missingWords.map (·.1), clean x = true := by decide
      exact Or.inl (all_two (ht _ (List.mem_map.mpr ⟨_, h, rfl⟩)) (by decide))
    | wind h => exact Or.inl (clean_windSequence h)
    | visibility h => exact Or.inl (clean_visRemark h)
    | cloud h => exact Or.inl (clean_cloudRemark h)
    | events =>
      refine Or.inl (all_one (clean_flatten fun w hw => ?_))
      obtain ⟨f, -, rfl⟩ := List.mem_map.mp hw
      exact clean_event f
    | temperature =>
      refine Or.inl (all_one ?_)
      simp only [clean_append, clean_tenths, clean_tenthsDew]; rfl
    | pressure h => exact Or.inl (all_one (clean_qnh h))
    | seaLevelPressure => exact Or.inl (all_one (by clean_up))
    | stationPressure _ h =>
      refine Or.inl (all_one ?_)
      rcases h with rfl | ⟨m, -, rfl⟩ <;> clean_up
    | sixHourly h => exact Or.inl (clean_six h)
    | daily =>
      refine Or.inl (all_one ?_)
      simp only [clean_append, clean_remarkTemperature]; rfl
    | precipitation h h' =>
      refine Or.inl (all_one ?_)
      have ht : ∀ x ∈ amountTable now, clean x.1 = true := by
        intro x hx
        simp only [amountTable, List.mem_cons, List.not_mem_nil, or_false] at hx
        rcases hx with rfl | rfl | rfl | rfl | rfl | rfl | rfl | rfl | rfl | rfl <;> rfl
      rw [clean_append, ht _ h]
      rcases h' with ⟨rfl, -⟩ | ⟨n, -, rfl, -⟩
      · exact clean_slashes _
      · exact clean_decimal _ _
    | snowIncrease h =>
      obtain ⟨i, j, a, b, -, -, -, -, rfl, -⟩ := h
      exact Or.inl (all_two (by decide) (by clean_up))
    | tendency h h' =>
      refine Or.inl (all_one ?_)
      have h1 := clean_code (table := tendencyCode) (m := .NOT_REPORTED) (by decide) h
      rcases h' with ⟨rfl, -⟩ | ⟨n, -, rfl, -⟩ <;>
        simp only [clean_append, clean_cons, clean_nil, h1, clean_decimal] <;> rfl
    | cloudTypes _ _ h =>
      left
      have hn : ∀ x ∈ cloudNames, clean x.1 = true := by decide
      intro w hw
      clear * - h hw hn
      induction h with
      | nil => simp at hw
      | cons h _ ih =>
        rcases List.mem_cons.mp hw with rfl | hw
        · obtain ⟨t, k, n, b, ht, -, -, rfl, -⟩ := h
          rw [clean_append, clean_append, clean_decimal, clean_decimal, hn _ ht]; rfl
        · exact ih hw
    | cloudOktas _ h =>
      refine Or.inl (all_one (clean_flatten fun w hw => ?_))
      obtain ⟨t, n, -, -, hc, -, rfl⟩ := h w hw
      rw [clean_append, clean_decimal, Bool.and_true]
      exact (clean_iff t).mpr fun c h => Or.inl (hc c h)
    | cloudCodes h1 h2 h3 =>
      refine Or.inl (all_one ?_)
      simp only [clean_cons, clean_nil, clean_code (by decide) h1, clean_code (by decide) h2,
        clean_code (by decide) h3]
      rfl
    | vicinity h => exact Or.inl (clean_vicinity h)
    | misc h => exact Or.inl (clean_misc h)
    | _ => exact Or.inl (by decide)
  intro w hw
  rcases key with h | ⟨l, hl, h⟩
  · exact Or.inl (h w hw)
  · rcases h w hw with h | h
    · exact Or.inl h
    · exact Or.inr ⟨⟨l, hl⟩, h⟩

theorem settled_lightning {g : Group} {l : LightningGroup} (h : g = .lightning l) :
    settled g = .lightning l := by
  subst h; rfl

theorem clean_header {s : Str} {g : Group} (h : HeaderWord s g) : clean s = true := by
  cases h with
  | keyword h => exact clean_keyword h
  | location h =>
    obtain ⟨a, b, c, d, rfl, h1, h2, h3, h4⟩ := h
    refine (clean_iff _).mpr ?_
    simp only [ReportWord, List.mem_cons, List.not_mem_nil, or_false, forall_eq_or_imp, forall_eq]
    unfold ReportCharacter
    tauto
  | time => unfold timeText; clean_up
  | period => exact clean_trend _

theorem wordsAux_chars {cur s : Str} : ∀ w ∈ wordsAux cur s, ∀ c ∈ w, c ∈ cur ∨ c ∈ s := by
  induction s generalizing cur with
  | nil =>
    intro w hw c hc
    unfold wordsAux at hw
    split at hw
    · simp at hw
    · rw [List.mem_singleton.mp hw] at hc
      exact Or.inl hc
  | cons a s ih =>
    intro w hw c hc
    unfold wordsAux at hw
    split at hw
    · rcases List.mem_append.mp hw with hw | hw
      · split at hw
        · simp at hw
        · rw [List.mem_singleton.mp hw] at hc
          exact Or.inl hc
      · rcases ih w hw c hc with h | h
        · simp at h
        · exact Or.inr (by simp [h])
    · rcases ih w hw c hc with h | h
      · rcases List.mem_append.mp h with h | h
        · exact Or.inl h
        · exact Or.inr (by simp [List.mem_singleton.mp h])
      · exact Or.inr (by simp [h])

theorem words_clean {s : Str} (h : clean s = true) : ∀ w ∈ words s, ReportWord w := by
  intro w hw c hc
  rcases wordsAux_chars w hw c hc with h' | h'
  · simp at h'
  · exact (clean_iff s).mp h c h'

/-! ### C131 -/

section C131
variable [FloatIeee]

/-- C131. Whatever the report and the limit, the words of a group which is not unknown consist of capitals,
digits and the characters `/ + - $ .`. The types of lightning are the exception: see `C131_violated`. -/
theorem C131_characters_partial {report : Str} {limit : Nat} {r : ParseResult} (h : Result report limit r) :
    ∀ x ∈ r.groups, (∃ u, x.group = .unknown u) ∨
      ∀ w ∈ words x.rawString, ReportWord w ∨ (∃ l, x.group = .lightning l) ∧ LightningWord w := by
  intro x hx
  have hs := C75_said h x hx
  cases hs with
  | unknown => exact Or.inl ⟨_, rfl⟩
  | header h => exact Or.inr fun w hw => Or.inl (words_clean (clean_header h) w hw)
  | afterNil h => exact Or.inr fun w hw => Or.inl (words_clean (clean_keyword h) w hw)
  | body _ h => exact Or.inr fun w hw => Or.inl ((clean_iff w).mp (clean_written h w hw))
  | remark h =>
    refine Or.inr fun w hw => ?_
    rcases clean_remark h w hw with h | ⟨⟨l, h⟩, h'⟩
    · exact Or.inl ((clean_iff w).mp h)
    · exact Or.inr ⟨⟨l, settled_lightning h⟩, h'⟩
  | remnant => exact Or.inr fun w hw => by simp [words, wordsAux] at hw

/-- C131. In a report without errors a word which has a small letter, or any other character than those of
reports, is in an unknown group, unless the word begins with `LTG`. -/
theorem C131_unknown_partial {report : Str} {limit : Nat} {ts : List Str} {r : ParseResult}
    (hg : Groups report ts) (h : Result report limit r) (he : r.reportMetadata.error = .NONE) {w : Str}
    (hw : w ∈ ts) (hc : ¬ ReportWord w) (hl : ¬ LightningWord w) :
    ∃ x ∈ r.groups, w ∈ words x.rawString ∧ ∃ u, x.group = .unknown u := by
  obtain ⟨k, h1, h2, -⟩ := C04_no_text_lost report limit ts r hg h
  rw [h2 (Or.inl he), List.take_length] at h1
  rw [← h1] at hw
  obtain ⟨x, hx, hw⟩ := List.mem_flatMap.mp hw
  refine ⟨x, hx, hw, ?_⟩
  rcases C131_characters_partial h x hx with h | h
  · exact h
  · rcases h w hw with h | h
    · exact absurd h hc
    · exact absurd h.2 hl

end C131

end Metaf.Props

namespace Metaf.Props

open Metaf Metaf.Spec

attribute [local instance] ieee

/-- A report in which the wind and the temperature are written in small letters, and which has no errors. -/
def smallLetters : Str := c!"METAR ABCD 010203Z 12005kt 9999 m01/m05 Q1013="

/-- What was recognised in a report: the error, and for each group its text and whether it is known. -/
def recognised (report : Str) : Option (ReportError × List (Str × Bool)) :=
  match Parser.parse report 200 with
  | .ok r => some (r.reportMetadata.error, r.groups.map fun x =>
      (x.rawString, match x.group with | .unknown _ => false | _ => true))
  | .error _ => none

theorem recognised_some {report : Str} {e : ReportError} {l : List (Str × Bool)}
    (h : recognised report = some (e, l)) : ∃ r, Result report 200 r ∧ r.reportMetadata.error = e ∧
      r.groups.map (fun x => (x.rawString, match x.group with | .unknown _ => false | _ => true)) = l := by
  unfold recognised at h
  split at h
  · rename_i r hr
    cases h
    exact ⟨r, hr, rfl, rfl⟩
  · cases h

/-- The hypotheses of C131 are met: the words in small letters are in unknown groups. -/
example : ∃ r, Result smallLetters 200 r ∧ r.reportMetadata.error = .NONE ∧
    r.groups.map (fun x => (x.rawString, match x.group with | .unknown _ => false | _ => true)) =
      [(c!"METAR", true), (c!"ABCD", true), (c!"010203Z", true), (c!"12005kt", false), (c!"9999", true),
        (c!"m01/m05", false), (c!"Q1013", true)] :=
  recognised_some (by kernel_rfl)

example : ¬ ReportWord c!"12005kt" ∧ ¬ LightningWord c!"12005kt" ∧ ReportWord c!"12005KT" := by
  rw [← clean_iff, ← clean_iff]
  refine ⟨by decide, ?_, by decide⟩
  rintro ⟨t, h⟩
  cases h

/-- A report in which the types of lightning are in small letters, and again after six other types. -/
def smallLightning : Str := c!"METAR ABCD 010203Z 12005KT 9999 Q1013 RMK LTGic LTGICICICICICICxyz="

/-- C131 does not hold without the exception: lightning is recognised whatever the characters of its types;
after the sixth type the group is even valid. -/
theorem C131_violated : ¬ ∀ report limit r, Result report limit r → ∀ x ∈ r.groups,
    (∃ u, x.group = .unknown u) ∨ ∀ w ∈ words x.rawString, ReportWord w := by
  intro hall
  obtain ⟨r, hr, -, hl⟩ := recognised_some (report := smallLightning) (e := .NONE)
    (l := [(c!"METAR", true), (c!"ABCD", true), (c!"010203Z", true), (c!"12005KT", true), (c!"9999", true),
      (c!"Q1013", true), (c!"RMK", true), (c!"LTGic", true), (c!"LTGICICICICICICxyz", true)]) (by kernel_rfl)
  have hm : (c!"LTGic", true) ∈ r.groups.map
      (fun x => (x.rawString, match x.group with | .unknown _ => false | _ => true)) := by
    rw [hl]; decide
  obtain ⟨x, hx, he⟩ := List.mem_map.mp hm
  simp only [Prod.mk.injEq] at he
  rcases hall _ _ _ hr x hx with ⟨u, hu⟩ | h
  · rw [hu] at he
    cases he.2
  · rw [he.1] at h
    have := (clean_iff _).mpr (h c!"LTGic" (by decide))
    revert this
    decide

/-- The second group of lightning in that report is valid although its text ends in small letters. -/
example : (match Parser.parse smallLightning 200 with
    | .ok r => r.groups.map fun x => match x.group with
        | .lightning l => some (x.rawString, l.isValid)
        | _ => none
    | .error _ => []) =
    [none, none, none, none, none, none, none, some (c!"LTGic", false),
      some (c!"LTGICICICICICICxyz", true)] := by
  kernel_rfl

end Metaf.Props

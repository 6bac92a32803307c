import Verif.Proofs.Explain
import Verif.Props.Validity
import Verif.Props.Text
import Verif.Props.Reparse
import Verif.Ieee
import Verif.Proofs.Util

/-!
C99 and C100: the table made by `explain` (`/repo/examples/explain.cpp`) has one row for each group of the
report, and the rows of groups which are not valid begin with a notice.
-/

set_option linter.unusedSectionVars false

namespace Metaf.Props

open Metaf Metaf.Spec Metaf.Explain

variable [FloatIeee]

/-! ### Specification -/

/-- A row of the table with its two cells. -/
def tableRow (a b : Str) : Str := c!"<tr><td>" ++ a ++ c!"</td><td>" ++ b ++ c!"</td></tr>"

/-- The lines of a text, as they are shown in a cell. -/
def lines (s : Str) : Str := s.flatMap fun c => if c = '\n' then c!"<br>" else [c]

/-- The page: the head of the table, the detected type, the error if there is one, and the rows. -/
def page (type : Str) (error : Option Str) (rows : List (Str × Str)) : Str :=
  c!"<thead><tr><th>Group</th><th>Explanation</th></tr></thead><tbody>" ++
    tableRow c!"&nbsp;" (c!"Detected report type: " ++ type) ++
    (match error with
     | none => []
     | some e => tableRow c!"&nbsp;" (c!"Parsing error: " ++ e)) ++
    (rows.map fun r => tableRow r.1 (lines r.2)).flatten ++ c!"</tbody>"

/-- What is said of groups which are not valid. -/
def warning : Str := c!"Data in this group may be errorneous, incomplete or inconsistent\n"

/-! ### C99 -/

theorem cat_inv {rs : List (Res Str)} {s : Str} (h : cat rs = .ok s) :
    ∃ ss, List.Forall₂ (fun r s => r = .ok s) rs ss ∧ s = ss.flatten := by
  induction rs generalizing s with
  | nil => cases h; exact ⟨[], .nil, rfl⟩
  | cons r rs ih =>
    rw [cat_cons] at h
    cases r with
    | error f => cases h
    | ok a =>
      cases hc : cat rs with
      | error f => rw [hc] at h; cases h
      | ok t =>
        rw [hc] at h
        obtain ⟨ss, hs, rfl⟩ := ih hc
        cases h
        exact ⟨a :: ss, .cons rfl hs, rfl⟩

theorem cat_text {a : Str} {rs : List (Res Str)} {s : Str} :
    cat (text a :: rs) = .ok s ↔ ∃ t, cat rs = .ok t ∧ s = a ++ t := by
  rw [cat_cons, text]
  cases cat rs <;> simp [eq_comm]

theorem cat_more {r : Res Str} {rs : List (Res Str)} {s : Str} :
    cat (r :: rs) = .ok s ↔ ∃ a t, r = .ok a ∧ cat rs = .ok t ∧ s = a ++ t := by
  rw [cat_cons]
  cases r <;> cases cat rs <;> simp [eq_comm]

theorem cat_none {s : Str} : cat [] = .ok s ↔ s = [] := by
  simp [cat, eq_comm]

theorem row_inv {x : GroupInfo} {s : Str} (h : row x = .ok s) :
    ∃ e, visitor.visit x.group x.reportPart x.rawString = .ok e ∧ s = tableRow x.rawString (lines e) := by
  unfold row at h
  simp only [cat_text] at h
  obtain ⟨_, ⟨_, ⟨_, h, rfl⟩, rfl⟩, rfl⟩ := h
  rw [cat_more] at h
  obtain ⟨b, _, hb, h, rfl⟩ := h
  rw [cat_text] at h
  obtain ⟨_, h, rfl⟩ := h
  rw [cat_none] at h
  subst h
  cases hv : visitor.visit x.group x.reportPart x.rawString with
  | error f => rw [hv] at hb; cases hb
  | ok e =>
    rw [hv] at hb
    have hb : replaceBreaks e = .ok b := hb
    rw [replaceBreaks_eq] at hb
    obtain rfl := Except.ok.inj hb
    refine ⟨e, rfl, ?_⟩
    simp [tableRow, lines, withBreaks]

theorem explain_inv {memory input out : Str} (h : explain memory input = .ok out) :
    ∃ r, Result input 200 r ∧ table r = .ok out := by
  unfold explain at h
  cases hp : Parser.parse input with
  | error f => rw [hp] at h; cases h
  | ok r =>
    rw [hp] at h
    refine ⟨r, hp, ?_⟩
    have h : (do let t ← table r; .ok ([] ++ t) : Res Str) = .ok out := h
    cases ht : table r with
    | error f => rw [ht] at h; cases h
    | ok t =>
      rw [ht] at h
      exact h

/-- C99. The page shows the detected type, the error if there is one, and one row for each group of the
result in order: its raw text, and the text the visitor gives for it with `<br>` for each line break. -/
theorem C99_page {memory input out : Str} (h : explain memory input = .ok out) :
    ∃ r es, Result input 200 r ∧
      List.Forall₂ (fun x e => visitor.visit x.group x.reportPart x.rawString = .ok e) r.groups es ∧
      out = page (reportTypeToString r.reportMetadata.type)
        (if r.reportMetadata.error = .NONE then none else some (reportErrorToString r.reportMetadata.error))
        ((r.groups.map (·.rawString)).zip es) := by
  obtain ⟨r, hr, ht⟩ := explain_inv h
  unfold table at ht
  simp only [cat_text] at ht
  obtain ⟨_, ⟨_, ⟨_, ⟨_, ht, rfl⟩, rfl⟩, rfl⟩, rfl⟩ := ht
  simp only [cat_more, cat_none] at ht
  obtain ⟨e, _, he, ⟨rows, _, hrows, ⟨_, _, hl, rfl, rfl⟩, rfl⟩, rfl⟩ := ht
  obtain rfl := Except.ok.inj hl
  have key : ∀ (gs : List GroupInfo) (rows : Str), cat (gs.map row) = .ok rows → ∃ es,
      List.Forall₂ (fun (x : GroupInfo) e => visitor.visit x.group x.reportPart x.rawString = .ok e) gs es ∧
      rows = (((gs.map (·.rawString)).zip es).map fun r => tableRow r.1 (lines r.2)).flatten := by
    intro gs
    induction gs with
    | nil => intro rows h; cases h; exact ⟨[], .nil, rfl⟩
    | cons x gs ih =>
      intro rows h
      rw [List.map_cons, cat_more] at h
      obtain ⟨a, t, ha, ht, rfl⟩ := h
      obtain ⟨e, he, rfl⟩ := row_inv ha
      obtain ⟨es, hes, rfl⟩ := ih t ht
      exact ⟨e :: es, .cons he hes, by simp⟩
  obtain ⟨es, hes, rfl⟩ := key _ _ hrows
  refine ⟨r, es, hr, hes, ?_⟩
  by_cases hn : r.reportMetadata.error = .NONE
  · rw [hn] at he
    obtain rfl := Except.ok.inj he
    simp only [page, if_pos hn, tableRow, List.append_assoc, List.nil_append, List.append_nil]
    rfl
  · have hb : (r.reportMetadata.error != .NONE) = true := by simpa using hn
    unfold opt at he
    rw [if_pos hb] at he
    simp only [cat_text, cat_none] at he
    obtain ⟨_, ⟨_, ⟨_, rfl, rfl⟩, rfl⟩, rfl⟩ := he
    simp only [page, if_neg hn, tableRow, List.append_assoc, List.append_nil]
    rfl

/-- C99. The page depends on the text only, not on calls made before. -/
theorem C99_history (memory memory' input : Str) : explain memory input = explain memory' input := rfl


/-! ### C100 -/

/-- How the row of the error begins. -/
def errorIntro : Str := c!"Parsing error: "

/-- A text which differs from another at some place. -/
def Apart (w a : Str) : Prop := ¬ a <+: w ∧ ¬ w <+: a

instance (w a : Str) : Decidable (Apart w a) := inferInstanceAs (Decidable (_ ∧ _))

/-- A text which differs from the warning at some place, and from the text of an error. -/
def Clash (a : Str) : Prop := Apart warning a ∧ Apart errorIntro a

instance (a : Str) : Decidable (Clash a) := inferInstanceAs (Decidable (_ ∧ _))

theorem apart_append {w a : Str} (t : Str) (h : Apart w a) : Apart w (a ++ t) := by
  refine ⟨fun hp => h.1 ((List.prefix_append a t).trans hp), fun hp => ?_⟩
  rcases Nat.le_total w.length a.length with hl | hl
  · exact h.2 (List.prefix_of_prefix_length_le hp (List.prefix_append a t) hl)
  · exact h.1 (List.prefix_of_prefix_length_le (List.prefix_append a t) hp hl)

theorem clash_append {a : Str} (t : Str) (h : Clash a) : Clash (a ++ t) :=
  ⟨apart_append t h.1, apart_append t h.2⟩

theorem warning_error {e : Str} (h : warning <+: e) : ¬ errorIntro <+: e := by
  intro h2
  have := List.prefix_of_prefix_length_le h2 h (by decide)
  revert this
  decide

/-- What is computed differs from the warning at some place. -/
def Differs (r : Res Str) : Prop := ∀ e, r = .ok e → Clash e

theorem differs_text {a : Str} (h : Clash a) : Differs (text a) := by
  intro e he
  obtain rfl := Except.ok.inj he
  exact h

theorem differs_cat {r : Res Str} {rs : List (Res Str)} (h : Differs r) : Differs (cat (r :: rs)) := by
  intro e he
  rw [cat_more] at he
  obtain ⟨a, t, ha, -, rfl⟩ := he
  exact clash_append t (h a ha)

theorem differs_value {α : Type} {v : Option α} {f : α → Res Str} (h : ∀ a, Differs (f a)) :
    Differs (value v f) := by
  cases v with
  | none => intro e he; cases he
  | some a => exact h a

theorem notice_true {rs : List (Res Str)} {e : Str} (h : cat (notice true :: rs) = .ok e) :
    cat rs = .ok e := by
  rw [cat_more] at h
  obtain ⟨a, t, ha, ht, rfl⟩ := h
  obtain rfl := Except.ok.inj ha
  exact ht

theorem notice_false {rs : List (Res Str)} {e : Str} (h : cat (notice false :: rs) = .ok e) : warning <+: e := by
  rw [cat_more] at h
  obtain ⟨a, t, ha, ht, rfl⟩ := h
  obtain rfl := Except.ok.inj ha
  exact List.prefix_append _ _

theorem noticed {b : Bool} {rs : List (Res Str)} (h : Differs (cat rs)) {e : Str}
    (he : cat (notice b :: rs) = .ok e) : (warning <+: e ↔ b = false) ∧ ¬ errorIntro <+: e := by
  cases b with
  | false => exact ⟨⟨fun _ => rfl, fun _ => notice_false he⟩, warning_error (notice_false he)⟩
  | true =>
    have := h e (notice_true he)
    exact ⟨⟨fun hp => absurd hp this.1.2, fun h => by cases h⟩, this.2.2⟩

syntax "differs" : tactic
macro_rules
  | `(tactic| differs) => `(tactic| first
      | exact differs_text (by decide)
      | exact differs_cat (differs_text (by decide))
      | exact differs_text (clash_append _ (by decide))
      | exact differs_text (clash_append _ (clash_append _ (by decide)))
      | exact differs_text (clash_append _ (clash_append _ (clash_append _ (by decide))))
      | exact differs_text (clash_append _ (clash_append _ (clash_append _ (clash_append _ (by decide)))))
      | exact differs_text
          (clash_append _ (clash_append _ (clash_append _ (clash_append _ (clash_append _ (by decide)))))))

theorem keyword_differs (k : KeywordType) : Clash (keywordText k) := by cases k <;> decide

theorem trend_differs (g : TrendGroup) : Differs (trendText g) := by
  unfold trendText
  split <;> differs

theorem wind_differs (g : WindGroup) : Differs (windGroupText g) := by
  unfold windGroupText shiftText
  split <;> first | differs | exact differs_cat (by differs)

theorem visibility_differs (g : VisibilityGroup) : Differs (visibilityText g) := by
  unfold visibilityText
  split <;> first | differs | (split <;> differs)

theorem amount_differs (a : Metaf.Amount) : Clash (cloudAmountToString a) := by cases a <;> decide

theorem layer_differs (k : LayerForecastType) : Clash (layerForecastGroupTypeToString k) := by cases k <;> decide

theorem vicinity_differs (k : VicinityType) : Clash (vicinityText k) := by cases k <;> decide

theorem cloud_type_differs (k : CloudTypeKind) : Clash (cloudTypeToString k) := by cases k <;> decide
theorem cloud_differs (g : CloudGroup) (e : Str) (h : cloudText g = .ok e) : ¬ warning <+: e ∧ ¬ errorIntro <+: e := by
  unfold cloudText at h
  cases ht : g.tp <;> rw [ht] at h
  case OBSCURATION =>
    change cat [_, _] = _ at h
    have hct : ∀ ct, Differs (explainCloudType ct) := fun ct =>
      differs_cat (differs_text (cloud_type_differs _))
    cases hd : g.height.distance with
    | some d =>
      rw [hd] at h
      have hd : Differs (cat [onSome (some d) (fun h =>
          text (if h = 0 then c!"Ground-based obscuration\n" else c!"Aloft obscuration\n")),
          onSome g.cloudType explainCloudType]) := by
        refine differs_cat (differs_text ?_)
        split <;> decide
      exact ⟨(hd e h).1.2, (hd e h).2.2⟩
    | none =>
      rw [hd] at h
      cases hc : g.cloudType with
      | none =>
        rw [hc] at h
        cases h
        decide
      | some ct =>
        rw [hc, cat_more] at h
        obtain ⟨a, t, ha, ht, rfl⟩ := h
        obtain rfl := Except.ok.inj ha
        have := differs_cat (hct ct) t ht
        exact ⟨this.1.2, this.2.2⟩
  case NO_CLOUDS =>
    have := differs_text (amount_differs _) e h
    exact ⟨this.1.2, this.2.2⟩
  all_goals
    have := (by differs : Differs _) e h
    exact ⟨this.1.2, this.2.2⟩

theorem weather_differs (g : WeatherGroup) : Differs (Explain.weatherText g) := by
  unfold Explain.weatherText
  split <;> differs

theorem temperature_differs (g : TemperatureGroup) : Differs (temperatureText g) := by
  unfold temperatureText
  split <;> differs

theorem pressure_differs (g : PressureGroup) : Differs (text (pressureText g)) := by
  unfold pressureText
  split <;> differs

theorem minMax_differs (g : MinMaxTemperatureGroup) : Differs (minMaxText g) := by
  unfold minMaxText
  split <;> differs

theorem precipitation_differs (g : PrecipitationGroup) : Differs (text (precipitationText g)) := by
  unfold precipitationText
  dsimp only
  split <;> differs

theorem tendency_differs (g : PressureTendencyGroup) : Differs (text (pressureTendencyText g)) := by
  unfold pressureTendencyText
  split <;> differs

theorem misc_differs (g : MiscGroup) : Differs (miscText g) := by
  unfold miscText
  cases ht : g.groupType
  case SUNSHINE_DURATION_MINUTES =>
    refine differs_value fun d => ?_
    split <;> differs
  all_goals differs

theorem visit_begins {g : Group} {p : ReportPart} {s e : Str} (h : visitor.visit g p s = .ok e) :
    (warning <+: e ↔ groupValid g = .ok false) ∧ ¬ errorIntro <+: e := by
  have fin : ∀ {b : Bool} {rs : List (Res Str)}, Differs (cat rs) → cat (notice b :: rs) = .ok e →
      (warning <+: e ↔ (.ok b : Res Bool) = .ok false) ∧ ¬ errorIntro <+: e := by
    intro b rs hd he
    refine ⟨?_, (noticed hd he).2⟩
    rw [(noticed hd he).1]
    constructor
    · rintro rfl; rfl
    · intro h; exact Except.ok.inj h
  cases g with
  | keyword g => exact fin (differs_cat (differs_text (keyword_differs _))) h
  | location g => exact fin (by differs) h
  | reportTime g => exact fin (by differs) h
  | trend g => exact fin (differs_cat (trend_differs g)) h
  | wind g => exact fin (differs_cat (wind_differs g)) h
  | visibility g => exact fin (differs_cat (visibility_differs g)) h
  | cloud g =>
    have h : cat [notice g.isValid, cloudText g] = .ok e := h
    show (_ ↔ (.ok g.isValid : Res Bool) = .ok false) ∧ _
    cases hv : g.isValid with
    | false => rw [hv] at h; exact ⟨⟨fun _ => rfl, fun _ => notice_false h⟩, warning_error (notice_false h)⟩
    | true =>
      rw [hv] at h
      have h := notice_true h
      rw [cat_more] at h
      obtain ⟨a, t, ha, ht, rfl⟩ := h
      rw [cat_none] at ht
      subst ht
      rw [List.append_nil]
      exact ⟨⟨fun hp => absurd hp (cloud_differs g a ha).1, fun h => by cases h⟩, (cloud_differs g a ha).2⟩
  | weather g =>
    have h : visitWeatherGroup g = .ok e := h
    unfold visitWeatherGroup at h
    show (_ ↔ g.isValid = .ok false) ∧ _
    cases hv : g.isValid with
    | error f => rw [hv] at h; cases h
    | ok b =>
      rw [hv] at h
      exact fin (differs_cat (weather_differs g)) h
  | temperature g => exact fin (differs_cat (temperature_differs g)) h
  | pressure g => exact fin (differs_cat (pressure_differs g)) h
  | runwayState g => exact fin (by differs) h
  | seaSurface g => exact fin (by differs) h
  | minMaxTemperature g => exact fin (differs_cat (minMax_differs g)) h
  | precipitation g => exact fin (differs_cat (precipitation_differs g)) h
  | layerForecast g => exact fin (differs_cat (differs_text (layer_differs _))) h
  | pressureTendency g => exact fin (differs_cat (tendency_differs g)) h
  | cloudTypes g => exact fin (by differs) h
  | lowMidHighCloud g => exact fin (by differs) h
  | lightning g => exact fin (by differs) h
  | vicinity g => exact fin (differs_cat (differs_text (vicinity_differs _))) h
  | misc g => exact fin (differs_cat (misc_differs g)) h
  | unknown g => exact fin (by differs) h

/-- C100. For every group: what is written about it begins with the warning if and only if the group is
not valid. -/
theorem C100_warning {g : Group} {p : ReportPart} {s e : Str} (h : visitor.visit g p s = .ok e) :
    warning <+: e ↔ groupValid g = .ok false := (visit_begins h).1

end Metaf.Props

/-! ### Cases -/

namespace Metaf.Props

open Metaf Metaf.Spec Metaf.Explain

attribute [local instance] ieee

set_option maxRecDepth 4000 in
/-- The page for a report with a group of two lines and an error. -/
example : explain c!"old" c!"METAR ZZZZ 312460Z" = .ok (page c!"METAR (weather observation)"
    (some c!"unexpected report end")
    [(c!"METAR", c!"Report type: METAR (weather observation report)"),
     (c!"ZZZZ", c!"ICAO code of station: ZZZZ"),
     (c!"312460Z", c!"Data in this group may be errorneous, incomplete or inconsistent\n\
                      Day and time of report release: day 31, 24:60 GMT")]) := by kernel_rfl

set_option maxRecDepth 4000 in
/-- A group which is not valid, and one which is. -/
example : ∃ a b, visitor.visit (.reportTime ⟨⟨some 31, 24, 60⟩⟩) .HEADER c!"312460Z" = .ok a ∧ warning <+: a ∧
    visitor.visit (.reportTime ⟨⟨some 31, 24, 0⟩⟩) .HEADER c!"312400Z" = .ok b ∧ ¬ warning <+: b :=
  ⟨_, _, rfl, by decide, rfl, by decide⟩

end Metaf.Props

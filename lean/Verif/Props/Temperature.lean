import Verif.Model.GroupsC
import Verif.Spec.Temperature
import Verif.Proofs.RegexText
import Verif.Props.Values
import Verif.Props.MinMax

/-!
C51: temperature and dew point.
-/

set_option linter.unusedSectionVars false

namespace Metaf.Props

open Metaf.Spec

variable [FloatSem]

/-! ### Body of the report -/

theorem match_degrees {w : Str} {c : Caps} :
    TemperatureGroup.valueRx.Match w c ↔ c = [] ∧ ∃ d : Degrees, d.Ok ∧ w = d.text := by
  simp only [TemperatureGroup.valueRx, Rx.match_alt, Rx.match_seq (a := .opt _), Rx.match_digits2,
    Rx.match_opt, Rx.match_chr, Rx.match_lit]
  constructor
  · rintro (⟨_, _, _, _, ⟨rfl, rfl⟩ | ⟨rfl, rfl⟩, ⟨rfl, n, hn, rfl⟩, rfl, rfl⟩ | ⟨rfl, rfl⟩)
    · exact ⟨rfl, .value true n, hn, rfl⟩
    · exact ⟨rfl, .value false n, hn, rfl⟩
    · exact ⟨rfl, .missing, trivial, rfl⟩
  · rintro ⟨rfl, d, hd, rfl⟩
    match d, hd with
    | .missing, _ => exact Or.inr ⟨rfl, rfl⟩
    | .value true n, hn => exact Or.inl ⟨_, _, [], [], Or.inl ⟨rfl, rfl⟩, ⟨rfl, n, hn, rfl⟩, rfl, rfl⟩
    | .value false n, hn => exact Or.inl ⟨_, _, [], [], Or.inr ⟨rfl, rfl⟩, ⟨rfl, n, hn, rfl⟩, rfl, rfl⟩

theorem degrees_fromString {d : Degrees} (h : d.Ok) :
    Temperature.fromString d.text = some d.temperature := by
  rw [C27_two_digits]
  match d, h with
  | .missing, _ => exact Or.inl ⟨rfl, rfl⟩
  | .value true n, hn => exact Or.inr (Or.inr ⟨n, hn, rfl, rfl⟩)
  | .value false n, hn => exact Or.inr (Or.inl ⟨n, hn, rfl, rfl⟩)

theorem degrees_text_ne {d : Degrees} : d.text ≠ [] := by
  match d with
  | .missing => simp [Degrees.text]
  | .value true n => simp [Degrees.text]
  | .value false n => simp [Degrees.text, decimal_two]

/-- The text and sub-matches of temperature and dew point. -/
def dewText : Option Degrees → Str
  | none => []
  | some d => d.text

def temperatureCaps (f : Degrees × Option Degrees) : Caps :=
  match f.2 with
  | none => [(1, f.1.text)]
  | some d => [(2, d.text), (1, f.1.text)]

/-- Both parts are well formed. -/
def TempDewOk (f : Degrees × Option Degrees) : Prop := f.1.Ok ∧ ∀ d ∈ f.2, d.Ok

theorem temperature_match (s : Str) (c : Caps) :
    TemperatureGroup.rgx.Match s c ↔ ∃ f : Degrees × Option Degrees, TempDewOk f ∧
      s = f.1.text ++ c!"/" ++ dewText f.2 ∧ c = temperatureCaps f := by
  simp only [TemperatureGroup.rgx, Rx.match_seq (a := .cap 1 _), Rx.match_seq (a := .chr _),
    Rx.match_cap, match_degrees, Rx.match_chr, Rx.match_opt]
  constructor
  · rintro ⟨_, _, _, _, ⟨_, ⟨rfl, t, ht, rfl⟩, rfl⟩, ⟨_, _, _, _, ⟨rfl, rfl⟩, hd, rfl, rfl⟩, rfl, rfl⟩
    rcases hd with ⟨_, ⟨rfl, d, hd, rfl⟩, rfl⟩ | ⟨rfl, rfl⟩
    · exact ⟨(t, some d), ⟨ht, by simpa using hd⟩, by simp [dewText], rfl⟩
    · exact ⟨(t, none), ⟨ht, by simp⟩, by simp [dewText], rfl⟩
  · rintro ⟨⟨t, d⟩, ⟨ht, hd⟩, rfl, rfl⟩
    cases d with
    | none =>
      exact ⟨_, _, _, _, ⟨_, ⟨rfl, t, ht, rfl⟩, rfl⟩, ⟨_, _, _, _, ⟨rfl, rfl⟩, Or.inr ⟨rfl, rfl⟩, rfl, rfl⟩,
        by simp [dewText], rfl⟩
    | some d =>
      exact ⟨_, _, _, _, ⟨_, ⟨rfl, t, ht, rfl⟩, rfl⟩, ⟨_, _, _, _, ⟨rfl, rfl⟩,
        Or.inl ⟨_, ⟨rfl, d, hd d rfl, rfl⟩, rfl⟩, rfl, rfl⟩, by simp [dewText], rfl⟩

theorem temperature_inj (f f' : Degrees × Option Degrees) (_ : TempDewOk f) (_ : TempDewOk f')
    (h : f.1.text ++ c!"/" ++ dewText f.2 = f'.1.text ++ c!"/" ++ dewText f'.2) :
    temperatureCaps f = temperatureCaps f' := by
  have dM : ∀ n, Nat.digitChar (n % 10) ≠ 'M' := fun n => digitChar_mod_ne rfl
  have dS : ∀ n, Nat.digitChar (n % 10) ≠ '/' := fun n => digitChar_mod_ne rfl
  have dM' : ∀ n, 'M' ≠ Nat.digitChar (n % 10) := fun n => (digitChar_mod_ne rfl).symm
  have dS' : ∀ n, '/' ≠ Nat.digitChar (n % 10) := fun n => (digitChar_mod_ne rfl).symm
  obtain ⟨t, d⟩ := f
  obtain ⟨t', d'⟩ := f'
  have key : t.text = t'.text ∧ dewText d = dewText d' := by
    rcases t with _ | ⟨_ | _, n⟩ <;> rcases t' with _ | ⟨_ | _, n'⟩ <;>
      simp_all [Degrees.text, decimal_two]
  rcases d with _ | d <;> rcases d' with _ | d'
  · simp [temperatureCaps, key.1]
  · exact absurd key.2.symm degrees_text_ne
  · exact absurd key.2 degrees_text_ne
  · have h2 : d.text = d'.text := key.2
    simp only [temperatureCaps, key.1, h2]

/-- The dew point of the group; not reported if it is not written. -/
def dewPoint : Option Degrees → Temperature
  | none => ⟨none, false, false⟩
  | some d => d.temperature

/-- C51: temperature and dew point in the body of a weather report. The texts recognised are exactly
a temperature, a slash and possibly a dew point, and the group holds the values written. -/
theorem C51_body (s : Str) (g : TemperatureGroup) :
    TemperatureGroup.parse s .METAR = some g ↔
      ∃ (t : Degrees) (d : Option Degrees), t.Ok ∧ (∀ x ∈ d, x.Ok) ∧
        s = t.text ++ c!"/" ++ dewText d ∧
        g = ⟨.TEMPERATURE_AND_DEW_POINT, t.temperature, dewPoint d, false⟩ := by
  have hr := regexMatch_form temperature_match temperature_inj
  have key : ∀ f, TempDewOk f → TemperatureGroup.parse (f.1.text ++ c!"/" ++ dewText f.2) .METAR =
      some ⟨.TEMPERATURE_AND_DEW_POINT, f.1.temperature, dewPoint f.2, false⟩ := by
    intro f hf
    simp only [TemperatureGroup.parse]
    rw [(hr _ _).mpr ⟨f, hf, rfl, rfl⟩]
    obtain ⟨t, d⟩ := f
    cases d with
    | none =>
      have e1 : (temperatureCaps (t, none)).str 1 = t.text := rfl
      have e2 : (temperatureCaps (t, none)).str 2 = [] := rfl
      simp only [TemperatureGroup.fromMatch, e1, e2, degrees_fromString hf.1]
      rfl
    | some d =>
      have e1 : (temperatureCaps (t, some d)).str 1 = t.text := rfl
      have e2 : (temperatureCaps (t, some d)).str 2 = d.text := rfl
      have e3 : d.text.isEmpty = false := by simp [degrees_text_ne]
      simp only [TemperatureGroup.fromMatch, e1, e2, e3, degrees_fromString hf.1,
        degrees_fromString (hf.2 d rfl)]
      rfl
  constructor
  · intro h
    cases hm : regexMatch TemperatureGroup.rgx s with
    | none => simp [TemperatureGroup.parse, hm] at h
    | some m =>
      obtain ⟨f, hf, rfl, -⟩ := (hr s m).mp hm
      rw [key f hf] at h
      exact ⟨f.1, f.2, hf.1, hf.2, rfl, (Option.some.inj h).symm⟩
  · rintro ⟨t, d, ht, hd, rfl, rfl⟩
    exact key (t, d) ⟨ht, hd⟩

/-! ### Remarks -/

theorem tenths_remark (t : Tenths) : t.text = remarkTemperatureText t.below t.n ∧
    t.temperature = remarkTemperature t.below t.n := by
  obtain ⟨b, n⟩ := t
  cases b <;> simp [Tenths.text, Tenths.temperature, Tenths.tenths, remarkTemperatureText,
    remarkTemperature]

theorem tenths_fromString {t : Tenths} (h : t.Ok) :
    Temperature.fromRemarkString t.text = some t.temperature := by
  rw [(tenths_remark t).1, (tenths_remark t).2]
  exact remarkTemperature_eq h

theorem match_tenths {w : Str} {c : Caps} :
    TemperatureGroup.rmkValueRx.Match w c ↔ c = [] ∧ ∃ t : Tenths, t.Ok ∧ w = t.text := by
  rw [TemperatureGroup.rmkValueRx, match_remark]
  refine and_congr_right fun _ => ⟨?_, ?_⟩
  · rintro ⟨b, n, hn, rfl⟩; exact ⟨⟨b, n⟩, hn, rfl⟩
  · rintro ⟨⟨b, n⟩, hn, rfl⟩; exact ⟨b, n, hn, rfl⟩

theorem tenths_length (t : Tenths) : t.text.length = 4 := by
  obtain ⟨b, n⟩ := t
  cases b <;> rfl

def tenthsText : Option Tenths → Str
  | none => []
  | some d => d.text

def tenthsCaps (f : Tenths × Option Tenths) : Caps :=
  match f.2 with
  | none => [(1, f.1.text)]
  | some d => [(2, d.text), (1, f.1.text)]

def TenthsOk (f : Tenths × Option Tenths) : Prop := f.1.Ok ∧ ∀ d ∈ f.2, d.Ok

theorem temperature_remark_match (s : Str) (c : Caps) :
    TemperatureGroup.rmkRgx.Match s c ↔ ∃ f : Tenths × Option Tenths, TenthsOk f ∧
      s = c!"T" ++ f.1.text ++ tenthsText f.2 ∧ c = tenthsCaps f := by
  simp only [TemperatureGroup.rmkRgx, Rx.match_seq (a := .cap 1 _), Rx.match_seq (a := .chr _),
    Rx.match_cap, match_tenths, Rx.match_chr, Rx.match_opt]
  constructor
  · rintro ⟨_, _, _, _, ⟨rfl, rfl⟩, ⟨_, _, _, _, ⟨_, ⟨rfl, t, ht, rfl⟩, rfl⟩, hd, rfl, rfl⟩, rfl, rfl⟩
    rcases hd with ⟨_, ⟨rfl, d, hd, rfl⟩, rfl⟩ | ⟨rfl, rfl⟩
    · exact ⟨(t, some d), ⟨ht, by simpa using hd⟩, by simp [tenthsText], rfl⟩
    · exact ⟨(t, none), ⟨ht, by simp⟩, by simp [tenthsText], rfl⟩
  · rintro ⟨⟨t, d⟩, ⟨ht, hd⟩, rfl, rfl⟩
    cases d with
    | none =>
      exact ⟨_, _, _, _, ⟨rfl, rfl⟩, ⟨_, _, _, _, ⟨_, ⟨rfl, t, ht, rfl⟩, rfl⟩, Or.inr ⟨rfl, rfl⟩, rfl, rfl⟩,
        by simp [tenthsText], rfl⟩
    | some d =>
      exact ⟨_, _, _, _, ⟨rfl, rfl⟩, ⟨_, _, _, _, ⟨_, ⟨rfl, t, ht, rfl⟩, rfl⟩,
        Or.inl ⟨_, ⟨rfl, d, hd d rfl, rfl⟩, rfl⟩, rfl, rfl⟩, by simp [tenthsText], rfl⟩

theorem temperature_remark_inj (f f' : Tenths × Option Tenths) (_ : TenthsOk f) (_ : TenthsOk f')
    (h : c!"T" ++ f.1.text ++ tenthsText f.2 = c!"T" ++ f'.1.text ++ tenthsText f'.2) :
    tenthsCaps f = tenthsCaps f' := by
  obtain ⟨t, d⟩ := f
  obtain ⟨t', d'⟩ := f'
  simp only [List.append_assoc, List.append_cancel_left_eq] at h
  obtain ⟨h1, h2⟩ := List.append_inj h (by rw [tenths_length, tenths_length])
  have ne : ∀ d : Tenths, d.text ≠ [] := fun d hd => by
    have := tenths_length d; rw [hd] at this; simp at this
  rcases d with _ | d <;> rcases d' with _ | d'
  · simp [tenthsCaps, h1]
  · exact absurd h2.symm (ne _)
  · exact absurd h2 (ne _)
  · have h2 : d.text = d'.text := h2
    simp only [tenthsCaps, h1, h2]

/-- The dew point of the group; not reported if it is not written. -/
def tenthsDewPoint : Option Tenths → Temperature
  | none => ⟨none, false, false⟩
  | some d => d.temperature

/-- C51: temperature and dew point in remarks. The texts recognised are exactly `T` with temperature
and possibly dew point in tenths, and the beginnings `T` and `TD` of a note that data are missing. -/
theorem C51_remark (s : Str) (g : TemperatureGroup) :
    TemperatureGroup.parse s .RMK = some g ↔
      (s = c!"T" ∧ g = ⟨.T_MISG, {}, {}, true⟩) ∨ (s = c!"TD" ∧ g = ⟨.TD_MISG, {}, {}, true⟩) ∨
      ∃ (t : Tenths) (d : Option Tenths), t.Ok ∧ (∀ x ∈ d, x.Ok) ∧
        s = c!"T" ++ t.text ++ tenthsText d ∧
        g = ⟨.TEMPERATURE_AND_DEW_POINT, t.temperature, tenthsDewPoint d, false⟩ := by
  have hr := regexMatch_form temperature_remark_match temperature_remark_inj
  have long : ∀ f : Tenths × Option Tenths, 5 ≤ (c!"T" ++ f.1.text ++ tenthsText f.2).length := by
    intro f
    simp only [List.length_append, tenths_length, List.length_cons, List.length_nil]
    omega
  have key : ∀ f, TenthsOk f → TemperatureGroup.parse (c!"T" ++ f.1.text ++ tenthsText f.2) .RMK =
      some ⟨.TEMPERATURE_AND_DEW_POINT, f.1.temperature, tenthsDewPoint f.2, false⟩ := by
    intro f hf
    have l := long f
    simp only [TemperatureGroup.parse]
    rw [if_neg (fun e => by rw [e] at l; simp at l), if_neg (fun e => by rw [e] at l; simp at l),
      (hr _ _).mpr ⟨f, hf, rfl, rfl⟩]
    obtain ⟨t, d⟩ := f
    cases d with
    | none =>
      have e1 : (tenthsCaps (t, none)).str 1 = t.text := rfl
      have e2 : (tenthsCaps (t, none)).str 2 = [] := rfl
      simp only [TemperatureGroup.fromMatch, e1, e2, tenths_fromString hf.1]
      rfl
    | some d =>
      have e1 : (tenthsCaps (t, some d)).str 1 = t.text := rfl
      have e2 : (tenthsCaps (t, some d)).str 2 = d.text := rfl
      have e3 : d.text.isEmpty = false := by
        have := tenths_length d
        cases h : d.text with
        | nil => rw [h] at this; simp at this
        | cons => rfl
      simp only [TemperatureGroup.fromMatch, e1, e2, e3, tenths_fromString hf.1,
        tenths_fromString (hf.2 d rfl)]
      rfl
  constructor
  · intro h
    by_cases h1 : s = c!"T"
    · subst h1
      exact Or.inl ⟨rfl, (Option.some.inj h).symm⟩
    · by_cases h2 : s = c!"TD"
      · subst h2
        exact Or.inr (Or.inl ⟨rfl, (Option.some.inj h).symm⟩)
      · refine Or.inr (Or.inr ?_)
        cases hm : regexMatch TemperatureGroup.rmkRgx s with
        | none => simp [TemperatureGroup.parse, hm, h1, h2] at h
        | some m =>
          obtain ⟨f, hf, rfl, -⟩ := (hr s m).mp hm
          rw [key f hf] at h
          exact ⟨f.1, f.2, hf.1, hf.2, rfl, (Option.some.inj h).symm⟩
  · rintro (⟨rfl, rfl⟩ | ⟨rfl, rfl⟩ | ⟨t, d, ht, hd, rfl, rfl⟩)
    · rfl
    · rfl
    · exact key (t, d) ⟨ht, hd⟩

/-- C51: elsewhere temperatures are not looked for. -/
theorem C51_elsewhere (s : Str) (part : ReportPart) (h1 : part ≠ .METAR) (h2 : part ≠ .RMK) :
    TemperatureGroup.parse s part = none := by
  cases part <;> simp_all [TemperatureGroup.parse]

/-- C51: the note that data are missing is completed by `MISG` and by nothing else; any other text
undoes it. Temperature and dew point take no further text. -/
theorem C51_missing (first s : Str) (part : ReportPart) (g : TemperatureGroup)
    (h : TemperatureGroup.parse first part = some g) :
    (first ≠ c!"T" → first ≠ c!"TD" → g.append s = (g, .NOT_APPENDED)) ∧
    (first = c!"T" ∨ first = c!"TD" → s ≠ c!"MISG" → g.append s = (g, .GROUP_INVALIDATED)) ∧
    (first = c!"T" → s = c!"MISG" → g.append s = (⟨.T_MISG, {}, {}, false⟩, .APPENDED)) ∧
    (first = c!"TD" → s = c!"MISG" → g.append s = (⟨.TD_MISG, {}, {}, false⟩, .APPENDED)) := by
  have notBody : ∀ (t : Degrees) (d : Option Degrees) (x : Str),
      t.text ++ c!"/" ++ dewText d = c!"T" ++ x → False := by
    intro t d x e
    have dT : ∀ n, Nat.digitChar (n % 10) ≠ 'T' := fun n => digitChar_mod_ne rfl
    rcases t with _ | ⟨_ | _, n⟩ <;> simp_all [Degrees.text, decimal_two]
  have long : ∀ (t : Tenths) (d : Option Tenths), 5 ≤ (c!"T" ++ t.text ++ tenthsText d).length := by
    intro t d
    simp only [List.length_append, tenths_length, List.length_cons, List.length_nil]
    omega
  have cases3 : (first = c!"T" ∧ g = ⟨.T_MISG, {}, {}, true⟩) ∨
      (first = c!"TD" ∧ g = ⟨.TD_MISG, {}, {}, true⟩) ∨
      (first ≠ c!"T" ∧ first ≠ c!"TD" ∧ g.isIncomplete = false) := by
    cases part with
    | METAR =>
      obtain ⟨t, d, -, -, rfl, rfl⟩ := (C51_body _ _).mp h
      exact Or.inr (Or.inr ⟨fun e => notBody t d [] e, fun e => notBody t d c!"D" e, rfl⟩)
    | RMK =>
      rcases (C51_remark _ _).mp h with h | h | ⟨t, d, -, -, rfl, rfl⟩
      · exact Or.inl h
      · exact Or.inr (Or.inl h)
      · have l := long t d
        exact Or.inr (Or.inr ⟨fun e => by rw [e] at l; simp at l, fun e => by rw [e] at l; simp at l, rfl⟩)
    | HEADER => cases h
    | TAF => cases h
    | UNKNOWN => cases h
  rcases cases3 with ⟨rfl, rfl⟩ | ⟨rfl, rfl⟩ | ⟨h1, h2, h3⟩
  · refine ⟨by simp, fun _ hs => ?_, ?_, by simp⟩
    · simp [TemperatureGroup.append, hs]
    · rintro - rfl; rfl
  · refine ⟨by simp, fun _ hs => ?_, by simp, ?_⟩
    · simp [TemperatureGroup.append, hs]
    · rintro - rfl; rfl
  · refine ⟨fun _ _ => by simp [TemperatureGroup.append, h3], ?_, fun h => absurd h h1,
      fun h => absurd h h2⟩
    rintro (h | h)
    · exact absurd h h1
    · exact absurd h h2

/-- C51: complete notes take no further text. -/
theorem C51_complete (s : Str) (g : TemperatureGroup) (h : g.isIncomplete = false) :
    g.append s = (g, .NOT_APPENDED) := by
  simp [TemperatureGroup.append, h]

/-! ### Validity -/

theorem isValid_false_iff {tp : TemperatureGroupType} {t d : Temperature} {a b : Rat}
    (ha : t.temperature = some a) (hb : d.temperature = some b) :
    TemperatureGroup.isValid ⟨tp, t, d, false⟩ = false ↔
      (a = 0 ∧ b = 0 ∧ t.freezing = true ∧ d.freezing = false) ∨ a < b := by
  simp only [TemperatureGroup.isValid, ha, hb, Bool.false_eq_true, if_false]
  split
  · rename_i h; simp_all
  · rename_i h
    simp only [decide_eq_false_iff_not, ge_iff_le, not_le]
    constructor
    · exact Or.inr
    · rintro (h' | h')
      · exact absurd ⟨h'.1, h'.2.1, h'.2.2.1, by simp [h'.2.2.2]⟩ h
      · exact h'

theorem degrees_value {b : Bool} {n : Nat} (h : n < 100) :
    (Degrees.value b n).temperature.temperature =
      some (if b then -(n : Rat) else (n : Rat)) := by
  have h1 : f32 (((n : Nat) : Int) : Rat) = (n : Rat) := by
    have := FloatSem.f32_int (n : Int) (by rw [abs_of_nonneg (by omega)]; omega)
    simpa using this
  have h2 : f32 ((-(n : Int) : Int) : Rat) = -(n : Rat) := by
    have := FloatSem.f32_int (-(n : Int)) (by rw [abs_neg, abs_of_nonneg (by omega)]; omega)
    simpa using this
  cases b
  · simp only [Degrees.temperature, Temperature.temperature, Bool.false_eq_true, if_false, h1]
  · simp only [Degrees.temperature, Temperature.temperature, Bool.false_eq_true, if_false, h2, if_true]

/-- C51: a group from the body of a report is valid unless temperature and dew point are both
reported and the temperature is the lower one. -/
theorem C51_valid (t : Degrees) (d : Option Degrees) (ht : t.Ok) (hd : ∀ x ∈ d, x.Ok)
    (g : TemperatureGroup)
    (h : TemperatureGroup.parse (t.text ++ c!"/" ++ dewText d) .METAR = some g) :
    g.isValid = false ↔ ∃ x, d = some x ∧ t.lower x = true := by
  rw [(C51_body _ _).mpr ⟨t, d, ht, hd, rfl, rfl⟩] at h
  obtain rfl := Option.some.inj h
  cases d with
  | none => simp [TemperatureGroup.isValid, dewPoint, Temperature.temperature]
  | some x =>
    have hx := hd x rfl
    simp only [Option.some.injEq, exists_eq_left']
    match t, ht, x, hx with
    | .missing, _, x, _ =>
      cases x <;> simp [TemperatureGroup.isValid, Temperature.temperature, Degrees.temperature, Degrees.lower]
    | .value b n, hn, .missing, _ =>
      cases b <;> simp [TemperatureGroup.isValid, dewPoint, Temperature.temperature, Degrees.temperature,
        Degrees.lower]
    | .value b n, hn, .value c m, hm =>
      have e1 := degrees_value (b := b) hn
      have e2 := degrees_value (b := c) hm
      have f1 : (Degrees.value b n).temperature.freezing = b := by cases b <;> rfl
      have f2 : (Degrees.value c m).temperature.freezing = c := by cases c <;> rfl
      have cn : (0 : Rat) ≤ n := Nat.cast_nonneg n
      have cm : (0 : Rat) ≤ m := Nat.cast_nonneg m
      rw [show dewPoint (some (Degrees.value c m)) = (Degrees.value c m).temperature from rfl,
        isValid_false_iff e1 e2, f1, f2]
      cases b <;> cases c <;> simp [Degrees.lower]
      · linarith
      · by_cases h0 : n = 0 ∧ m = 0
        · left; exact h0
        · right
          rcases Nat.eq_zero_or_pos n with rfl | hp
          · have : 0 < m := by omega
            simpa using this
          · have : (0 : Rat) < n := by exact_mod_cast hp
            linarith

/-- C51: a group from remarks is valid unless temperature and dew point are both reported and the
temperature is the lower one. -/
theorem C51_valid_remark (t : Tenths) (d : Option Tenths) (ht : t.Ok) (hd : ∀ x ∈ d, x.Ok)
    (g : TemperatureGroup)
    (h : TemperatureGroup.parse (c!"T" ++ t.text ++ tenthsText d) .RMK = some g) :
    g.isValid = false ↔ ∃ x, d = some x ∧ t.tenths < x.tenths := by
  rw [(C51_remark _ _).mpr (Or.inr (Or.inr ⟨t, d, ht, hd, rfl, rfl⟩))] at h
  obtain rfl := Option.some.inj h
  have bound : ∀ t : Tenths, t.Ok → |t.tenths| ≤ 999 := by
    rintro ⟨b, n⟩ h
    have h : n < 1000 := h
    cases b <;> simp [Tenths.tenths, abs_neg] <;> omega
  cases d with
  | none => simp [TemperatureGroup.isValid, tenthsDewPoint, Temperature.temperature]
  | some x =>
    have hx := hd x rfl
    simp only [Option.some.injEq, exists_eq_left', tenthsDewPoint]
    obtain ⟨a, ha, -, ha'⟩ := C27_value t.temperature t.tenths rfl (bound t ht)
    obtain ⟨b, hb, -, hb'⟩ := C27_value x.temperature x.tenths rfl (bound x hx)
    have ha' := abs_le.mp (ha' rfl)
    have hb' := abs_le.mp (hb' rfl)
    rw [isValid_false_iff ha hb]
    have lt_iff : a < b ↔ t.tenths < x.tenths := by
      constructor
      · intro h
        by_contra hn
        have h2 : (x.tenths : Rat) ≤ t.tenths := by exact_mod_cast not_lt.mp hn
        rcases eq_or_lt_of_le (not_lt.mp hn) with e | e
        · have e' : x.temperature = t.temperature := by simp [Tenths.temperature, e]
          rw [e'] at hb
          rw [ha] at hb
          cases hb
          exact lt_irrefl _ h
        · have e : (x.tenths : Rat) + 1 ≤ t.tenths := by exact_mod_cast e
          linarith [ha'.1, hb'.2]
      · intro h
        have e : (t.tenths : Rat) + 1 ≤ x.tenths := by exact_mod_cast h
        linarith [ha'.2, hb'.1]
    rw [lt_iff]
    constructor
    · rintro (⟨h0, -, h1, -⟩ | h)
      · have h1 : t.tenths < 0 := by simpa [Tenths.temperature] using h1
        have h1 : (t.tenths : Rat) + 1 ≤ 0 := by exact_mod_cast h1
        linarith [ha'.1]
      · exact h
    · exact Or.inr

/-! Cases meeting the hypotheses. -/

example : ∃ g, TemperatureGroup.parse c!"M05/M07" .METAR = some g :=
  ⟨_, (C51_body _ _).mpr ⟨.value true 5, some (.value true 7), by simp [Degrees.Ok],
    by simp [Degrees.Ok], rfl, rfl⟩⟩
example : ∃ g, TemperatureGroup.parse c!"00/M00" .METAR = some g ∧ g.isValid = true :=
  ⟨_, (C51_body _ _).mpr ⟨.value false 0, some (.value true 0), by simp [Degrees.Ok],
    by simp [Degrees.Ok], rfl, rfl⟩, by
    rw [← Bool.not_eq_false, C51_valid (.value false 0) (some (.value true 0)) (by simp [Degrees.Ok])
      (by simp [Degrees.Ok]) _ ((C51_body _ _).mpr ⟨.value false 0, some (.value true 0),
        by simp [Degrees.Ok], by simp [Degrees.Ok], rfl, rfl⟩)]
    simp [Degrees.lower]⟩
example : ∃ g, TemperatureGroup.parse c!"T10170032" .RMK = some g ∧ g.isValid = false :=
  ⟨_, (C51_remark _ _).mpr (Or.inr (Or.inr ⟨⟨true, 17⟩, some ⟨false, 32⟩, by simp [Tenths.Ok],
    by simp [Tenths.Ok], rfl, rfl⟩)), by
    rw [C51_valid_remark ⟨true, 17⟩ (some ⟨false, 32⟩) (by simp [Tenths.Ok])
      (by simp [Tenths.Ok]) _ ((C51_remark _ _).mpr (Or.inr (Or.inr ⟨⟨true, 17⟩, some ⟨false, 32⟩,
        by simp [Tenths.Ok], by simp [Tenths.Ok], rfl, rfl⟩)))]
    exact ⟨_, rfl, by decide⟩⟩
example : ∃ g, TemperatureGroup.parse c!"TD" .RMK = some g ∧
    g.append c!"MISG" = (⟨.TD_MISG, {}, {}, false⟩, .APPENDED) := ⟨_, rfl, rfl⟩
example : TemperatureGroup.parse c!"12/08" .TAF = none :=
  C51_elsewhere _ _ (by decide) (by decide)

end Metaf.Props

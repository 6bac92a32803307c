import Verif.Props.Wind
import Verif.Props.Headings

/-!
C63: wind groups made of several texts: surface wind with variable sector, peak wind, wind shift,
wind data missing, wind shear on runways.
-/

namespace Metaf.Props

set_option linter.unusedSectionVars false

open Metaf Metaf.Spec Metaf.WindGroup

variable [FloatSem]

/-! ### Specification -/

/-- The time of an event: hour and minute, or only the minute within the hour of the report. -/
inductive EventTime (now : Option Nat) : Str → MetafTime → Prop
  | full {h m} : h < 100 → m < 100 → EventTime now (decimal 2 h ++ decimal 2 m) ⟨none, h, m⟩
  | minutes {h m} : now = some h → m < 100 → EventTime now (decimal 2 m) ⟨none, h, m⟩

/-- The sequences of texts which are one wind group in a part of a report, and the group. `now` is
the hour of the report. The last constructor argument of the inductive family is the group. -/
inductive WindSequence (p : ReportPart) (now : Option Nat) : List Str → WindGroup → Prop
  | wind {w} : p = .METAR ∨ p = .TAF → WindText.Ok w → WindSequence p now [w.text] w.group
  | windAndSector {w a b} : p = .METAR ∨ p = .TAF → WindText.Ok w → w.shear = none → ¬ w.Calm →
      a < 100 → b < 100 →
      WindSequence p now [w.text, decimal 3 (10 * a) ++ c!"V" ++ decimal 3 (10 * b)]
        { w.group with windType := .SURFACE_WIND_WITH_VARIABLE_SECTOR
                       vsecBegin := ⟨10 * a, .VALUE_DEGREES⟩, vsecEnd := ⟨10 * b, .VALUE_DEGREES⟩ }
  | sector {a b} : p = .METAR ∨ p = .TAF → a < 100 → b < 100 →
      WindSequence p now [decimal 3 (10 * a) ++ c!"V" ++ decimal 3 (10 * b)]
        { windType := .VARIABLE_WIND_SECTOR
          vsecBegin := ⟨10 * a, .VALUE_DEGREES⟩, vsecEnd := ⟨10 * b, .VALUE_DEGREES⟩ }
  | shearConditions : p = .TAF → WindSequence p now [c!"WSCONDS"] { windType := .WSCONDS }
  | shear : p = .METAR →
      WindSequence p now [c!"WS"] { windType := .WIND_SHEAR_IN_LOWER_LAYERS, incompleteText := .WS }
  | shearAll : p = .METAR →
      WindSequence p now [c!"WS", c!"ALL"]
        { windType := .WIND_SHEAR_IN_LOWER_LAYERS, incompleteText := .WS_ALL }
  | shearAllRunways : p = .METAR →
      WindSequence p now [c!"WS", c!"ALL", c!"RWY"]
        { windType := .WIND_SHEAR_IN_LOWER_LAYERS, rw := some ⟨88, .NONE⟩ }
  | shearRunway {n d pre} : p = .METAR → n < 100 → pre = c!"R" ∨ pre = c!"RWY" →
      WindSequence p now [c!"WS", pre ++ decimal 2 n ++ designatorText d]
        { windType := .WIND_SHEAR_IN_LOWER_LAYERS, rw := some ⟨n, d⟩ }
  | missing : p = .RMK →
      WindSequence p now [c!"WND"] { windType := .WND_MISG, incompleteText := .WND }
  | missingWind : p = .RMK → WindSequence p now [c!"WND", c!"MISG"] { windType := .WND_MISG }
  | peak : p = .RMK →
      WindSequence p now [c!"PK"] { windType := .PEAK_WIND, incompleteText := .PK }
  | peakWord : p = .RMK →
      WindSequence p now [c!"PK", c!"WND"] { windType := .PEAK_WIND, incompleteText := .PK_WND }
  | peakWind {d v s t} : p = .RMK → d < 100 → v < 1000 → EventTime now s t →
      WindSequence p now [c!"PK", c!"WND", decimal 3 (10 * d) ++ speedText v ++ c!"/" ++ s]
        { windType := .PEAK_WIND, windDir := ⟨10 * d, .VALUE_DEGREES⟩, wSpeed := ⟨some v, .KNOTS⟩
          evTime := some t }
  | shift : p = .RMK → WindSequence p now [c!"WSHFT"] { windType := .WIND_SHIFT }
  | shiftFront : p = .RMK →
      WindSequence p now [c!"WSHFT", c!"FROPA"] { windType := .WIND_SHIFT_FROPA }
  | shiftTime {s t} : p = .RMK → EventTime now s t →
      WindSequence p now [c!"WSHFT", s] { windType := .WIND_SHIFT, evTime := some t }
  | shiftTimeFront {s t} : p = .RMK → EventTime now s t →
      WindSequence p now [c!"WSHFT", s, c!"FROPA"]
        { windType := .WIND_SHIFT_FROPA, evTime := some t }

/-! ### Peak wind -/

/-- The time of a peak wind as written. -/
def clockText : Option Nat → Nat → Str
  | some h, m => decimal 2 h ++ decimal 2 m
  | none, m => decimal 2 m

/-- The captures of the peak wind expression. -/
def clockCaps : Option Nat → Nat → Caps
  | some h, m => [(4, decimal 2 m), (3, decimal 2 h)]
  | none, m => [(4, decimal 2 m)]

def peakCaps (d v : Nat) (h : Option Nat) (m : Nat) : Caps :=
  clockCaps h m ++ [] ++ [(2, speedText v)] ++ [(1, decimal 3 (10 * d))]

structure PeakForm where
  d : Nat
  v : Nat
  h : Option Nat
  m : Nat

def PeakForm.Ok (f : PeakForm) : Prop := f.d < 100 ∧ f.v < 1000 ∧ (∀ h ∈ f.h, h < 100) ∧ f.m < 100

def PeakForm.text (f : PeakForm) : Str :=
  decimal 3 (10 * f.d) ++ speedText f.v ++ c!"/" ++ clockText f.h f.m

theorem clockText_inj {h h' : Option Nat} {m m' : Nat} (hh : ∀ x ∈ h, x < 100) (hh' : ∀ x ∈ h', x < 100)
    (hm : m < 100) (hm' : m' < 100) (e : clockText h m = clockText h' m') : h = h' ∧ m = m' := by
  have len : ∀ (h : Option Nat) m, (clockText h m).length = if h.isSome then 4 else 2 := by
    intro h m; cases h <;> simp [clockText, decimal_length]
  have hl := congrArg List.length e
  rw [len, len] at hl
  cases h with
  | none =>
    cases h' with
    | none => exact ⟨rfl, decimal_inj hm hm' e⟩
    | some b => simp at hl
  | some a =>
    cases h' with
    | none => simp at hl
    | some b =>
      obtain ⟨e1, e2⟩ := List.append_inj e (by simp [decimal_length])
      exact ⟨congrArg some (decimal_inj (hh a rfl) (hh' b rfl) e1), decimal_inj hm hm' e2⟩

theorem peak_regex (s : Str) (c : Caps) :
    regexMatch pkWndRgx s = some c ↔
      ∃ f : PeakForm, f.Ok ∧ s = f.text ∧ c = peakCaps f.d f.v f.h f.m := by
  refine regexMatch_form (F := PeakForm) (ok := PeakForm.Ok) (text := PeakForm.text)
    (caps := fun f => peakCaps f.d f.v f.h f.m) ?_ ?_ s c
  · intro s c
    simp only [pkWndRgx, ↓Rx.match_tens, ↓match_speed, ↓Rx.match_digits2, Rx.match_seq, Rx.match_cap,
      Rx.match_opt, Rx.match_chr]
    constructor
    · rintro ⟨_, _, _, _, ⟨_, ⟨rfl, d, hd, rfl⟩, rfl⟩, ⟨_, _, _, _, ⟨_, ⟨rfl, v, hv, rfl⟩, rfl⟩,
        ⟨_, _, _, _, ⟨rfl, rfl⟩, ⟨_, _, _, _, h, ⟨_, ⟨rfl, m, hm, rfl⟩, rfl⟩, rfl, rfl⟩, rfl, rfl⟩,
        rfl, rfl⟩, rfl, rfl⟩
      rcases h with ⟨_, ⟨rfl, h, hh, rfl⟩, rfl⟩ | ⟨rfl, rfl⟩
      · exact ⟨⟨d, v, some h, m⟩, ⟨hd, hv, by simpa using hh, hm⟩,
          by simp [PeakForm.text, clockText], rfl⟩
      · exact ⟨⟨d, v, none, m⟩, ⟨hd, hv, by simp, hm⟩, by simp [PeakForm.text, clockText], rfl⟩
    · rintro ⟨⟨d, v, h, m⟩, ⟨hd, hv, hh, hm⟩, rfl, rfl⟩
      refine ⟨decimal 3 (10 * d), speedText v ++ (c!"/" ++ clockText h m), _, _,
        ⟨[], ⟨rfl, d, hd, rfl⟩, rfl⟩, ⟨speedText v, c!"/" ++ clockText h m, _, _,
        ⟨[], ⟨rfl, v, hv, rfl⟩, rfl⟩, ⟨c!"/", clockText h m, [], clockCaps h m, ⟨rfl, rfl⟩, ?_, rfl, rfl⟩, rfl, rfl⟩,
        by simp [PeakForm.text], rfl⟩
      · cases h with
        | some h =>
          exact ⟨decimal 2 h, decimal 2 m, _, _, Or.inl ⟨[], ⟨rfl, h, hh h rfl, rfl⟩, rfl⟩,
            ⟨[], ⟨rfl, m, hm, rfl⟩, rfl⟩, rfl, rfl⟩
        | none =>
          exact ⟨[], decimal 2 m, [], _, Or.inr ⟨rfl, rfl⟩, ⟨[], ⟨rfl, m, hm, rfl⟩, rfl⟩, rfl, rfl⟩
  · rintro ⟨d, v, h, m⟩ ⟨d', v', h', m'⟩ ⟨hd, hv, hh, hm⟩ ⟨hd', hv', hh', hm'⟩ e
    simp only [PeakForm.text, List.append_assoc] at e
    obtain ⟨e1, e⟩ := List.append_inj e (by simp [decimal_length])
    obtain ⟨e2, e⟩ := digits_prefix (speedText_digits v) (speedText_digits v') (by simp [isDigit]) (by simp [isDigit]) e
    obtain ⟨-, e⟩ := List.append_inj e rfl
    obtain ⟨rfl, rfl⟩ := clockText_inj hh hh' hm hm' e
    simp only [peakCaps, e1, e2]

theorem stoi_pair {n : Nat} (h : n < 100) : WeatherPhenomena.stoi (decimal 2 n) = n := by
  rw [decimal_two]
  simp only [WeatherPhenomena.stoi, List.foldl_cons, List.foldl_nil]
  rw [digitVal_digitChar (by omega), digitVal_digitChar (by omega)]
  omega

/-- A peak wind group. -/
def peakGroup (d v : Nat) (t : Option MetafTime) (i : WindIncomplete) : WindGroup :=
  { windType := .PEAK_WIND, windDir := ⟨10 * d, .VALUE_DEGREES⟩, wSpeed := ⟨some v, .KNOTS⟩,
    evTime := t, incompleteText := i }

/-- The peak wind text: direction, speed, time. -/
theorem appendPeakWind_iff (s : Str) (md : ReportMetadata) (g : WindGroup) :
    appendPeakWind { windType := .PEAK_WIND, incompleteText := .PK_WND } s md = (g, .APPENDED) ↔
      ∃ d v r t, d < 100 ∧ v < 1000 ∧ EventTime (md.reportTime.map (·.hourValue)) r t ∧
        s = decimal 3 (10 * d) ++ speedText v ++ c!"/" ++ r ∧
        g = { windType := .PEAK_WIND, windDir := ⟨10 * d, .VALUE_DEGREES⟩, wSpeed := ⟨some v, .KNOTS⟩,
              evTime := some t } := by
  have key : ∀ f : PeakForm, f.Ok →
      appendPeakWind { windType := .PEAK_WIND, incompleteText := .PK_WND } f.text md =
        match f.h, md.reportTime with
        | none, none => (peakGroup f.d f.v none .PK_WND, .GROUP_INVALIDATED)
        | none, some rt => (peakGroup f.d f.v (some ⟨none, rt.hourValue, f.m⟩) .NONE, .APPENDED)
        | some h, _ => (peakGroup f.d f.v (some ⟨none, h, f.m⟩) .NONE, .APPENDED) := by
    rintro ⟨d, v, h, m⟩ hok
    have hok' := hok
    obtain ⟨hd, hv, hh, hm⟩ := hok
    unfold appendPeakWind
    rw [(peak_regex _ _).mpr ⟨_, hok', rfl, rfl⟩]
    have e1 : Caps.str (peakCaps d v h m) 1 = (WindDirection.tens d).text := by cases h <;> rfl
    have e2 : Caps.str (peakCaps d v h m) 2 = speedPart (some v) := by cases h <;> rfl
    have e4 : Caps.str (peakCaps d v h m) 4 = decimal 2 m := by cases h <;> rfl
    have hs := speed_of_part (sp := some v) (by simpa using hv) .KNOTS
    simp only [e1, e2, e4, direction_of_text (d := .tens d) hd, hs,
      stoi_pair hm]
    cases h with
    | some h =>
      have e3 : Caps.str (peakCaps d v (some h) m) 3 = decimal 2 h := rfl
      have ne : (decimal 2 h).isEmpty = false := rfl
      simp only [e3, ne, Bool.false_eq_true, if_false, stoi_pair (hh h rfl)]
      rfl
    | none =>
      have e3 : Caps.str (peakCaps d v none m) 3 = [] := rfl
      simp only [e3, List.isEmpty_nil, if_true]
      cases md.reportTime <;> rfl
  constructor
  · intro h
    cases hm : regexMatch pkWndRgx s with
    | none => rw [appendPeakWind, hm] at h; cases h
    | some c =>
      obtain ⟨f, hok, rfl, -⟩ := (peak_regex s c).mp hm
      rw [key f hok] at h
      obtain ⟨d, v, hr, m⟩ := f
      obtain ⟨hd, hv, hh, hm⟩ := hok
      cases hr with
      | some a =>
        obtain rfl := (Prod.mk.inj h).1
        exact ⟨d, v, _, _, hd, hv, .full (hh a rfl) hm, rfl, rfl⟩
      | none =>
        cases hrt : md.reportTime with
        | none => simp [hrt] at h
        | some rt =>
          rw [hrt] at h
          obtain rfl := (Prod.mk.inj h).1
          exact ⟨d, v, _, _, hd, hv, .minutes rfl hm, rfl, rfl⟩
  · rintro ⟨d, v, r, t, hd, hv, ht, rfl, rfl⟩
    cases ht with
    | @full h m hh hm =>
      exact key ⟨d, v, some h, m⟩ ⟨hd, hv, by simpa using hh, hm⟩
    | @minutes h m _ hm =>
      rename_i hn
      have := key ⟨d, v, none, m⟩ ⟨hd, hv, by simp, hm⟩
      cases hrt : md.reportTime with
      | none => simp [hrt] at hn
      | some rt =>
        rw [hrt] at hn this
        simp only [Option.map_some, Option.some.injEq] at hn
        rw [← hn]
        exact this

/-! ### Wind shift -/

theorem event_ne_fropa {now : Option Nat} {s : Str} {t : MetafTime} (h : EventTime now s t) :
    s ≠ c!"FROPA" := by
  intro e
  have := congrArg List.length e
  cases h <;> simp [decimal_length] at this

theorem decimal_four_pair (n : Nat) (hn : n < 10000) :
    decimal 4 n = decimal 2 (n / 100) ++ decimal 2 (n % 100) := by
  rw [decimal_four_split]
  congr 1
  simp only [decimal_two, List.cons.injEq, and_true]
  constructor <;> congr 1 <;> omega

/-- What can follow a wind shift without a time. -/
theorem appendWindShift_iff (s : Str) (md : ReportMetadata) (g : WindGroup) :
    appendWindShift { windType := .WIND_SHIFT } s md = (g, .APPENDED) ↔
      (s = c!"FROPA" ∧ g = { windType := .WIND_SHIFT_FROPA }) ∨
      ∃ t, EventTime (md.reportTime.map (·.hourValue)) s t ∧
        g = { windType := .WIND_SHIFT, evTime := some t } := by
  unfold appendWindShift
  constructor
  · intro h
    ite_cases h
    · obtain rfl := (Prod.mk.inj h).1
      exact Or.inl ⟨‹_›, rfl⟩
    · cases ‹_ = true›
    · right
      split at h
      · rename_i rt hrt hl
        cases hm : strToUint s 0 2 with
        | none => simp [hm] at h
        | some m =>
          rw [hm] at h
          obtain rfl := (Prod.mk.inj h).1
          obtain ⟨hlt, rfl⟩ := (strToUint_whole (by decide) (by decide) hl).mp hm
          exact ⟨_, .minutes (by rw [hrt]; rfl) hlt, rfl⟩
      · rename_i hl
        cases hm : strToUint s 0 4 with
        | none => simp [hm] at h
        | some n =>
          rw [hm] at h
          obtain rfl := (Prod.mk.inj h).1
          obtain ⟨hlt, rfl⟩ := (strToUint_whole (by decide) (by decide) hl).mp hm
          refine ⟨_, ?_, rfl⟩
          rw [decimal_four_pair n hlt]
          exact .full (by omega) (by omega)
      · cases h
  · rintro (⟨rfl, rfl⟩ | ⟨t, ht, rfl⟩)
    · rfl
    · rw [if_neg (event_ne_fropa ht)]
      simp only [Option.isSome_none, Bool.false_eq_true, if_false]
      cases ht with
      | @full h m hh hm =>
        have hl : (decimal 2 h ++ decimal 2 m).length = 4 := by simp [decimal_length]
        have hu : strToUint (decimal 2 h ++ decimal 2 m) 0 4 = some (100 * h + m) := by
          rw [strToUint_whole (by decide) (by decide) hl, decimal_four_pair _ (by omega)]
          refine ⟨by omega, ?_⟩
          congr 2 <;> omega
        simp only [hl, hu]
        have e1 : (100 * h + m) / 100 = h := by omega
        have e2 : (100 * h + m) % 100 = m := by omega
        rw [e1, e2]
      | @minutes h m hn hm =>
        have hl : (decimal 2 m).length = 2 := by simp [decimal_length]
        cases hrt : md.reportTime with
        | none => simp [hrt] at hn
        | some rt =>
          rw [hrt] at hn
          simp only [Option.map_some, Option.some.injEq] at hn
          simp only [hl, strToUint_decimal (k := 2) (by decide) (by decide) (by omega : m < 10 ^ 2), hn]

theorem appendWindShift_timed (s : Str) (md : ReportMetadata) (t : MetafTime) (g : WindGroup) :
    appendWindShift { windType := .WIND_SHIFT, evTime := some t } s md = (g, .APPENDED) ↔
      s = c!"FROPA" ∧ g = { windType := .WIND_SHIFT_FROPA, evTime := some t } := by
  unfold appendWindShift
  by_cases h : s = c!"FROPA"
  · simp [h, eq_comm]
  · simp [h]

/-! ### Histories -/

theorem group_shape (w : WindText) : w.group.incompleteText = .NONE ∧ w.group.windType ≠ .WIND_SHIFT ∧
    (w.group.windType = .SURFACE_WIND ↔ w.shear = none ∧ ¬ w.Calm) := by
  unfold WindText.group
  split
  · rename_i h; simp [h]
  · rename_i h
    cases hs : w.shear <;> simp [h]

/-- C63. A sequence of texts is taken for one wind group exactly if it is wind, peak wind, wind shift,
missing wind data or wind shear as written, and the group has the values written. -/
theorem C63_history (p : ReportPart) (md : ReportMetadata) (ws : List Str) (g : WindGroup) :
    taken (WindGroup.parse · p) (WindGroup.append · · md) ws = some g ↔
      WindSequence p (md.reportTime.map (·.hourValue)) ws g := by
  constructor
  · induction ws using List.reverseRecOn generalizing g with
    | nil => intro h; cases h
    | append_singleton ws w ih =>
      intro h
      by_cases hne : ws = []
      · subst hne
        rw [List.nil_append, taken_one] at h
        rcases (C46_wind w p g).mp h with ⟨hp, x, hx, rfl, rfl⟩ | ⟨hp, a, b, ha, hb, rfl, rfl⟩ |
          ⟨hp, rfl, rfl⟩ | ⟨hp, rfl, rfl⟩ | ⟨hp, rfl, rfl⟩ | ⟨hp, rfl, rfl⟩ | ⟨hp, rfl, rfl⟩
        · exact .wind hp hx
        · exact .sector hp ha hb
        · exact .shear hp
        · exact .shearConditions hp
        · exact .shift hp
        · exact .peak hp
        · exact .missing hp
      · obtain ⟨g0, h0, ha⟩ := (taken_snoc hne w g).mp h
        have hv := ih _ h0
        cases hv with
        | @wind x hp hx =>
          obtain ⟨s1, s2, s3⟩ := group_shape x
          rcases C46_sector x.group w md s1 s2 with ⟨a, b, hla, hlb, rfl, hw, e⟩ | ⟨-, e⟩
          · rw [e] at ha
            obtain rfl := (Prod.mk.inj ha).1
            exact .windAndSector hp hx (s3.mp hw).1 (s3.mp hw).2 hla hlb
          · rw [e] at ha; cases (Prod.mk.inj ha).2
        | @windAndSector x a b hp hx h1 h2 hla hlb =>
          simp only [WindGroup.append, (group_shape x).1] at ha
          cases (Prod.mk.inj ha).2
        | sector => cases (Prod.mk.inj ha).2
        | shearConditions => cases (Prod.mk.inj ha).2
        | shear hp =>
          simp only [WindGroup.append] at ha
          by_cases e : w = c!"ALL"
          · rw [if_pos e] at ha
            subst e
            obtain rfl := (Prod.mk.inj ha).1
            exact .shearAll hp
          · rw [if_neg e] at ha
            cases hr : Runway.fromString w true with
            | none => simp [hr] at ha
            | some r =>
              rw [hr] at ha
              obtain rfl := (Prod.mk.inj ha).1
              obtain ⟨n, d⟩ := r
              obtain ⟨hn, pre, hpre, rfl⟩ := (C24_runway w true _).mp hr
              exact .shearRunway hp hn (by simpa using hpre)
        | shearAll hp =>
          simp only [WindGroup.append] at ha
          ite_cases ha
          · cases (Prod.mk.inj ha).2
          · rename_i e
            obtain rfl := not_not.mp e
            obtain rfl := (Prod.mk.inj ha).1
            exact .shearAllRunways hp
        | shearAllRunways => cases (Prod.mk.inj ha).2
        | shearRunway => cases (Prod.mk.inj ha).2
        | missing hp =>
          simp only [WindGroup.append] at ha
          ite_cases ha
          · cases (Prod.mk.inj ha).2
          · rename_i e
            obtain rfl := not_not.mp e
            obtain rfl := (Prod.mk.inj ha).1
            exact .missingWind hp
        | missingWind => cases (Prod.mk.inj ha).2
        | peak hp =>
          simp only [WindGroup.append] at ha
          ite_cases ha
          · cases (Prod.mk.inj ha).2
          · rename_i e
            obtain rfl := not_not.mp e
            obtain rfl := (Prod.mk.inj ha).1
            exact .peakWord hp
        | peakWord hp =>
          obtain ⟨d, v, r, t, hd, hv, ht, rfl, rfl⟩ := (appendPeakWind_iff w md g).mp ha
          exact .peakWind hp hd hv ht
        | peakWind => cases (Prod.mk.inj ha).2
        | shift hp =>
          rcases (appendWindShift_iff w md g).mp ha with ⟨rfl, rfl⟩ | ⟨t, ht, rfl⟩
          · exact .shiftFront hp
          · exact .shiftTime hp ht
        | shiftFront => cases (Prod.mk.inj ha).2
        | shiftTime hp ht =>
          obtain ⟨rfl, rfl⟩ := (appendWindShift_timed w md _ g).mp ha
          exact .shiftTimeFront hp ht
        | shiftTimeFront => cases (Prod.mk.inj ha).2
  · intro h
    have one : ∀ {w g}, WindGroup.parse w p = some g →
        taken (WindGroup.parse · p) (WindGroup.append · · md) [w] = some g := by
      intro w g h; rw [taken_one]; exact h
    have more : ∀ {w v : Str} {g g'}, taken (WindGroup.parse · p) (WindGroup.append · · md) [w] = some g →
        WindGroup.append g v md = (g', .APPENDED) →
        taken (WindGroup.parse · p) (WindGroup.append · · md) [w, v] = some g' :=
      fun h1 h2 => (taken_snoc (ws := [_]) (by simp) _ _).mpr ⟨_, h1, h2⟩
    have more2 : ∀ {w v x : Str} {g g'},
        taken (WindGroup.parse · p) (WindGroup.append · · md) [w, v] = some g →
        WindGroup.append g x md = (g', .APPENDED) →
        taken (WindGroup.parse · p) (WindGroup.append · · md) [w, v, x] = some g' :=
      fun h1 h2 => (taken_snoc (ws := [_, _]) (by simp) _ _).mpr ⟨_, h1, h2⟩
    cases h with
    | wind hp hw => exact one ((C46_wind _ _ _).mpr (Or.inl ⟨hp, _, hw, rfl, rfl⟩))
    | @windAndSector x a b hp hx h1 h2 hla hlb =>
      refine more (one ((C46_wind _ _ _).mpr (Or.inl ⟨hp, _, hx, rfl, rfl⟩))) ?_
      obtain ⟨s1, s2, s3⟩ := group_shape x
      rcases C46_sector x.group _ md s1 s2 with ⟨a', b', ha', hb', e, -, e2⟩ | ⟨h, -⟩
      · rw [e2]
        simp only [List.append_assoc] at e
        obtain ⟨ea, e⟩ := List.append_inj e rfl
        obtain ⟨-, eb⟩ := List.append_inj e rfl
        rw [Nat.mul_left_cancel (by decide) (decimal_inj (by omega) (by omega) ea),
          Nat.mul_left_cancel (by decide) (decimal_inj (by omega) (by omega) eb)]
      · exact absurd ⟨s3.mpr ⟨h1, h2⟩, a, b, hla, hlb, rfl⟩ h
    | sector hp ha hb => exact one ((C46_wind _ _ _).mpr (Or.inr (Or.inl ⟨hp, _, _, ha, hb, rfl, rfl⟩)))
    | shearConditions hp => subst hp; exact one rfl
    | shear hp => subst hp; exact one rfl
    | shearAll hp => subst hp; exact more (one rfl) rfl
    | shearAllRunways hp => subst hp; exact more2 (more (one rfl) rfl) rfl
    | @shearRunway n d pre hp hn hpre =>
      subst hp
      refine more (one rfl) ?_
      have hr := (C24_runway (pre ++ decimal 2 n ++ designatorText d) true ⟨n, d⟩).mpr
        ⟨hn, pre, by simpa using hpre, rfl⟩
      have hne : pre ++ decimal 2 n ++ designatorText d ≠ c!"ALL" := by
        intro e; rw [e] at hr; cases hr
      simp only [WindGroup.append, if_neg hne, hr]
    | missing hp => subst hp; exact one rfl
    | missingWind hp => subst hp; exact more (one rfl) rfl
    | peak hp => subst hp; exact one rfl
    | peakWord hp => subst hp; exact more (one rfl) rfl
    | peakWind hp hd hv ht =>
      subst hp
      exact more2 (more (one rfl) rfl) ((appendPeakWind_iff _ md _).mpr ⟨_, _, _, _, hd, hv, ht, rfl, rfl⟩)
    | shift hp => subst hp; exact one rfl
    | shiftFront hp => subst hp; exact more (one rfl) rfl
    | shiftTime hp ht =>
      subst hp
      exact more (one rfl) ((appendWindShift_iff _ md _).mpr (Or.inr ⟨_, ht, rfl⟩))
    | shiftTimeFront hp ht =>
      subst hp
      exact more2 (more (one rfl) ((appendWindShift_iff _ md _).mpr (Or.inr ⟨_, ht, rfl⟩))) rfl

/-- C63. A text which does not continue the group: the group is discarded if it was left unfinished by
a keyword which needs a continuation, and otherwise it is complete and stays as it was. -/
theorem C63_rejected (p : ReportPart) (md : ReportMetadata) (ws : List Str) (g : WindGroup) (s : Str)
    (h : taken (WindGroup.parse · p) (WindGroup.append · · md) ws = some g)
    (hn : ∀ g', ¬ WindSequence p (md.reportTime.map (·.hourValue)) (ws ++ [s]) g') :
    ((WindGroup.append g s md).2 = .GROUP_INVALIDATED ∧ g.isValid = false ∧
      ws ∈ [[c!"WS"], [c!"WS", c!"ALL"], [c!"WND"], [c!"PK"], [c!"PK", c!"WND"]]) ∨
    (WindGroup.append g s md = (g, .NOT_APPENDED) ∧
      ws ∉ [[c!"WS"], [c!"WS", c!"ALL"], [c!"WND"], [c!"PK"], [c!"PK", c!"WND"]]) := by
  have hne : ws ≠ [] := by rintro rfl; cases h
  have hx : (WindGroup.append g s md).2 ≠ .APPENDED := by
    intro e
    exact hn _ ((C63_history p md _ _).mp ((taken_snoc hne s _).mpr ⟨g, h, Prod.ext rfl e⟩))
  have hseq := (C63_history p md ws g).mp h
  have hinc : ws ∈ [[c!"WS"], [c!"WS", c!"ALL"], [c!"WND"], [c!"PK"], [c!"PK", c!"WND"]] ↔
      g.incompleteText ≠ .NONE := by
    have one : ∀ w g, taken (WindGroup.parse · p) (WindGroup.append · · md) [w] = some g →
        g.incompleteText = .NONE → w ≠ c!"WS" ∧ w ≠ c!"WND" ∧ w ≠ c!"PK" := by
      intro w g h hi
      rw [taken_one] at h
      refine ⟨?_, ?_, ?_⟩
      · rintro rfl; cases p <;> cases h <;> cases hi
      · rintro rfl; cases p <;> cases h <;> cases hi
      · rintro rfl; cases p <;> cases h <;> cases hi
    cases hseq with
    | wind hp hw =>
      obtain ⟨h1, h2, h3⟩ := one _ _ h (group_shape _).1
      simp [h1, h2, h3, (group_shape _).1]
    | windAndSector hp hw h1 h2 ha hb =>
      simp only [(group_shape _).1, ne_eq, not_true_eq_false, iff_false, List.mem_cons,
        List.cons.injEq, and_true, List.not_mem_nil, or_false, reduceCtorEq, and_false, false_or]
      rintro (⟨-, h⟩ | ⟨-, h⟩) <;> replace h := congrArg List.length h <;>
        simp [decimal_length] at h
    | sector hp ha hb =>
      obtain ⟨h1, h2, h3⟩ := one _ _ h rfl
      simp only [List.mem_cons, List.cons.injEq, and_true, h1, h2, h3]
      simp
    | shearConditions => decide
    | shear => decide
    | shearAll => decide
    | shearAllRunways => decide
    | @shearRunway n d pre hp hn hpre =>
      simp only [ne_eq, not_true_eq_false, iff_false, List.mem_cons,
        List.cons.injEq, and_true, List.not_mem_nil, or_false, reduceCtorEq, and_false, false_or]
      rintro (⟨-, h⟩ | ⟨h, -⟩)
      · rcases hpre with rfl | rfl <;> simp at h
      · simp at h
    | missing => decide
    | missingWind => decide
    | peak => decide
    | peakWord => decide
    | peakWind => simp
    | shift => decide
    | shiftFront => decide
    | shiftTime hp ht => simp
    | shiftTimeFront hp ht => simp
  by_cases hi : g.incompleteText = .NONE
  · right
    refine ⟨?_, fun e => hinc.mp e hi⟩
    unfold WindGroup.append at hx ⊢
    rw [hi] at hx ⊢
    simp only at hx ⊢
    cases ht : g.windType <;> simp only [ht] at hx ⊢
    · unfold appendVariableSector at hx ⊢
      split
      · rename_i e; rw [e] at hx; exact absurd rfl hx
      · rfl
    · unfold appendWindShift at hx ⊢
      split
      · rename_i e; rw [if_pos e] at hx; exact absurd rfl hx
      rename_i e0
      rw [if_neg e0] at hx
      split
      · rfl
      rename_i e1
      rw [if_neg e1] at hx
      split <;> (try split) <;> simp_all
  · left
    have hv : g.isValid = false := by rw [WindGroup.isValid, if_pos hi]
    refine ⟨?_, hv, hinc.mpr hi⟩
    have key : ∀ r : WindGroup × AppendResult, (r.2 = .APPENDED ∨ r.2 = .GROUP_INVALIDATED) →
        r.2 ≠ .APPENDED → r.2 = .GROUP_INVALIDATED := by
      intro r h1 h2; exact h1.resolve_left h2
    refine key _ ?_ hx
    unfold WindGroup.append
    cases h : g.incompleteText
    · exact absurd h hi
    · simp only; split <;> simp
    · simp only [appendPeakWind]
      split
      · simp
      split
      · simp
      split
      · simp
      split
      · split <;> simp
      · simp
    · simp only; split <;> simp
    · simp only
      split
      · simp
      split <;> simp
    · simp only; split <;> simp

/-- C63. Which winds are valid: the direction is at most 360 degrees, gusts are not zero and exceed the
wind speed, wind shear is not at ground level. (A speed of 999 without gusts counts as invalid.) -/
theorem C63_valid_wind (w : WindText) (hok : w.Ok) :
    w.group.isValid = true ↔ (∀ n, w.dir = .tens n → n ≤ 36) ∧
      (∀ x ∈ w.gust, x ≠ 0 ∧ ∀ v ∈ w.speed, v < x) ∧ w.shear ≠ some 0 ∧
      (w.gust = none → ∀ v ∈ w.speed, v < 999) := by
  obtain ⟨sh, d, sp, gu, u⟩ := w
  have hsh := hok.1
  have h3 : (Distance.distance {}).getD 1 = 1 := rfl
  have h4 : ∀ n, sh = some n →
      ((Distance.mk .NONE (some (100 * n)) .FEET).distance.getD 1 = 0 ↔ n = 0) := by
    intro n hn
    have : n < 1000 := hsh n hn
    simp only [Distance.distance, reduceCtorEq, if_false, Option.getD_some]
    rw [f32_nat (n := 100 * n) (by omega)]
    norm_cast
    omega
  unfold WindText.group
  by_cases h : (WindText.mk sh d sp gu u).Calm
  · rw [if_pos h]
    obtain ⟨e1, e2, e3, e4⟩ := h
    simp only at e1 e2 e3 e4
    subst e1 e2 e3 e4
    simp [WindGroup.isValid, WindText.speedOf, h3, Direction.isValid, Direction.isValue, Runway.isValid,
      MetafTime.isValid]
  · rw [if_neg h]
    have hd : ∀ d : WindDirection, d.direction.isValid = true ↔ ∀ n, d = .tens n → n ≤ 36 := by
      intro d
      cases d with
      | tens n =>
        simp [WindDirection.direction, Direction.isValid, Direction.isValue]
        omega
      | varying => simp [WindDirection.direction, Direction.isValid, Direction.isValue]
      | missing => simp [WindDirection.direction, Direction.isValid, Direction.isValue]
    rw [← hd d]
    have h0 : Direction.isValid {} = true := rfl
    have h1 : Runway.isValid {} = true := rfl
    have h2 : MetafTime.isValid {} = true := rfl
    cases sh with
    | none =>
      cases sp <;> cases gu <;> simp [WindGroup.isValid, WindText.speedOf, h0, h1, h2, h3] <;> tauto
    | some n =>
      have h5 := h4 n rfl
      cases sp <;> cases gu <;> simp [WindGroup.isValid, WindText.speedOf, h0, h1, h2, h5] <;> tauto

/-- C63. Which peak winds, wind shifts and wind shears on runways are valid. -/
theorem C63_valid (d v : Nat) (t : MetafTime) (r : Runway) (ht : t.dayValue = none) :
    (WindGroup.isValid { windType := .PEAK_WIND, windDir := ⟨10 * d, .VALUE_DEGREES⟩,
                         wSpeed := ⟨some v, .KNOTS⟩, evTime := some t } = true ↔
      d ≤ 36 ∧ v < 999 ∧ t.hourValue ≤ 24 ∧ t.minuteValue ≤ 59) ∧
    (∀ tp, WindGroup.isValid { windType := tp, evTime := some t } = true ↔
      t.hourValue ≤ 24 ∧ t.minuteValue ≤ 59) ∧
    (∀ tp, WindGroup.isValid { windType := tp, rw := some r } = true ↔
      r.rNumber ≤ 36 ∨ r = ⟨88, .NONE⟩ ∨ r = ⟨99, .NONE⟩) := by
  have htv : t.isValid = true ↔ t.hourValue ≤ 24 ∧ t.minuteValue ≤ 59 := by
    simp only [MetafTime.isValid, ht, Option.getD_none]
    simp
  have hd : Direction.isValid ⟨10 * d, .VALUE_DEGREES⟩ = true ↔ d ≤ 36 := by
    simp [Direction.isValid, Direction.isValue]
    omega
  have h0 : Direction.isValid {} = true := rfl
  have h1 : Runway.isValid {} = true := rfl
  have h2 : MetafTime.isValid {} = true := rfl
  have h3 : (Distance.distance {}).getD 1 = 1 := rfl
  refine ⟨?_, ?_, ?_⟩
  · rw [← htv, ← hd]
    simp [WindGroup.isValid, h0, h1, h3]
    tauto
  · intro tp
    rw [← htv]
    simp [WindGroup.isValid, h0, h1, h3]
  · intro tp
    have := C24_valid r
    simp [WindGroup.isValid, h0, h2, h3]
    rw [this]

end Metaf.Props

namespace Metaf.Props

open Metaf Metaf.Spec

attribute [local instance] exactFloat

example : taken (WindGroup.parse · .RMK) (WindGroup.append · · {}) [c!"PK", c!"WND", c!"28045/1955"] = some
      { windType := .PEAK_WIND, windDir := ⟨280, .VALUE_DEGREES⟩, wSpeed := ⟨some 45, .KNOTS⟩,
        evTime := some ⟨none, 19, 55⟩ } ∧
    taken (WindGroup.parse · .RMK) (WindGroup.append · · {}) [c!"PK", c!"WND", c!"28045/55"] = none ∧
    taken (WindGroup.parse · .RMK) (WindGroup.append · · { reportTime := some ⟨some 7, 21, 50⟩ })
      [c!"WSHFT", c!"30", c!"FROPA"] = some
      { windType := .WIND_SHIFT_FROPA, evTime := some ⟨none, 21, 30⟩ } ∧
    taken (WindGroup.parse · .METAR) (WindGroup.append · · {}) [c!"WS", c!"R24L"] = some
      { windType := .WIND_SHEAR_IN_LOWER_LAYERS, rw := some ⟨24, .LEFT⟩ } ∧
    taken (WindGroup.parse · .METAR) (WindGroup.append · · {}) [c!"21010KT", c!"180V240"] = some
      { windType := .SURFACE_WIND_WITH_VARIABLE_SECTOR, windDir := ⟨210, .VALUE_DEGREES⟩,
        wSpeed := ⟨some 10, .KNOTS⟩, vsecBegin := ⟨180, .VALUE_DEGREES⟩,
        vsecEnd := ⟨240, .VALUE_DEGREES⟩ } := by decide +kernel

end Metaf.Props

import Verif.Props.RemarkDivision
import Verif.Props.Validity
import Verif.Props.Decoding
import Verif.Props.Climate

/-!
C74: which groups of a whole report `isValid()` rejects, in terms of the texts only.
-/

set_option linter.unusedSectionVars false

namespace Metaf.Props

open Metaf Metaf.Spec

variable [FloatIeee]

/-! ### Specification -/

/-- Number of tenths of a degree with sign, as written in remarks. -/
def signedTenths (below : Bool) (n : Nat) : Int := if below then -(n : Int) else n

/-- `RemarkFaulty now ws`: the words `ws`, which are a remark of a report made at the hour `now` if it says
so, say something which cannot be. -/
inductive RemarkFaulty (now : Option Nat) : List Str → Prop
  | peakWind {d v s t} : d < 100 → v < 1000 → EventTime now s t →
      36 < d ∨ v = 999 ∨ TimeWrong none t.hourValue t.minuteValue →
      RemarkFaulty now [c!"PK", c!"WND", decimal 3 (10 * d) ++ speedText v ++ c!"/" ++ s]
  | shift {s t} : EventTime now s t → TimeWrong none t.hourValue t.minuteValue →
      RemarkFaulty now [c!"WSHFT", s]
  | shiftFront {s t} : EventTime now s t → TimeWrong none t.hourValue t.minuteValue →
      RemarkFaulty now [c!"WSHFT", s, c!"FROPA"]
  | visibility {as k v x} : Amount as k v x → ¬ InOrder v x → RemarkFaulty now (c!"VIS" :: as)
  | visibilityRunway {as k v x s r} : Amount as k v x → RunwayWord s r → RunwayWrong r ∨ ¬ InOrder v x →
      RemarkFaulty now (c!"VIS" :: (as ++ [s]))
  | visibilityWhere {s d f t as k v x} : WhereWord s d f t → Amount as k v x → k ≠ .meters → ¬ InOrder v x →
      RemarkFaulty now (c!"VIS" :: s :: as)
  | noVisibility {s r} : RunwayWord s r → RunwayWrong r → RemarkFaulty now [c!"VISNO", s]
  | ceiling {s g w r} : CeilingWord s g → RunwayWord w r → RunwayWrong r → RemarkFaulty now [c!"CIG", s, w]
  | noCeiling {w r} : RunwayWord w r → RunwayWrong r → RemarkFaulty now [c!"CHINO", w]
  | events {h fs es e} : now = some h → fs ≠ [] → (∀ f ∈ fs, f.Ok) → readEvents h none fs = some es →
      e ∈ es.take 20 → TimeWrong none e.hour e.minute → RemarkFaulty now [(fs.map EventForm.text).flatten]
  | temperature {t d : Tenths} : t.Ok → d.Ok → t.tenths < d.tenths →
      RemarkFaulty now [c!"T" ++ t.text ++ d.text]
  | maximumMinimum {ms ns b n b' n'} : (∀ m ∈ ms, m ∈ noTemperature) → (∀ m ∈ ns, m ∈ noTemperature) → n < 1000 →
      n' < 1000 → signedTenths b n ≤ signedTenths b' n' →
      RemarkFaulty now
        (ms ++ (c!"1" ++ remarkTemperatureText b n) :: ns ++ [c!"2" ++ remarkTemperatureText b' n'])
  | minimumMaximum {ms ns b n b' n'} : (∀ m ∈ ms, m ∈ noTemperature) → (∀ m ∈ ns, m ∈ noTemperature) → n < 1000 →
      n' < 1000 → signedTenths b' n' ≤ signedTenths b n →
      RemarkFaulty now
        (ms ++ (c!"2" ++ remarkTemperatureText b n) :: ns ++ [c!"1" ++ remarkTemperatureText b' n'])
  | daily {b n b' n'} : n < 1000 → n' < 1000 → signedTenths b n ≤ signedTenths b' n' →
      RemarkFaulty now [c!"4" ++ remarkTemperatureText b n ++ remarkTemperatureText b' n']
  | cloudTypes {ws cs c} : ws ≠ [] → ws.length ≤ 8 → List.Forall₂ TypeLayerText ws cs → c ∈ cs →
      c.okt = 0 ∨ c.okt = 9 → RemarkFaulty now ws
  | cloudOktas {l : List Str} {cs c} : l ≠ [] → (∀ t ∈ l, Segment t) → List.Forall₂ OktaText (l.take 8) cs →
      c ∈ cs → c.okt = 0 ∨ c.okt = 9 → RemarkFaulty now [l.flatten]
  | cloudCodes {a b c} : a = '/' ∨ isDigit a = true → b = '/' ∨ isDigit b = true → c = '/' ∨ isDigit c = true →
      (a = '/' ∧ b ≠ '/') ∨ (b = '/' ∧ c ≠ '/') → RemarkFaulty now [['8', '/', a, b, c]]
  | lightning {fw f ty ds hd f1 t1 f2 t2 c1 c2 p} : (fw, f) ∈ frequencyWords →
      (∀ w ∈ ds, w = c!"DSNT" ∨ w = c!"VC") → TwoHeadings hd f1 t1 f2 t2 c1 c2 →
      p ∈ (inPairs ty).take 6 → p ∉ lightningCodes →
      RemarkFaulty now (fw ++ (c!"LTG" ++ ty) :: (ds ++ hd))

/-- `HeaderFaulty w`: the word `w` of a header is a time or a period which cannot be. -/
inductive HeaderFaulty : Str → Prop
  | time {d h m} : d < 100 → h < 100 → m < 100 → TimeWrong (some d) h m → HeaderFaulty (timeText d h m)
  | period {d h d' h'} : d < 100 → h < 100 → d' < 100 → h' < 100 →
      TimeWrong (some d) h 0 ∨ TimeWrong (some d') h' 0 → HeaderFaulty (TrendWord.span d h d' h').text

/-- A group of the result, in a report made at the hour `now`, which says something that cannot be or is
not complete. An unknown group is never faulty; a group without text always is. -/
def EntryFaulty (now : Option Nat) (x : GroupInfo) : Prop :=
  (∀ u, x.group ≠ .unknown u) ∧
  match x.reportPart with
  | .HEADER => HeaderFaulty x.rawString
  | .UNKNOWN => False
  | .RMK => x.rawString = [] ∨ RemarkFaulty now (words x.rawString)
  | p => Faulty p (words x.rawString)

/-! ### Parts of remarks -/

theorem signed_bound {b : Bool} {n : Nat} (h : n < 1000) : |signedTenths b n| ≤ 1000 := by
  unfold signedTenths
  rw [abs_le]
  split <;> omega

theorem remark_value {b : Bool} {n : Nat} (h : n < 1000) : (remarkTemperature b n).temperature =
    some (f32 ((signedTenths b n : Rat) * Temperature.preciseValuePrecision)) := by
  have ht : tenths (remarkTemperature b n) = some (signedTenths b n) := rfl
  exact temperature_eq ht (signed_bound h)

/-- Minimum and maximum temperature, observed. -/
theorem observed_invalid {t : MinMaxType} {b b' : Bool} {n n' : Nat} (h : n < 1000) (h' : n' < 1000) :
    MinMaxTemperatureGroup.isValid { t := t, maxTemp := remarkTemperature b n, minTemp := remarkTemperature b' n' } = false ↔
      signedTenths b n ≤ signedTenths b' n' := by
  have hlt := value_lt (signed_bound h' (b := b')) (signed_bound h (b := b))
  have key : MinMaxTemperatureGroup.isValid
      { t := t, maxTemp := remarkTemperature b n, minTemp := remarkTemperature b' n' } =
      if !(remarkTemperature b' n').freezing && (remarkTemperature b n).freezing then false
      else decide (f32 ((signedTenths b' n' : Rat) * Temperature.preciseValuePrecision) <
        f32 ((signedTenths b n : Rat) * Temperature.preciseValuePrecision)) := by
    unfold MinMaxTemperatureGroup.isValid
    simp only [remark_value h, remark_value h', remark_reported, Option.getD_none, Option.getD_some]
    rfl
  rw [key]
  split
  · rename_i hf
    simp only [true_iff]
    simp only [remarkTemperature, Bool.and_eq_true, Bool.not_eq_true', Bool.and_eq_false_iff,
      decide_eq_true_eq, decide_eq_false_iff_not] at hf
    obtain ⟨h1, h2, h3⟩ := hf
    subst h2
    unfold signedTenths
    rcases h1 with rfl | h1
    · simp only [if_true, Bool.false_eq_true, if_false]; omega
    · simp only [if_true]; split <;> omega
  · rw [decide_eq_false_iff_not, hlt, not_lt]

/-- One of the temperatures, or none. -/
theorem observed_valid {b : Bool} {n : Nat} (h : n < 1000) :
    MinMaxTemperatureGroup.isValid (sixGroup (remarkTemperature b n) {}) = true ∧
    MinMaxTemperatureGroup.isValid (sixGroup {} (remarkTemperature b n)) = true ∧
    MinMaxTemperatureGroup.isValid (sixGroup {} {}) = true := by
  have hn := abs_le.mp (value_near (signed_bound h (b := b)))
  have hb : (-1000 : Rat) < signedTenths b n ∧ (signedTenths b n : Rat) < 1000 := by
    unfold signedTenths
    split
    · have : (n : Rat) < 1000 := by exact_mod_cast h
      have : (0 : Rat) ≤ n := by positivity
      push_cast
      constructor <;> linarith
    · have : (n : Rat) < 1000 := by exact_mod_cast h
      have : (0 : Rat) ≤ n := by positivity
      push_cast
      constructor <;> linarith
  have hb' : (-999 : Int) ≤ signedTenths b n ∧ signedTenths b n ≤ 999 := by
    unfold signedTenths
    split <;> omega
  have hb2 : (-999 : Rat) ≤ signedTenths b n ∧ (signedTenths b n : Rat) ≤ 999 := by
    exact ⟨by exact_mod_cast hb'.1, by exact_mod_cast hb'.2⟩
  have hlo : (-100 : Rat) < f32 ((signedTenths b n : Rat) * Temperature.preciseValuePrecision) := by
    norm_num at hn ⊢; linarith [hn.1, hb2.1]
  have hhi : f32 ((signedTenths b n : Rat) * Temperature.preciseValuePrecision) < (100 : Rat) := by
    norm_num at hn ⊢; linarith [hn.2, hb2.2]
  refine ⟨?_, ?_, ?_⟩
  · unfold MinMaxTemperatureGroup.isValid
    simp only [remark_value h]
    simp [Temperature.isReported, Temperature.temperature, MetafTime.isValid]
    exact decide_eq_true hlo
  · unfold MinMaxTemperatureGroup.isValid
    simp only [remark_value h]
    simp [Temperature.isReported, Temperature.temperature, MetafTime.isValid]
    exact decide_eq_true hhi
  · unfold MinMaxTemperatureGroup.isValid
    simp [Temperature.isReported, Temperature.temperature, MetafTime.isValid]

theorem place_valid {w : Str} {r : Option Runway} {d : Option Direction} (h : PlaceWord w r d) (g : CloudGroup) :
    CloudGroup.isValid { g with rw := r, dir := d } = false ↔ ∃ x, RunwayWord w x ∧ RunwayWrong x ∧ r = some x := by
  cases h with
  | @runway _ r h =>
    have e : CloudGroup.isValid { g with rw := some r, dir := none } = r.isValid := by
      simp only [CloudGroup.isValid, Option.any_some, Option.any_none]
      cases r.isValid <;> rfl
    rw [e, runway_wrong]
    constructor
    · exact fun hw => ⟨r, h, hw, rfl⟩
    · rintro ⟨x, -, hx, e⟩
      rw [Option.some.inj e]; exact hx
  | @octant _ n h =>
    simp only [octantNames, List.mem_cons, Prod.mk.injEq, List.not_mem_nil, or_false] at h
    rcases h with ⟨-, rfl⟩ | ⟨-, rfl⟩ | ⟨-, rfl⟩ | ⟨-, rfl⟩ | ⟨-, rfl⟩ | ⟨-, rfl⟩ | ⟨-, rfl⟩ | ⟨-, rfl⟩ <;>
      simp [CloudGroup.isValid, Direction.isValid]
  | ndv => simp [CloudGroup.isValid, Direction.isValid, Direction.isValue]

/-- Weather events: the times must exist. -/
theorem events_invalid {h : Nat} {fs : List EventForm} {es : List Event} (hok : ∀ f ∈ fs, f.Ok)
    (hr : readEvents h none fs = some es) :
    ∃ b, WeatherGroup.allValid ((es.take 20).map stored) = .ok b ∧
      (b = false ↔ ∃ e ∈ es.take 20, TimeWrong none e.hour e.minute) := by
  have hall := read_all_allowed hok (b := none) (by simp) hr
  have hall' : ∀ e ∈ es.take 20, AllowedWeather false .NONE e.descriptor e.weather :=
    fun e he => hall e (List.mem_of_mem_take he)
  generalize es.take 20 = l at hall'
  clear hr hall
  induction l with
  | nil => exact ⟨true, rfl, by simp⟩
  | cons e l ih =>
    obtain ⟨b, h1, h2⟩ := ih fun e he => hall' e (List.mem_cons_of_mem _ he)
    have ha := hall' e List.mem_cons_self
    obtain ⟨a1, a2, a3, a4⟩ := allowed_length ha
    obtain ⟨e1, e2, e3, -, -⟩ := C40_lossless .NONE e.descriptor e.weather
      (if e.ending then .ENDING else .BEGINNING) (some { hourValue := e.hour, minuteValue := e.minute }) a1
    have hv : (stored e).isValid = .ok ((MetafTime.mk none e.hour e.minute).isValid) := by
      change (stored e).qualifier = _ at e1
      change (stored e).descriptor = _ at e2
      change (stored e).weather = _ at e3
      have e4 : (stored e).tm = some ⟨none, e.hour, e.minute⟩ := rfl
      unfold WeatherPhenomena.isValid
      rw [e1, e2, e3, e4]
      simp only
      rw [if_neg]
      · cases hvt : (MetafTime.mk none e.hour e.minute).isValid with
        | false => simp [hvt]
        | true =>
          simp only [Option.any_some, hvt, Bool.not_true, Bool.false_eq_true, if_false]
          by_cases hd : e.descriptor = .FREEZING
          · rw [if_pos hd]
            obtain ⟨x, hx, hfx⟩ := a4 hd
            obtain ⟨j, hj⟩ := List.mem_iff_getElem?.mp hx
            have hjl : j < e.weather.length := by rw [List.getElem?_eq_some_iff] at hj; exact hj.1
            exact WeatherPhenomena.fzLoop_ok _ _ _ ⟨j, by omega, by omega, x, hj, hfx⟩
          · rw [if_neg hd]
      · rintro ⟨-, b, c⟩
        exact a3 rfl b (List.length_eq_zero_iff.mp c)
    have ht := time_wrong ⟨none, e.hour, e.minute⟩
    simp only at ht
    cases hvt : (MetafTime.mk none e.hour e.minute).isValid with
    | false =>
      exact ⟨false, by simp [WeatherGroup.allValid, hv, hvt],
        fun _ => ⟨e, List.mem_cons_self, ht.mp hvt⟩, fun _ => rfl⟩
    | true =>
      refine ⟨b, by simp [WeatherGroup.allValid, hv, hvt, h1], ?_⟩
      rw [h2, List.exists_mem_cons_iff, ← ht, hvt]
      simp

theorem okta_layer {ws : List Str} {cs : List CloudType} (h : List.Forall₂ TypeLayerText ws cs) :
    ∀ c ∈ cs, c.okt < 10 := by
  induction h with
  | nil => simp
  | cons h _ ih =>
    intro c hc
    rcases List.mem_cons.mp hc with rfl | hc
    · obtain ⟨_, _, n, _, -, hn, -, -, rfl⟩ := h
      exact hn
    · exact ih c hc

theorem okta_type {ws : List Str} {cs : List CloudType} (h : List.Forall₂ OktaText ws cs) :
    ∀ c ∈ cs, c.okt < 10 := by
  induction h with
  | nil => simp
  | cons h _ ih =>
    intro c hc
    rcases List.mem_cons.mp hc with rfl | hc
    · obtain ⟨_, _, n, -, hn, -, rfl⟩ := h
      exact hn
    · exact ih c hc

theorem types_invalid {cs : List CloudType} (h : ∀ c ∈ cs, c.okt < 10) :
    CloudTypesGroup.isValid ⟨cs⟩ = false ↔ ∃ c ∈ cs, c.okt = 0 ∨ c.okt = 9 := by
  rw [← Bool.not_eq_true, C43_valid]
  push Not
  constructor
  · rintro ⟨c, hc, h2⟩
    have := h c hc
    exact ⟨c, hc, by by_cases h0 : c.okt = 0 <;> omega⟩
  · rintro ⟨c, hc, h2⟩
    exact ⟨c, hc, by omega⟩

theorem code_missing {α : Type} {table : List α} {missing : α} (hm : missing ∉ table) (hl : table.length = 10)
    {c : Char} {x : α} (h : CodeWritten table missing c x) : (x = missing ↔ c = '/') ∧ (c = '/' ∨ isDigit c = true) := by
  rcases h with ⟨rfl, rfl⟩ | ⟨k, hk, rfl⟩
  · exact ⟨by simp, Or.inl rfl⟩
  · have hk10 : k < 10 := hl ▸ (List.getElem?_eq_some_iff.mp hk).1
    have hd : isDigit (Nat.digitChar k) = true := isDigit_iff.mpr ⟨k, hk10, rfl⟩
    refine ⟨⟨fun e => absurd (List.mem_of_getElem? hk) (e ▸ hm), fun e => ?_⟩, Or.inr hd⟩
    rw [e] at hd; cases hd

theorem code_exists {α : Type} {table : List α} {missing : α} (hl : table.length = 10) {c : Char}
    (h : c = '/' ∨ isDigit c = true) : ∃ x, CodeWritten table missing c x := by
  rcases digitOrSlash_cases h with rfl | ⟨k, hk, rfl⟩
  · exact ⟨missing, Or.inl ⟨rfl, rfl⟩⟩
  · exact ⟨table[k], Or.inr ⟨k, by simp [hl, hk], rfl⟩⟩

theorem codes_invalid {a b c : Char} {g : LowMidHighCloudGroup}
    (h1 : CodeWritten lowCode .NOT_OBSERVABLE a g.cloudLowLayer)
    (h2 : CodeWritten midCode .NOT_OBSERVABLE b g.cloudMidLayer)
    (h3 : CodeWritten highCode .NOT_OBSERVABLE c g.cloudHighLayer) :
    g.isValid = false ↔ (a = '/' ∧ b ≠ '/') ∨ (b = '/' ∧ c ≠ '/') := by
  have e1 := (code_missing (by decide) rfl h1).1
  have e2 := (code_missing (by decide) rfl h2).1
  have e3 := (code_missing (by decide) rfl h3).1
  unfold LowMidHighCloudGroup.isValid
  simp only [ne_eq, e1, e2, e3]
  split
  · rename_i h; simp only [true_iff]; exact Or.inl h
  · rename_i h
    split
    · rename_i h'; simp only [true_iff]; exact Or.inr h'
    · rename_i h'
      simp only [Bool.true_eq_false, false_iff, not_or]
      exact ⟨h, h'⟩

theorem peak_invalid {now : Option Nat} {d v : Nat} {s : Str} {t : MetafTime} (hd : d < 100) (hv : v < 1000)
    (ht : EventTime now s t) :
    WindGroup.isValid { windType := .PEAK_WIND, windDir := ⟨10 * d, .VALUE_DEGREES⟩, wSpeed := ⟨some v, .KNOTS⟩,
                        evTime := some t } = false ↔
      36 < d ∨ v = 999 ∨ TimeWrong none t.hourValue t.minuteValue := by
  have hd : t.dayValue = none := by cases ht <;> rfl
  rw [← Bool.not_eq_true, (C63_valid d v t {} hd).1]
  simp only [TimeWrong, Option.mem_def, reduceCtorEq, false_and, exists_false, false_or]
  omega

theorem shift_invalid {now : Option Nat} {s : Str} {t : MetafTime} {k : WindType} (ht : EventTime now s t) :
    WindGroup.isValid { windType := k, evTime := some t } = false ↔ TimeWrong none t.hourValue t.minuteValue := by
  have hd : t.dayValue = none := by cases ht <;> rfl
  rw [← Bool.not_eq_true, (C63_valid 0 0 t {} hd).2.1]
  simp only [TimeWrong, Option.mem_def, reduceCtorEq, false_and, exists_false, false_or]
  omega

theorem visibility_invalid {ws : List Str} {g : VisibilityGroup} (h : VisRemark ws g) :
    ({ g with incompleteText := .NONE }).isValid = false ↔
      (∃ r, g.rw = some r ∧ RunwayWrong r) ∨ ¬ InOrder g.vis g.visMax := by
  rw [← Bool.not_eq_true, C64_valid ws g h, not_and_or]
  refine or_congr ?_ Iff.rfl
  push Not
  simp only [RunwayWrong]
  refine exists_congr fun r => and_congr Iff.rfl ?_
  constructor
  · rintro ⟨h1, h2⟩
    exact ⟨h1, by tauto⟩
  · rintro ⟨h1, h2⟩
    exact ⟨h1, by tauto⟩

/-! ### Validity of remarks -/

/-- A remark which is complete is valid or faulty. -/
theorem remark_valid {now : Option Nat} {ws : List Str} {g : Group} (h : Remark now ws g) :
    groupValid (settled g) = .ok true ∨
    (groupValid (settled g) = .ok false ∧ (RemarkFaulty now ws ∨ ∀ next, Lacking next ws)) := by
  have dec : ∀ {b : Bool} {P : Prop}, (b = false ↔ P) → (P → RemarkFaulty now ws) →
      (Except.ok b : Res Bool) = .ok true ∨
      ((Except.ok b : Res Bool) = .ok false ∧ (RemarkFaulty now ws ∨ ∀ next, Lacking next ws)) := by
    intro b P h1 h2
    cases b with
    | true => exact Or.inl rfl
    | false => exact Or.inr ⟨rfl, Or.inl (h2 (h1.mp rfl))⟩
  have half : ws ∈ halfPhrases → groupValid (settled g) = .ok false →
      groupValid (settled g) = .ok true ∨
      (groupValid (settled g) = .ok false ∧ (RemarkFaulty now ws ∨ ∀ next, Lacking next ws)) :=
    fun h1 h2 => Or.inr ⟨h2, Or.inr fun _ => .phrase h1⟩
  cases h with
  | keyword h => exact Or.inl rfl
  | fixed h =>
    simp only [fixedWords, List.mem_cons, Prod.mk.injEq, List.not_mem_nil, or_false] at h
    rcases h with ⟨-, rfl⟩ | ⟨-, rfl⟩ | ⟨-, rfl⟩ | ⟨-, rfl⟩ | ⟨-, rfl⟩ | ⟨-, rfl⟩ | ⟨-, rfl⟩ <;> exact Or.inl rfl
  | missing h =>
    simp only [missingWords, List.mem_cons, Prod.mk.injEq, List.not_mem_nil, or_false] at h
    rcases h with ⟨rfl, rfl, -⟩ | ⟨rfl, rfl, -⟩ | ⟨rfl, rfl, -⟩ | ⟨rfl, rfl, -⟩ | ⟨rfl, rfl, -⟩ | ⟨rfl, rfl, -⟩ <;>
      exact half (by simp [halfPhrases]) rfl
  | missingSaid h =>
    simp only [missingWords, List.mem_cons, Prod.mk.injEq, List.not_mem_nil, or_false] at h
    rcases h with ⟨-, -, rfl⟩ | ⟨-, -, rfl⟩ | ⟨-, -, rfl⟩ | ⟨-, -, rfl⟩ | ⟨-, -, rfl⟩ | ⟨-, -, rfl⟩ <;>
      exact Or.inl rfl
  | wind h =>
    cases h with
    | missing | peak | peakWord => exact half (by simp [halfPhrases]) rfl
    | missingWind | shift | shiftFront =>
      refine Or.inl (congrArg Except.ok ?_)
      have h0 : Direction.isValid {} = true := rfl
      have h1 : Runway.isValid {} = true := rfl
      have h2 : MetafTime.isValid {} = true := rfl
      have h3 : (Distance.distance {}).getD 1 = 1 := rfl
      simp [WindGroup.isValid, h0, h1, h2, h3]
    | peakWind _ hd hv ht => exact dec (peak_invalid hd hv ht) (.peakWind hd hv ht)
    | shiftTime _ ht => exact dec (shift_invalid ht) (.shift ht)
    | shiftTimeFront _ ht => exact dec (shift_invalid ht) (.shiftFront ht)
    | wind h => exact absurd rfl (body_not_rmk h)
    | windAndSector h => exact absurd rfl (body_not_rmk h)
    | sector h => exact absurd rfl (body_not_rmk h)
    | shearConditions h => cases h
    | shear h => cases h
    | shearAll h => cases h
    | shearAllRunways h => cases h
    | shearRunway h => cases h
  | @visibility ws g h =>
    refine dec (visibility_invalid h) ?_
    have no : InOrder {} {} :=
      ⟨by intro m q m' r _ _ _ e; simp [mileDistance] at e, by intro m a m' b _ e; simp at e⟩
    cases h with
    | visAmount hA =>
      rintro (⟨r, e, -⟩ | hn)
      · cases e
      · exact .visibility hA hn
    | visAmountRunway hA hr =>
      rintro (⟨r, e, hw⟩ | hn)
      · rw [← Option.some.inj e] at hw
        exact .visibilityRunway hA hr (Or.inl hw)
      · exact .visibilityRunway hA hr (Or.inr hn)
    | visWhereAmount hw hA hk =>
      rintro (⟨r, e, -⟩ | hn)
      · cases e
      · exact .visibilityWhere hw hA hk hn
    | observerAmount hw hA hk =>
      rintro (⟨r, e, -⟩ | hn)
      · cases e
      · exfalso
        refine hn ⟨?_, ?_⟩
        · intro m q m' r _ _ _ e; simp [mileDistance] at e
        · intro m a m' b _ e; simp at e
    | visnoRunway hr =>
      rintro (⟨r, e, hw⟩ | hn)
      · rw [← Option.some.inj e] at hw
        exact .noVisibility hr hw
      · exact absurd no hn
    | _ =>
      rintro (⟨r, e, -⟩ | hn)
      · cases e
      · exact absurd no hn
  | cloud h =>
    have ok : ∀ g : CloudGroup, g.rw = none → g.dir = none → groupValid (settled (.cloud g)) = .ok true := by
      intro g h1 h2
      simp [settled, groupValid, CloudGroup.isValid, h1, h2]
    cases h with
    | @ceilingPlace s g w r d hc hp =>
      refine dec (b := CloudGroup.isValid { g with rw := r, dir := d, incompleteText := .NONE })
        (place_valid hp { g with incompleteText := .NONE }) ?_
      rintro ⟨x, hx, hw, -⟩
      exact .ceiling hc hx hw
    | noCeilingPlace hp =>
      refine dec (place_valid hp { tp := .CHINO }) ?_
      rintro ⟨x, hx, hw, -⟩
      exact .noCeiling hx hw
    | ceilingHeight hc => exact Or.inl (ok _ (by cases hc <;> rfl) (by cases hc <;> rfl))
    | _ => exact Or.inl (ok _ rfl rfl)
  | events h1 h2 h3 h4 =>
    obtain ⟨b, e1, e2⟩ := events_invalid h3 h4
    have : groupValid (settled (.weather { t := .EVENT, w := (List.take 20 _).map stored })) = .ok b := e1
    rw [this]
    refine dec e2 ?_
    rintro ⟨e, he, hw⟩
    exact .events h1 h2 h3 h4 he hw
  | lightningSensor => exact half (by simp [halfPhrases]) rfl
  | lightningSensorTemporarily => exact half (by simp [halfPhrases]) rfl
  | lightningSensorUnavailable => exact Or.inl rfl
  | @temperature t d ht hd =>
    refine dec (C51_valid_remark t d ht hd _ ((C51_remark _ _).mpr (Or.inr (Or.inr ⟨t, d, ht, hd, rfl, rfl⟩)))) ?_
    rintro ⟨x, rfl, hlt⟩
    exact .temperature ht (hd x rfl) hlt
  | pressure => exact Or.inl rfl
  | seaLevelPressure => exact Or.inl rfl
  | stationPressure => exact Or.inl rfl
  | sixHourly h =>
    cases h with
    | missing => exact Or.inl (congrArg Except.ok (observed_valid (b := false) (n := 0) (by decide)).2.2)
    | maximum _ _ hn => exact Or.inl (congrArg Except.ok (observed_valid hn).1)
    | minimum _ _ hn => exact Or.inl (congrArg Except.ok (observed_valid hn).2.1)
    | maxMin h1 h2 hn hn' => exact dec (observed_invalid hn hn') (.maximumMinimum h1 h2 hn hn')
    | minMax h1 h2 hn hn' => exact dec (observed_invalid hn' hn) (.minimumMaximum h1 h2 hn hn')
  | daily hn hn' => exact dec (observed_invalid hn hn') (.daily hn hn')
  | precipitation => exact Or.inl rfl
  | snowIncreasing => exact Or.inl rfl
  | snowIncrease => exact Or.inl rfl
  | tendency => exact Or.inl rfl
  | cloudTypes h1 h2 h3 =>
    refine dec (types_invalid (okta_layer h3)) ?_
    rintro ⟨c, hc, h⟩
    exact .cloudTypes h1 h2 h3 hc h
  | cloudOktas h1 h2 h3 =>
    refine dec (types_invalid (okta_type h3)) ?_
    rintro ⟨c, hc, h⟩
    exact .cloudOktas h1 h2 h3 hc h
  | cloudCodes h1 h2 h3 =>
    exact dec (codes_invalid h1 h2 h3) (.cloudCodes (code_missing (by decide) rfl h1).2
      (code_missing (by decide) rfl h2).2 (code_missing (by decide) rfl h3).2)
  | lightning h =>
    rcases h with ⟨w, f, hf, rfl, rfl, -, -⟩ | ⟨fw, f, ty, ds, hd, f1, t1, f2, t2, hf, hds, hh, rfl, rfl⟩
    · exact Or.inl rfl
    · refine dec (P := ∃ p ∈ (inPairs ty).take 6, p ∉ lightningCodes) (by simp [LightningGroup.isValid]) ?_
      rintro ⟨p, hp, hn⟩
      exact .lightning hf hds hh hp hn
  | vicinity h => exact Or.inl rfl
  | misc h =>
    generalize hp : ReportPart.RMK = p at h
    cases h with
    | density | densityAlt | hail => exact half (by simp [halfPhrases]) rfl
    | hailInches h1 h2 => exact Or.inr ⟨rfl, Or.inr fun _ => .hail h1 h2⟩
    | _ => exact Or.inl rfl

/-- A faulty remark is a remark, and is not valid. -/
theorem faulty_remark {now : Option Nat} {ws : List Str} (h : RemarkFaulty now ws) :
    ∃ g, Remark now ws g ∧ groupValid (settled g) = .ok false := by
  have ok : ∀ {b : Bool}, b = false → (Except.ok b : Res Bool) = .ok false := by rintro b rfl; rfl
  cases h with
  | peakWind hd hv ht h => exact ⟨_, .wind (.peakWind rfl hd hv ht), ok ((peak_invalid hd hv ht).mpr h)⟩
  | shift ht h => exact ⟨_, .wind (.shiftTime rfl ht), ok ((shift_invalid ht).mpr h)⟩
  | shiftFront ht h => exact ⟨_, .wind (.shiftTimeFront rfl ht), ok ((shift_invalid ht).mpr h)⟩
  | visibility hA h => exact ⟨_, .visibility (.visAmount hA), ok ((visibility_invalid (.visAmount hA)).mpr (Or.inr h))⟩
  | visibilityRunway hA hr h =>
    refine ⟨_, .visibility (.visAmountRunway hA hr), ok ((visibility_invalid (.visAmountRunway hA hr)).mpr ?_)⟩
    exact h.imp (fun h => ⟨_, rfl, h⟩) id
  | visibilityWhere hw hA hk h =>
    exact ⟨_, .visibility (.visWhereAmount hw hA hk), ok ((visibility_invalid (.visWhereAmount hw hA hk)).mpr (Or.inr h))⟩
  | noVisibility hr h =>
    exact ⟨_, .visibility (.visnoRunway hr), ok ((visibility_invalid (.visnoRunway hr)).mpr (Or.inl ⟨_, rfl, h⟩))⟩
  | @ceiling s g w r hc hr h =>
    exact ⟨_, .cloud (.ceilingPlace hc (.runway hr)),
      ok ((place_valid (.runway hr) { g with incompleteText := .NONE }).mpr ⟨_, hr, h, rfl⟩)⟩
  | noCeiling hr h =>
    exact ⟨_, .cloud (.noCeilingPlace (.runway hr)), ok ((place_valid (.runway hr) { tp := .CHINO }).mpr ⟨_, hr, h, rfl⟩)⟩
  | events h1 h2 h3 h4 he hw =>
    obtain ⟨b, e1, e2⟩ := events_invalid h3 h4
    rw [e2.mpr ⟨_, he, hw⟩] at e1
    exact ⟨_, .events h1 h2 h3 h4, e1⟩
  | @temperature t d ht hd h =>
    have hd' : ∀ x ∈ some d, x.Ok := by rintro x ⟨⟩; exact hd
    exact ⟨_, .temperature (d := some d) ht hd',
      ok ((C51_valid_remark t (some d) ht hd' _ ((C51_remark _ _).mpr (Or.inr (Or.inr ⟨t, some d, ht, hd', rfl, rfl⟩)))).mpr
        ⟨d, rfl, h⟩)⟩
  | maximumMinimum h1 h2 hn hn' h => exact ⟨_, .sixHourly (.maxMin h1 h2 hn hn'), ok ((observed_invalid hn hn').mpr h)⟩
  | minimumMaximum h1 h2 hn hn' h => exact ⟨_, .sixHourly (.minMax h1 h2 hn hn'), ok ((observed_invalid hn' hn).mpr h)⟩
  | daily hn hn' h => exact ⟨_, .daily hn hn', ok ((observed_invalid hn hn').mpr h)⟩
  | cloudTypes h1 h2 h3 hc h => exact ⟨_, .cloudTypes h1 h2 h3, ok ((types_invalid (okta_layer h3)).mpr ⟨_, hc, h⟩)⟩
  | cloudOktas h1 h2 h3 hc h => exact ⟨_, .cloudOktas h1 h2 h3, ok ((types_invalid (okta_type h3)).mpr ⟨_, hc, h⟩)⟩
  | cloudCodes ha hb hc h =>
    obtain ⟨x, hx⟩ := code_exists (table := lowCode) (missing := .NOT_OBSERVABLE) rfl ha
    obtain ⟨y, hy⟩ := code_exists (table := midCode) (missing := .NOT_OBSERVABLE) rfl hb
    obtain ⟨z, hz⟩ := code_exists (table := highCode) (missing := .NOT_OBSERVABLE) rfl hc
    exact ⟨_, .cloudCodes (g := ⟨x, y, z⟩) hx hy hz, ok ((codes_invalid (g := ⟨x, y, z⟩) hx hy hz).mpr h)⟩
  | lightning hf hds hh hp hn =>
    refine ⟨_, .lightning (Or.inr ⟨_, _, _, _, _, _, _, _, _, hf, hds, hh, rfl, rfl⟩), ok ?_⟩
    simp only [LightningGroup.isValid, Bool.not_eq_false', decide_eq_true_eq]
    exact ⟨_, hp, hn⟩

/-- C74. The check of validity of a complete remark always gives an answer, and the answer is no exactly if
the remark is faulty. -/
theorem C74_remark {now : Option Nat} {ws : List Str} {g : Group} {next : Str} (h : Remark now ws g)
    (hl : ¬ Lacking next ws) : ∃ b, groupValid (settled g) = .ok b ∧ (b = false ↔ RemarkFaulty now ws) := by
  rcases remark_valid h with hv | ⟨hv, hf⟩
  · refine ⟨true, hv, by simp, fun hf => ?_⟩
    obtain ⟨g', h', hv'⟩ := faulty_remark hf
    rcases C72_unique now h h' with rfl | ⟨w, hw, rfl⟩
    · rw [hv'] at hv
      cases hv
    · exact absurd (ambiguous_lacking hw) hl
  · rcases hf with hf | hf
    · exact ⟨false, hv, fun _ => hf, fun _ => rfl⟩
    · exact absurd (hf next) hl

/-! ### Header -/

/-- C74. The check of validity of a group of the header always gives an answer, and the answer is no exactly
if it is a time or a period which cannot be. -/
theorem C74_header {ty : ReportType} {hs : List (Str × Group)} (h : HeaderText ty hs) :
    ∀ x ∈ hs, ∃ b, groupValid x.2 = .ok b ∧ (b = false ↔ HeaderFaulty x.1) := by
  have len : ∀ {w : Str}, HeaderFaulty w → w.length = 7 ∨ w.length = 9 := by
    intro w h
    cases h with
    | time => left; simp [timeText, decimal_length]
    | period => right; simp [TrendWord.text, decimal_length]
  have short : ∀ {w : Str} {g : Group}, groupValid g = .ok true → w.length ≤ 5 →
      ∃ b, groupValid g = .ok b ∧ (b = false ↔ HeaderFaulty w) :=
    fun hv hl => ⟨true, hv, by simp, fun h => by rcases len h with h | h <;> omega⟩
  have loc : ∀ {l : Str}, LocationWord l → ∃ b, groupValid (.location ⟨l⟩) = .ok b ∧ (b = false ↔ HeaderFaulty l) := by
    rintro l ⟨a, b, c, d, rfl, -⟩
    exact short rfl (by simp)
  have time : ∀ {d h m : Nat}, d < 100 → h < 100 → m < 100 →
      ∃ b, groupValid (.reportTime ⟨⟨some d, h, m⟩⟩) = .ok b ∧ (b = false ↔ HeaderFaulty (timeText d h m)) := by
    intro d h m hd hh hm
    have hw := time_wrong ⟨some d, h, m⟩
    refine ⟨MetafTime.isValid ⟨some d, h, m⟩, ?_, ?_⟩
    · simp [groupValid, ReportTimeGroup.isValid]
    · rw [hw]
      constructor
      · exact .time hd hh hm
      · intro hf
        generalize ht : timeText d h m = t at hf
        cases hf with
        | @time d' h' m' hd' hh' hm' hx =>
          obtain ⟨e1, -⟩ := List.append_inj ht (by simp [decimal_length])
          obtain ⟨e1, e2⟩ := List.append_inj e1 (by simp [decimal_length])
          obtain ⟨e3, e4⟩ := List.append_inj e1 (by simp [decimal_length])
          rw [decimal_two_inj hd hd' e3, decimal_two_inj hh hh' e4, decimal_two_inj hm hm' e2]
          exact hx
        | period =>
          have := congrArg List.length ht
          simp [timeText, TrendWord.text, decimal_length] at this
  have span : ∀ {d h d' h' : Nat}, d < 100 → h < 100 → d' < 100 → h' < 100 →
      ∃ b, groupValid (.trend (trendMeaning [.span d h d' h'])) = .ok b ∧
        (b = false ↔ HeaderFaulty (TrendWord.span d h d' h').text) := by
    intro d h d' h' h1 h2 h3 h4
    refine ⟨_, rfl, ?_⟩
    have hs : TrendSentence .TAF [.span d h d' h'] := .one ⟨h1, h2, h3, h4⟩ (by simp [TrendWord.AllowedIn])
    rw [sentence_invalid hs]
    constructor
    · rintro (⟨w, e, hw⟩ | ⟨w, hm, hw⟩)
      · cases e; cases hw
      · simp only [List.mem_singleton] at hm
        subst hm
        exact .period h1 h2 h3 h4 hw
    · intro hf
      refine Or.inr ⟨_, List.mem_singleton_self _, ?_⟩
      generalize ht : (TrendWord.span d h d' h').text = t at hf
      cases hf with
      | time =>
        have := congrArg List.length ht
        simp [timeText, TrendWord.text, decimal_length] at this
      | @period a b c e k1 k2 k3 k4 hx =>
        obtain ⟨e1, e2⟩ := List.append_inj ht (by simp [decimal_length])
        obtain ⟨e1, e3⟩ := List.append_inj e1 (by simp [decimal_length])
        obtain ⟨e1, -⟩ := List.append_inj e1 (by simp [decimal_length])
        obtain ⟨e1, e4⟩ := List.append_inj e1 (by simp [decimal_length])
        rw [decimal_two_inj h1 k1 e1, decimal_two_inj h2 k2 e4, decimal_two_inj h3 k3 e3, decimal_two_inj h4 k4 e2]
        exact hx
  cases h with
  | metar hk hc hl hd hh hm =>
    intro x hx
    simp only [List.mem_cons, List.mem_append, List.not_mem_nil, or_false] at hk hc hx
    rcases hx with (rfl | hx) | rfl | rfl
    · rcases hk with rfl | rfl <;> exact short rfl (by decide)
    · rcases hc with rfl | rfl
      · simp at hx
      · obtain rfl := List.mem_singleton.mp hx
        exact short rfl (by decide)
    · exact loc hl
    · exact time hd hh hm
  | taf hc hl ht h1 h2 h3 h4 =>
    intro x hx
    simp only [List.mem_cons, List.mem_append, List.not_mem_nil, or_false] at hc hx
    rcases hx with (((rfl | hx) | rfl) | hx) | rfl
    · exact short rfl (by decide)
    · rcases hc with rfl | rfl | rfl
      · simp at hx
      all_goals
        obtain rfl := List.mem_singleton.mp hx
        exact short rfl (by decide)
    · exact loc hl
    · rcases ht with rfl | ⟨d, h, m, hd, hh, hm, rfl⟩
      · simp at hx
      · obtain rfl := List.mem_singleton.mp hx
        exact time hd hh hm
    · exact span h1 h2 h3 h4

/-! ### Whole report -/

theorem entries_item {p : ReportPart} {items : List (Group × List Str)} {x : GroupInfo} (h : x ∈ entries p items) :
    (∃ u, x.group = .unknown u) ∨ ∃ it ∈ items, x = ⟨it.1, p, unwords it.2⟩ := by
  induction items generalizing x with
  | nil => simp [entries] at h
  | cons it items ih =>
    obtain ⟨g, ws⟩ := it
    have later : ∀ {x}, x ∈ entries p items → (∃ u, x.group = .unknown u) ∨
        ∃ it ∈ (g, ws) :: items, x = ⟨it.1, p, unwords it.2⟩ := fun h =>
      (ih h).imp id fun ⟨it, hi, e⟩ => ⟨it, List.mem_cons_of_mem _ hi, e⟩
    unfold entries at h
    split at h
    · next u _ raw rest e =>
      rcases List.mem_cons.mp h with rfl | h
      · exact Or.inl ⟨_, rfl⟩
      · exact later (by rw [e]; exact List.mem_cons_of_mem _ h)
    · rcases List.mem_cons.mp h with rfl | h
      · exact Or.inr ⟨_, List.mem_cons_self, rfl⟩
      · exact later h

theorem divided_item {p : ReportPart} {ws : List Str} {items : List (Group × List Str)} (h : Divided p ws items) :
    ∀ it ∈ items, it.1 = .unknown {} ∨ (Written p it.2 it.1 ∧ ∀ w ∈ it.2, w ∈ ws) := by
  induction h with
  | nil => simp
  | @group ws rest g items hw _ _ _ ih =>
    intro it hi
    rcases List.mem_cons.mp hi with rfl | hi
    · exact Or.inr ⟨hw, fun w h => List.mem_append_left _ h⟩
    · exact (ih it hi).imp id fun h => ⟨h.1, fun w hw => List.mem_append_right _ (h.2 w hw)⟩
  | @broken ws rest g items hw _ _ _ ih =>
    intro it hi
    rcases List.mem_cons.mp hi with rfl | hi
    · exact Or.inl rfl
    · exact (ih it hi).imp id fun h => ⟨h.1, fun w hw => List.mem_append_right _ (h.2 w hw)⟩
  | @unknown w rest items _ _ ih =>
    intro it hi
    rcases List.mem_cons.mp hi with rfl | hi
    · exact Or.inl rfl
    · exact (ih it hi).imp id fun h => ⟨h.1, fun w hw => List.mem_cons_of_mem _ (h.2 w hw)⟩

theorem remark_item {now : Option Nat} {ws : List Str} {items : List (Group × List Str)}
    (h : DividedRemarks now ws items) :
    ∀ it ∈ items, it.1 = .unknown {} ∨
      (∃ g next, Remark now it.2 g ∧ ¬ Lacking next it.2 ∧ it.1 = settled g ∧ ∀ w ∈ it.2, w ∈ ws) ∨
      ∃ w y, w ∈ ambiguous ∧ Remark now [w] (.vicinity y) ∧ it = (.vicinity y, []) := by
  induction h with
  | nil => simp
  | @group ws rest g items hw _ hl _ ih =>
    intro it hi
    rcases List.mem_cons.mp hi with rfl | hi
    · exact Or.inr (Or.inl ⟨g, _, hw, hl, rfl, fun w h => List.mem_append_left _ h⟩)
    · exact (ih it hi).imp id (Or.imp (fun ⟨g, n, h1, h2, h3, h4⟩ =>
        ⟨g, n, h1, h2, h3, fun w hw => List.mem_append_right _ (h4 w hw)⟩) id)
  | @lacking ws rest g items hw _ hl _ _ ih =>
    intro it hi
    rcases List.mem_cons.mp hi with rfl | hi
    · exact Or.inl rfl
    · exact (ih it hi).imp id (Or.imp (fun ⟨g, n, h1, h2, h3, h4⟩ =>
        ⟨g, n, h1, h2, h3, fun w hw => List.mem_append_right _ (h4 w hw)⟩) id)
  | @ambiguous w rest y items hw hr _ _ ih =>
    intro it hi
    rcases List.mem_cons.mp hi with rfl | hi
    · exact Or.inr (Or.inr ⟨w, y, hw, hr, rfl⟩)
    · rcases List.mem_cons.mp hi with rfl | hi
      · exact Or.inl rfl
      · exact (ih it hi).imp id (Or.imp (fun ⟨g, n, h1, h2, h3, h4⟩ =>
          ⟨g, n, h1, h2, h3, fun w hw => List.mem_cons_of_mem _ (h4 w hw)⟩) id)
  | @unknown w rest items _ _ ih =>
    intro it hi
    rcases List.mem_cons.mp hi with rfl | hi
    · exact Or.inl rfl
    · exact (ih it hi).imp id (Or.imp (fun ⟨g, n, h1, h2, h3, h4⟩ =>
        ⟨g, n, h1, h2, h3, fun w hw => List.mem_cons_of_mem _ (h4 w hw)⟩) id)

theorem words_unwords : ∀ {ws : List Str}, (∀ w ∈ ws, Parser.Tok w) → words (unwords ws) = ws
  | [], _ => rfl
  | [w], h => (h w (by simp)).words
  | w :: v :: ws, h => by
    rw [unwords, words_append, (h w (by simp)).words, words_unwords fun x hx => h x (List.mem_cons_of_mem _ hx)]
    · rfl
    · simp

theorem lone_vicinity {now : Option Nat} {w : Str} {y : VicinityGroup} (h : Remark now [w] (.vicinity y)) :
    y.isValid = false := by
  generalize hv : [w] = v at h
  generalize hg : Group.vicinity y = g at h
  cases h with
  | @vicinity _ z c1 c2 h =>
    obtain rfl := Group.vicinity.inj hg
    have kind : ∀ {kw t}, KindWords kw t → kw ≠ [] := by
      rintro kw t (⟨w, -, rfl⟩ | ⟨rfl, -⟩) <;> simp
    have len := congrArg List.length hv
    cases h with
    | rotor => rfl
    | kind => rfl
    | distance hk | heading hk | headingAnd hk | headings hk | moving hk | moved hk =>
      have := List.length_pos_iff.mpr (kind hk)
      simp only [List.length_append, List.length_cons, List.length_nil] at len
      omega
  | fixed h => cases hg; simp [fixedWords] at h
  | missing h => cases hg; simp [missingWords] at h
  | missingSaid h => cases hv
  | _ => cases hg

theorem rmk_written {p : ReportPart} (hp : isBody p) : Written p [c!"RMK"] (.keyword ⟨.RMK⟩) := by
  refine .keyword ?_
  rcases hp with rfl | rfl <;> exact keyword_parse_iff.mp rfl

theorem unknown_entry {now : Option Nat} {x : GroupInfo} (h : ∃ u, x.group = .unknown u) :
    ∃ b, groupValid x.group = .ok b ∧ (b = false ↔ EntryFaulty now x) := by
  obtain ⟨u, hu⟩ := h
  refine ⟨true, by rw [hu]; rfl, by simp, fun hf => absurd hu (hf.1 u)⟩

theorem header_entry {now : Option Nat} {ty : ReportType} {hs : List (Str × Group)} (h : HeaderText ty hs) :
    ∀ x ∈ hs.map (fun x => (⟨x.2, .HEADER, x.1⟩ : GroupInfo)),
      ∃ b, groupValid x.group = .ok b ∧ (b = false ↔ EntryFaulty now x) := by
  intro x hx
  obtain ⟨y, hy, rfl⟩ := List.mem_map.mp hx
  by_cases hu : ∃ u, y.2 = .unknown u
  · exact unknown_entry hu
  · obtain ⟨b, h1, h2⟩ := C74_header h y hy
    exact ⟨b, h1, h2.trans ⟨fun h => ⟨fun u e => hu ⟨u, e⟩, h⟩, fun h => h.2⟩⟩

theorem written_entry {now : Option Nat} {p : ReportPart} (hp : isBody p) {ws : List Str} {g : Group}
    (h : Written p ws g) (ht : ∀ w ∈ ws, Parser.Tok w) :
    ∃ b, groupValid g = .ok b ∧ (b = false ↔ EntryFaulty now ⟨g, p, unwords ws⟩) := by
  by_cases hu : ∃ u, g = .unknown u
  · exact unknown_entry (x := ⟨g, p, unwords ws⟩) hu
  · obtain ⟨b, h1, h2⟩ := C71_valid hp h
    refine ⟨b, h1, h2.trans ?_⟩
    rcases hp with rfl | rfl <;> simp only [EntryFaulty, words_unwords ht] <;>
      exact ⟨fun h => ⟨fun u e => hu ⟨u, e⟩, h⟩, fun h => h.2⟩

theorem body_entry {now : Option Nat} {p : ReportPart} (hp : isBody p) {ws : List Str}
    {items : List (Group × List Str)} (hd : Divided p ws items) (ht : ∀ w ∈ ws, Parser.Tok w) :
    ∀ x ∈ entries p items, ∃ b, groupValid x.group = .ok b ∧ (b = false ↔ EntryFaulty now x) := by
  intro x hx
  rcases entries_item hx with hu | ⟨it, hi, rfl⟩
  · exact unknown_entry hu
  · rcases divided_item hd it hi with hu | ⟨hw, hm⟩
    · exact unknown_entry ⟨_, hu⟩
    · exact written_entry hp hw fun w h => ht w (hm w h)

theorem remark_entry {now : Option Nat} {ws : List Str}
    {items : List (Group × List Str)} (hd : DividedRemarks now ws items) (ht : ∀ w ∈ ws, Parser.Tok w) :
    ∀ x ∈ entries .RMK items, ∃ b, groupValid x.group = .ok b ∧ (b = false ↔ EntryFaulty now x) := by
  intro x hx
  rcases entries_item hx with hu | ⟨it, hi, rfl⟩
  · exact unknown_entry hu
  · rcases remark_item hd it hi with hu | ⟨g, n, hr, hl, e, hm⟩ | ⟨w, y, hw, hr, rfl⟩
    · exact unknown_entry ⟨_, hu⟩
    · by_cases hu : ∃ u, it.1 = .unknown u
      · exact unknown_entry hu
      · obtain ⟨b, h1, h2⟩ := C74_remark hr hl
        refine ⟨b, by rw [e]; exact h1, h2.trans ?_⟩
        have hne : unwords it.2 ≠ [] := by
          intro e
          have := words_unwords fun w h => ht w (hm w h)
          rw [e] at this
          exact remark_ne hr this.symm
        simp only [EntryFaulty, words_unwords fun w h => ht w (hm w h)]
        exact ⟨fun h => ⟨fun u e => hu ⟨u, e⟩, Or.inr h⟩, fun h => h.2.resolve_left hne⟩
    · refine ⟨false, ?_, fun _ => ⟨by simp, Or.inl rfl⟩, fun _ => rfl⟩
      exact congrArg Except.ok (lone_vicinity hr)

/-- C74. In the result of parsing a report without remarks, the check of validity of a group always gives
an answer, and the answer is no exactly if the group is faulty. -/
theorem C74_body {report : Str} {limit : Nat} {ty : ReportType} {hs : List (Str × Group)} {body : List Str}
    (hh : HeaderText ty hs) (ht : Groups report (hs.map Prod.fst ++ body)) (hne : body ≠ [])
    (hs' : ∀ w ∈ body, w ∉ stops (bodyPart ty)) (hl : hs.length + body.length < limit) :
    ∃ r, Result report limit r ∧ r.reportMetadata.type = ty ∧ r.reportMetadata.error = .NONE ∧
      ∀ x ∈ r.groups, ∃ b, groupValid x.group = .ok b ∧ (b = false ↔ EntryFaulty (headerHour hs) x) := by
  have hp : isBody (bodyPart ty) := by rcases bodyType (header_iff.mp hh) with rfl | rfl <;> simp [isBody, bodyPart]
  obtain ⟨items, hd⟩ := C69_exists hp body
  obtain ⟨r, h1, h2, h3, h4⟩ := C69_body (header_iff.mp hh) ht hne hs' hl hd
  have htok : ∀ t ∈ hs.map Prod.fst ++ body, Parser.Tok t := fun t h =>
    Parser.tok_of_mem (by rw [tokens_of_groups ht]; exact h)
  refine ⟨r, h1, h2, h3, fun x hx => ?_⟩
  rw [h4] at hx
  rcases List.mem_append.mp hx with hx | hx
  · exact header_entry hh x hx
  · exact body_entry hp hd (fun w h => htok w (List.mem_append_right _ h)) x hx

/-- C74. In the result of parsing a report with remarks, the check of validity of a group always gives an
answer, and the answer is no exactly if the group is faulty. -/
theorem C74_report {report : Str} {limit : Nat} {ty : ReportType} {hs : List (Str × Group)} {body rmk : List Str}
    (hh : HeaderText ty hs) (ht : Groups report (hs.map Prod.fst ++ body ++ c!"RMK" :: rmk))
    (hs' : ∀ w ∈ body, w ∉ stops (bodyPart ty)) (hr : ty = .TAF → c!"$" ∉ rmk)
    (hl : hs.length + body.length + 1 + rmk.length < limit) :
    ∃ r, Result report limit r ∧ r.reportMetadata.type = ty ∧ r.reportMetadata.error = .NONE ∧
      ∀ x ∈ r.groups, ∃ b, groupValid x.group = .ok b ∧ (b = false ↔ EntryFaulty (headerHour hs) x) := by
  have hp : isBody (bodyPart ty) := by rcases bodyType (header_iff.mp hh) with rfl | rfl <;> simp [isBody, bodyPart]
  obtain ⟨items, hd⟩ := C69_exists hp body
  obtain ⟨ritems, hdr⟩ := C73_exists (headerHour hs) rmk
  obtain ⟨r, h1, h2, h3, h4⟩ := C73_report (header_iff.mp hh) ht hs' hr hl hd hdr
  have htok : ∀ t ∈ hs.map Prod.fst ++ body ++ c!"RMK" :: rmk, Parser.Tok t := fun t h =>
    Parser.tok_of_mem (by rw [tokens_of_groups ht]; exact h)
  refine ⟨r, h1, h2, h3, fun x hx => ?_⟩
  rw [h4] at hx
  rcases List.mem_append.mp hx with hx | hx
  · rcases List.mem_append.mp hx with hx | hx
    · exact header_entry hh x hx
    · exact body_entry hp hd (fun w h => htok w (by simp [h])) x hx
  · rcases List.mem_cons.mp hx with rfl | hx
    · exact written_entry (ws := [c!"RMK"]) hp (rmk_written hp) (by simpa using htok c!"RMK" (by simp))
    · exact remark_entry hdr (fun w h => htok w (by simp [h])) x hx

end Metaf.Props

namespace Metaf.Props

open Metaf Metaf.Spec

section
variable [FloatIeee]

/-- Dew point above temperature. -/
example : RemarkFaulty none [c!"T00800090"] :=
  .temperature (t := ⟨false, 80⟩) (d := ⟨false, 90⟩) (by simp [Tenths.Ok]) (by simp [Tenths.Ok]) (by decide)

/-- Wind shift at an hour which does not exist. -/
example (now : Option Nat) : RemarkFaulty now [c!"WSHFT", c!"2530"] :=
  .shift (t := ⟨none, 25, 30⟩) (.full (h := 25) (m := 30) (by decide) (by decide)) (Or.inr (Or.inl (by decide)))

/-- Middle clouds which are seen although the low clouds hide them. -/
example (now : Option Nat) : RemarkFaulty now [c!"8//3/"] :=
  .cloudCodes (Or.inl rfl) (Or.inr rfl) (Or.inl rfl) (Or.inl ⟨rfl, by decide⟩)

/-- Hour 25 in the header. -/
example : HeaderFaulty c!"112530Z" :=
  .time (d := 11) (h := 25) (m := 30) (by decide) (by decide) (by decide) (Or.inr (Or.inl (by decide)))

/-- No word which is too short to be a time or a period is faulty. -/
example : ¬ HeaderFaulty c!"METAR" := by
  intro h
  generalize hw : c!"METAR" = w at h
  have := congrArg List.length hw
  cases h <;> simp [timeText, TrendWord.text, decimal_length] at this

end

section
attribute [local instance] ieee

set_option maxRecDepth 4000 in
/-- In this report the time in the header and the remark on the temperature are faulty; so these groups are
not valid. -/
example : ∃ r, Result c!"METAR ULLI 112530Z 24005MPS RMK T00800090=" 100 r ∧
    (∀ x ∈ r.groups, x.rawString = c!"112530Z" ∨ x.rawString = c!"T00800090" ↔ groupValid x.group = .ok false) ∧
    ∀ x ∈ r.groups, ∃ b, groupValid x.group = .ok b ∧ (b = false ↔ EntryFaulty (some 25) x) := by
  have hh : HeaderText .METAR [(c!"METAR", .keyword ⟨.METAR⟩), (c!"ULLI", .location ⟨c!"ULLI"⟩),
      (timeText 11 25 30, .reportTime ⟨⟨some 11, 25, 30⟩⟩)] :=
    .metar (cor := []) (by simp) (by simp) ⟨'U', 'L', 'L', 'I', rfl, by simp [Capital]⟩ (by decide) (by decide) (by decide)
  obtain ⟨r, h1, -, -, h4⟩ := C74_report (limit := 100) (body := [c!"24005MPS"]) hh
    (report := c!"METAR ULLI 112530Z 24005MPS RMK T00800090=")
    (rmk := [c!"T00800090"]) (groups_tokens _) (by simp [stops, bodyPart]) (by simp) (by decide)
  refine ⟨r, h1, ?_, h4⟩
  have h : ((Parser.parse c!"METAR ULLI 112530Z 24005MPS RMK T00800090=" 100).toOption.map fun r =>
    r.groups.map fun x => (x.rawString, groupValid x.group)) = some
      [(c!"METAR", .ok true), (c!"ULLI", .ok true), (c!"112530Z", .ok false), (c!"24005MPS", .ok true),
       (c!"RMK", .ok true), (c!"T00800090", .ok false)] := by decide +kernel
  rw [show Parser.parse _ _ = _ from h1] at h
  intro x hx
  have := List.mem_map_of_mem (f := fun x : GroupInfo => (x.rawString, groupValid x.group)) hx
  simp only [Except.toOption, Option.map_some, Option.some.injEq] at h
  rw [h] at this
  generalize groupValid x.group = y at *
  generalize x.rawString = z at *
  simp only [List.mem_cons, Prod.mk.injEq, List.not_mem_nil, or_false] at this
  rcases this with ⟨rfl, rfl⟩ | ⟨rfl, rfl⟩ | ⟨rfl, rfl⟩ | ⟨rfl, rfl⟩ | ⟨rfl, rfl⟩ | ⟨rfl, rfl⟩ <;> simp

end

end Metaf.Props

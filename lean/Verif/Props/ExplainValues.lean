import Verif.Spec.Shown
import Verif.Props.Heights
import Verif.Props.ExplainExact
import Verif.Props.ExplainLines
import Verif.Props.ExplainWeather

/-!
C109: the values in the explanation of any report (`/repo/examples/explain.cpp`) are shown right: times, runways,
directions, speeds, distances, temperatures, pressures, amounts of precipitation, friction and waves.
-/

set_option linter.unusedSectionVars false

namespace Metaf.Props

open Metaf Metaf.Spec Metaf.Explain

variable [FloatIeee]

/-! ### Specification -/

/-- A value shown in an explanation. -/
inductive Value
  | time (t : MetafTime) | runway (r : Runway) | direction (d : Direction) | speed (s : Speed)
  | distance (d : Distance) | temperature (t : Temperature) | pressure (p : Pressure)
  | precipitation (p : Precipitation) | friction (f : SurfaceFriction) | waves (w : WaveHeight)

/-- All values of a group which its explanation can show as times, runways and so on. -/
def values : Group → List Value
  | .reportTime g => [.time g.t]
  | .trend g => (g.tFrom.toList ++ g.tTill.toList ++ g.tAt.toList).map .time
  | .wind g => [.direction g.windDir, .speed g.wSpeed, .speed g.gSpeed, .distance g.wShHeight,
      .direction g.vsecBegin, .direction g.vsecEnd] ++ g.rw.toList.map .runway ++ g.evTime.toList.map .time
  | .visibility g => [.distance g.visibility, .distance g.minVisibility, .distance g.maxVisibility] ++
      g.rw.toList.map .runway ++ g.dir.toList.map .direction
  | .cloud g => [.distance g.height, .distance g.minHeight, .distance g.maxHeight, .distance g.verticalVisibility] ++
      g.rw.toList.map .runway ++ g.dir.toList.map .direction ++ (g.cloudType.map fun c => .distance c.ht).toList
  | .weather g => (g.w.filterMap (·.tm)).map .time
  | .temperature g => [.temperature g.t, .temperature g.dp]
  | .pressure g => [.pressure g.p]
  | .runwayState g => [.runway g.rw, .precipitation g.dDepth, .friction g.sf]
  | .seaSurface g => [.temperature g.t, .waves g.wh]
  | .minMaxTemperature g => [.temperature g.minTemp, .temperature g.maxTemp] ++
      (g.minTime.toList ++ g.maxTime.toList).map .time
  | .precipitation g => [.precipitation g.precAmount, .precipitation g.precChange]
  | .layerForecast g => [.distance g.layerBaseHeight, .distance g.layerTopHeight]
  | .pressureTendency g => [.pressure g.pressureDifference]
  | .cloudTypes g => g.cldTp.map fun c => .distance c.ht
  | .lightning g => [.distance g.dist]
  | .vicinity g => [.distance g.dist]
  | _ => []

/-- The day in front of a time. -/
def DayShown : Option Nat → Str → Prop
  | none, s => s = []
  | some d, s => ∃ a, Numeral a d ∧ s = c!"day " ++ a ++ c!", "

/-- The value is shown right. -/
def Presented : Value → Prop
  | .time t => ∃ day, DayShown t.dayValue day ∧ explainMetafTime t = clockShown day t.hourValue t.minuteValue
  | .runway r => explainRunway r = runwayShown r
  | .direction d => ∃ a, Numeral a d.dirDegrees ∧ ∀ precise, explainDirection d precise = directionShown precise a d
  | .speed ⟨none, _⟩ => ∀ u, explainSpeed ⟨none, u⟩ = c!"not reported"
  | .speed ⟨some v, u⟩ => ∃ a, Numeral a v ∧
      ∃ t : SpeedUnit → Str, (∀ w, Given 1 (v * (mpsPer u / mpsPer w)) (speedName w) (t w)) ∧
      explainSpeed ⟨some v, u⟩ = a ++ speedName u ++ c!" (" ++
        c!" / ".intercalate ((speedUnits.filter (· ≠ u)).map t) ++ c!")"
  | .distance ⟨m, none, u⟩ => explainDistance ⟨m, none, u⟩ = .ok (match m with
      | .DISTANT => c!"10 to 30 nautical miles (19 to 55 km, 12 to 35 statue miles)"
      | .VICINITY => c!"5 to 10 nautical miles (9 to 19 km, 6 to 12 statue miles)"
      | _ => c!"not reported")
  | .distance ⟨m, some v, u⟩ => ∃ t : DistanceUnit → Str,
      (∀ w, GivenDistance (storedAmount v u * (metersPer u / metersPer w)) w (t w)) ∧
      (u = .METERS → ∃ a, Numeral a v ∧ t u = a ++ c!" meters") ∧
      (u = .FEET → ∃ a, Numeral a v ∧ t u = a ++ c!" feet") ∧
      (u = .STATUTE_MILES → ∀ k : Nat, ReportableMiles k → (v : Rat) / 10000 = k / 16 →
        ∃ a, MixedText a (k / 16) ∧ t u = a ++ c!" statute miles") ∧
      explainDistance ⟨m, some v, u⟩ = .ok (distanceSign m ++ t u ++ c!" (" ++
        c!" / ".intercalate ((distanceUnits.filter (· ≠ u)).map t) ++ c!")")
  | .temperature x => match tenths x with
    | none => explainTemperature x = c!"not reported"
    | some n => ∃ c f, Given 1 (n / 10) c!" &deg;C" c ∧
      (x.precise = false ∨ |n| ≤ 322 → GivenExactly 1 (n / 10) c!" &deg;C" c) ∧
      Given 1 (n / 10 * (9 / 5) + 32) c!" &deg;F" f ∧
      explainTemperature x = (if n = 0 ∧ x.precise = false then
        if x.freezing then c!"slightly less than " else c!"slightly more than " else []) ++ c ++ c!" / " ++ f
  | .pressure ⟨none, u⟩ => explainPressure ⟨none, u⟩ = c!"not reported"
  | .pressure ⟨some v, u⟩ => ∃ a b c, Given 1 (v * (hpaPer u / hpaPer .HECTOPASCAL)) c!" hPa" a ∧
      (u = .HECTOPASCAL → ∀ n : Nat, v = n → GivenExactly 1 n c!" hPa" a) ∧
      Given 2 (v * (hpaPer u / hpaPer .INCHES_HG)) c!" inHg" b ∧
      Given 1 (v * (hpaPer u / hpaPer .MM_HG)) c!" mmHg" c ∧
      explainPressure ⟨some v, u⟩ = a ++ c!" / " ++ b ++ c!" / " ++ c
  | .precipitation ⟨none, u⟩ => explainPrecipitation ⟨none, u⟩ = c!"not reported"
  | .precipitation ⟨some v, u⟩ => if v = 0 then explainPrecipitation ⟨some v, u⟩ = c!"trace amount" else
      ∃ a b, Given 1 (v * (mmPer u / mmPer .MM)) c!" mm" a ∧ Given 2 (v * (mmPer u / mmPer .INCHES)) c!" inches" b ∧
      explainPrecipitation ⟨some v, u⟩ = a ++ c!" / " ++ b
  | .friction ⟨.NOT_REPORTED, n⟩ => explainSurfaceFriction ⟨.NOT_REPORTED, n⟩ = c!"not reported"
  | .friction ⟨.UNRELIABLE, n⟩ => explainSurfaceFriction ⟨.UNRELIABLE, n⟩ = c!"unreliable or unmeasurable"
  | .friction ⟨.SURFACE_FRICTION_REPORTED, n⟩ => ∃ t, Shows 2 t (n / 100) ∧
      explainSurfaceFriction ⟨.SURFACE_FRICTION_REPORTED, n⟩ = c!"friction coefficient " ++ t
  | .friction ⟨.BRAKING_ACTION_REPORTED, n⟩ =>
      explainSurfaceFriction ⟨.BRAKING_ACTION_REPORTED, n⟩ = c!"braking action " ++ brakingShown n
  | .waves ⟨.STATE_OF_SURFACE, none⟩ =>
      explainWaveHeight ⟨.STATE_OF_SURFACE, none⟩ = c!"state of sea surface: not reported"
  | .waves ⟨.STATE_OF_SURFACE, some n⟩ =>
      explainWaveHeight ⟨.STATE_OF_SURFACE, some n⟩ = c!"state of sea surface: " ++ wavesShown n
  | .waves ⟨.WAVE_HEIGHT, none⟩ => explainWaveHeight ⟨.WAVE_HEIGHT, none⟩ = c!"wave height not reported"
  | .waves ⟨.WAVE_HEIGHT, some n⟩ => ∃ a b, Given 1 (n / 10) c!" meters" a ∧
      (n < 160 → GivenExactly 1 (n / 10) c!" meters" a) ∧ Given 1 (n / 10 * (10000 / 3048)) c!" feet" b ∧
      explainWaveHeight ⟨.WAVE_HEIGHT, some n⟩ = c!"wave height: " ++ a ++ c!" / " ++ b

/-! ### Values within the limits of their formats -/

/-- A distance up to 200 miles, or up to 110000 metres or feet; less than, more than or just this. -/
def Short (d : Distance) : Prop :=
  ∀ n, d.dist = some n → (d.distModifier = .NONE ∨ d.distModifier = .LESS_THAN ∨ d.distModifier = .MORE_THAN) ∧
    if d.distUnit = .STATUTE_MILES then n ≤ 2000000 else n ≤ 110000

/-- The numbers are within the limits of the formats. -/
def Fits : Value → Prop
  | .time t => t.hourValue < 100 ∧ t.minuteValue < 100
  | .runway r => r.rNumber < 100
  | .direction _ => True
  | .speed s => ∀ n, s.speedValue = some n → n < 1000
  | .distance d => Short d
  | .temperature t => ∀ n, tenths t = some n → |n| ≤ 1000
  | .pressure p => ∀ q, p.pressureValue = some q → 0 ≤ q ∧ q ≤ 10000
  | .precipitation p => ∀ q, p.precipValue = some q → 0 ≤ q ∧ q ≤ 10000
  | .friction f => f.sfCoefficient ≤ 100
  | .waves w => ∀ n, w.whValue = some n → n < 1000

theorem given_exactly {d : Nat} {y : Rat} {u s : Str} (h : GivenExactly d y u s) : Given d y u s := by
  obtain ⟨t, h1, h2⟩ := h
  refine ⟨t, y, h1, h2, ?_⟩
  unfold Accurate
  rw [sub_self, abs_zero]
  positivity

theorem compass_shown (precise : Bool) (n : Nat) :
    cardinalDirectionToString (Direction.cardinalOfDegrees n precise) = compassShown precise n := by
  by_cases h : 360 < n
  · unfold compassShown
    rw [if_pos h]
    unfold Direction.cardinalOfDegrees
    iterate 13 rw [if_neg (by simp; omega)]
    rfl
  · have key : ∀ n ≤ 360, ∀ b, cardinalDirectionToString (Direction.cardinalOfDegrees n b) = compassShown b n := by
      decide +kernel
    exact key n (by omega) precise

theorem compass_nonempty (precise : Bool) (n : Nat) : (compassShown precise n).isEmpty = false := by
  rw [← compass_shown]
  cases Direction.cardinalOfDegrees n precise <;> rfl

theorem direction_presented (d : Direction) : Presented (.direction d) := by
  refine ⟨showNat d.dirDegrees, showNat_numeral _, fun precise => ?_⟩
  unfold explainDirection directionShown
  cases hd : d.dirType <;> dsimp only [Direction.cardinal, Direction.degrees, Direction.isValue] <;>
    simp only [hd] <;> try rfl
  · rw [compass_shown, compass_nonempty]
    change (showNat d.dirDegrees ++ c!" degrees") ++ (c!"(" ++ compassShown precise d.dirDegrees ++ c!")") = _
    simp only [List.append_assoc]
    rfl
  · exact compass_shown _ _

theorem short_limit {m : Modifier} {v : Nat} {u : DistanceUnit} (h : Short ⟨m, some v, u⟩) :
    (m = .NONE ∨ m = .LESS_THAN ∨ m = .MORE_THAN) ∧ storedAmount v u * metersPer u ≤ 200 * metersPer .STATUTE_MILES := by
  obtain ⟨h1, h2⟩ := h v rfl
  refine ⟨h1, ?_⟩
  cases u with
  | STATUTE_MILES =>
    have h2 : (v : Rat) ≤ 2000000 := by exact_mod_cast (h2 : v ≤ 2000000)
    norm_num [storedAmount, metersPer] at h2 ⊢
    have : (v : Rat) ≤ 2000000 := by exact_mod_cast h2
    linarith
  | METERS =>
    have h2 : (v : Rat) ≤ 110000 := by exact_mod_cast (h2 : v ≤ 110000)
    norm_num [storedAmount, metersPer]
    linarith
  | FEET =>
    have h2 : (v : Rat) ≤ 110000 := by exact_mod_cast (h2 : v ≤ 110000)
    norm_num [storedAmount, metersPer]
    linarith

theorem level_cons {n k : Nat} {s top : Str} {l : List (Nat × Str)} :
    levelShown n ((k, s) :: l) top = if n ≤ k then s else levelShown n l top := rfl

/-- Values within the limits are shown right. -/
theorem fits_presented {v : Value} (h : Fits v) : Presented v := by
  match v, h with
  | .time ⟨d, hh, m⟩, h =>
    obtain ⟨h1, h2⟩ := h
    have e1 := two_digits hh h1
    have e2 := two_digits m h2
    cases d with
    | none =>
      refine ⟨[], rfl, ?_⟩
      unfold explainMetafTime clockShown
      simp only [List.nil_append, List.append_assoc]
      rw [← e1, ← e2]
      simp only [List.append_assoc]
    | some d =>
      refine ⟨_, ⟨_, showNat_numeral d, rfl⟩, ?_⟩
      unfold explainMetafTime clockShown
      rw [← e1, ← e2]
      simp only [List.append_assoc]
  | .runway ⟨n, d⟩, h =>
    have e := two_digits n h
    show explainRunway ⟨n, d⟩ = runwayShown ⟨n, d⟩
    unfold explainRunway runwayShown Runway.isAllRunways Runway.isMessageRepetition
    simp only [Bool.and_eq_true, beq_iff_eq, Runway.mk.injEq]
    rw [← e]
    split
    · rfl
    · split
      · rfl
      · simp only [List.append_assoc]
        cases d <;> rfl
  | .direction d, _ => exact direction_presented d
  | .speed ⟨none, _⟩, _ => exact fun u => rfl
  | .speed ⟨some v, u⟩, h => exact C103_speed v (by have := h v rfl; omega) u
  | .distance ⟨m, none, u⟩, _ =>
    show explainDistance ⟨m, none, u⟩ = _
    cases m <;> rfl
  | .distance ⟨m, some v, u⟩, h =>
    obtain ⟨h1, h2⟩ := short_limit h
    exact C104_distance m v u h1 h2
  | .temperature x, h =>
    show match tenths x with
      | none => _
      | some n => _
    cases hx : tenths x with
    | none =>
      obtain ⟨v, f, p⟩ := x
      cases v with
      | none => rfl
      | some v => cases hx
    | some n => exact temperature_text x n hx (h n hx)
  | .pressure ⟨none, u⟩, _ => rfl
  | .pressure ⟨some v, u⟩, h =>
    obtain ⟨h1, h2⟩ := h v rfl
    by_cases hu : u = .HECTOPASCAL ∧ ∃ n : Nat, v = n
    · obtain ⟨rfl, n, rfl⟩ := hu
      have hn : n ≤ 10000 := by exact_mod_cast h2
      obtain ⟨a, b, c, ha, hb, hc, he⟩ := C104_hectopascal n (by omega)
      refine ⟨a, b, c, ?_, ?_, hb, hc, he⟩
      · have := given_exactly ha
        simpa [hpaPer] using this
      · intro _ m hm
        rw [← hm]
        exact ha
    · obtain ⟨a, b, c, ha, hb, hc, he⟩ := C103_pressure v h1 (h2.trans (by norm_num)) u
      exact ⟨a, b, c, ha, fun e n hn => absurd ⟨e, n, hn⟩ hu, hb, hc, he⟩
  | .precipitation ⟨none, u⟩, _ => rfl
  | .precipitation ⟨some v, u⟩, h =>
    obtain ⟨h1, h2⟩ := h v rfl
    show if v = 0 then _ else _
    split
    · subst v
      simp [explainPrecipitation, Precipitation.isReported]
    · exact C103_precipitation v (lt_of_le_of_ne h1 (Ne.symm ‹_›)) (h2.trans (by norm_num)) u
  | .friction ⟨.NOT_REPORTED, n⟩, _ => rfl
  | .friction ⟨.UNRELIABLE, n⟩, _ => rfl
  | .friction ⟨.SURFACE_FRICTION_REPORTED, n⟩, h => exact C104_friction n h
  | .friction ⟨.BRAKING_ACTION_REPORTED, n⟩, _ =>
    show explainSurfaceFriction ⟨.BRAKING_ACTION_REPORTED, n⟩ = c!"braking action " ++ brakingShown n
    unfold explainSurfaceFriction
    dsimp only
    congr 1
    unfold SurfaceFriction.brakingAction brakingShown
    rw [if_neg (by simp)]
    simp only [level_cons, ← Nat.lt_succ_iff]
    split
    · rfl
    · split
      · rfl
      · split
        · rfl
        · split <;> rfl
  | .waves ⟨.STATE_OF_SURFACE, none⟩, _ => rfl
  | .waves ⟨.STATE_OF_SURFACE, some n⟩, _ =>
    show explainWaveHeight ⟨.STATE_OF_SURFACE, some n⟩ = c!"state of sea surface: " ++ wavesShown n
    unfold explainWaveHeight
    dsimp only
    congr 1
    unfold WaveHeight.stateOfSurface wavesShown
    simp only [level_cons, beq_iff_eq, ← Nat.le_zero]
    simp only [apply_ite stateOfSeaSurfaceToString]
    rfl
  | .waves ⟨.WAVE_HEIGHT, none⟩, _ => rfl
  | .waves ⟨.WAVE_HEIGHT, some n⟩, h =>
    by_cases hn : n < 160
    · obtain ⟨a, b, ha, hb, he⟩ := C104_wave_height_partial n hn
      exact ⟨a, b, given_exactly ha, fun _ => ha, hb, he⟩
    · obtain ⟨a, b, ha, hb, he⟩ := C103_wave_height n (by have := h n rfl; omega)
      exact ⟨a, b, ha, fun h => absurd h hn, hb, he⟩

/-! ### All groups -/

/-- All values of a group fit. -/
def AllFit (g : Group) : Prop := ∀ v ∈ values g, Fits v

theorem short_none {m : Modifier} {u : DistanceUnit} : Short ⟨m, none, u⟩ := fun _ h => nomatch h

theorem short_some {m : Modifier} {u : DistanceUnit} {k : Nat}
    (hm : m = .NONE ∨ m = .LESS_THAN ∨ m = .MORE_THAN) (hu : u ≠ .STATUTE_MILES) (h : k ≤ 110000) :
    Short ⟨m, some k, u⟩ := by
  rintro _ ⟨⟩
  refine ⟨hm, ?_⟩
  show if u = _ then _ else _
  rw [if_neg hu]
  exact h

theorem short_miles {m : Modifier} {k : Nat} (hm : m = .NONE ∨ m = .LESS_THAN ∨ m = .MORE_THAN)
    (h : k ≤ 2000000) : Short ⟨m, some k, .STATUTE_MILES⟩ := by
  rintro _ ⟨⟩
  exact ⟨hm, h⟩

theorem short_mileDistance {m : Modifier} {q : Rat} (hm : m = .NONE ∨ m = .LESS_THAN ∨ m = .MORE_THAN)
    (h : q ≤ 200) : Short (mileDistance m q) :=
  short_miles hm (Nat.floor_le_of_le (by push_cast; linarith))

theorem prefix_modifier {p : Str} {m : Modifier} (h : MilePrefix p m) :
    m = .NONE ∨ m = .LESS_THAN ∨ m = .MORE_THAN := by
  rcases h with ⟨-, rfl⟩ | ⟨-, rfl⟩ | ⟨-, rfl⟩ <;> simp

theorem mileWord_modifier {s : Str} {m : Modifier} {q : Rat} (h : MileWord s m q) :
    m = .NONE ∨ m = .LESS_THAN ∨ m = .MORE_THAN := by
  obtain ⟨_, _, h, -⟩ := h
  exact prefix_modifier h

theorem hundreds_short {n : Nat} (h : n < 1000) : Short (hundreds n) :=
  short_some (Or.inl rfl) (by decide) (by omega)

theorem eventTime_fits {now : Option Nat} (hn : ∀ h, now = some h → h < 100) {s : Str} {t : MetafTime}
    (h : EventTime now s t) : Fits (.time t) := by
  cases h with
  | full h1 h2 => exact ⟨h1, h2⟩
  | minutes h1 h2 => exact ⟨hn _ h1, h2⟩

/-! #### Trends -/

theorem trendWord_fits {w : TrendWord} (h : w.Ok) {t : MetafTime}
    (ht : w.since = some t ∨ w.till = some t ∨ w.moment = some t) : Fits (.time t) := by
  cases w <;> rcases ht with ht | ht | ht <;> first | cases ht; done | skip
  all_goals
    cases ht
    simp only [TrendWord.Ok] at h
    refine ⟨?_, ?_⟩ <;> dsimp only <;> omega

theorem sentence_ok {p : ReportPart} {ws : List TrendWord} (h : TrendSentence p ws) : ∀ w ∈ ws, w.Ok := by
  induction h with
  | one h _ => simpa using h
  | more _ h _ _ ih =>
    intro w hw
    rcases List.mem_append.mp hw with hw | hw
    · exact ih w hw
    · rw [List.mem_singleton.mp hw]; exact h

theorem trend_fits {ws : List TrendWord} (h : ∀ w ∈ ws, w.Ok) : AllFit (.trend (trendMeaning ws)) := by
  intro v hv
  obtain ⟨t, ht, rfl⟩ := List.mem_map.mp hv
  rw [List.mem_append, List.mem_append, Option.mem_toList, Option.mem_toList, Option.mem_toList] at ht
  rcases ht with (ht | ht) | ht
  all_goals obtain ⟨w, hw, e⟩ := List.exists_of_findSome?_eq_some (Option.mem_def.mp ht)
  · exact trendWord_fits (h w hw) (Or.inl e)
  · exact trendWord_fits (h w hw) (Or.inr (Or.inl e))
  · exact trendWord_fits (h w hw) (Or.inr (Or.inr e))

/-! #### Wind -/

theorem wind_parts {g : WindGroup} (h1 : Fits (.speed g.wSpeed)) (h2 : Fits (.speed g.gSpeed))
    (h3 : Fits (.distance g.wShHeight)) (h4 : ∀ r, g.rw = some r → Fits (.runway r))
    (h5 : ∀ t, g.evTime = some t → Fits (.time t)) : AllFit (.wind g) := by
  intro v hv
  simp only [values, List.mem_append, List.mem_cons, List.not_mem_nil, or_false, List.mem_map,
    Option.mem_toList] at hv
  rcases hv with ((rfl | rfl | rfl | rfl | rfl | rfl) | ⟨r, hr, rfl⟩) | ⟨t, ht, rfl⟩
  · trivial
  · exact h1
  · exact h2
  · exact h3
  · trivial
  · trivial
  · exact h4 r hr
  · exact h5 t ht

theorem wind_fits {p : ReportPart} {now : Option Nat} (hn : ∀ h, now = some h → h < 100) {ws : List Str}
    {g : WindGroup} (h : WindSequence p now ws g) : AllFit (.wind g) := by
  have nosp : Fits (.speed {}) := fun _ h => nomatch h
  have key : ∀ w : WindText, w.Ok → Fits (.speed w.group.wSpeed) ∧ Fits (.speed w.group.gSpeed) ∧
      Fits (.distance w.group.wShHeight) ∧ w.group.rw = none ∧ w.group.evTime = none := by
    intro w hw
    obtain ⟨h0, -, h2, h3, -⟩ := hw
    unfold WindText.group
    split
    · exact ⟨speedOf_modest h2, nosp, short_none, rfl, rfl⟩
    · refine ⟨speedOf_modest h2, speedOf_modest h3, ?_, rfl, rfl⟩
      cases hs : w.shear with
      | none => exact short_none
      | some k =>
        have := h0 k hs
        exact short_some (Or.inl rfl) (by decide) (by omega)
  have none_rw : ∀ r, (none : Option Runway) = some r → Fits (.runway r) := fun _ h => nomatch h
  have none_tm : ∀ t, (none : Option MetafTime) = some t → Fits (.time t) := fun _ h => nomatch h
  cases h with
  | wind _ h =>
    obtain ⟨a, b, c, d, e⟩ := key _ h
    exact wind_parts a b c (by rw [d]; exact none_rw) (by rw [e]; exact none_tm)
  | windAndSector _ h =>
    obtain ⟨a, b, c, d, e⟩ := key _ h
    exact wind_parts a b c (by dsimp only; rw [d]; exact none_rw) (by dsimp only; rw [e]; exact none_tm)
  | peakWind _ _ hv ht =>
    refine wind_parts ?_ nosp short_none none_rw ?_
    · rintro n ⟨⟩; exact hv
    · rintro t ⟨⟩; exact eventTime_fits hn ht
  | shearAllRunways => exact wind_parts nosp nosp short_none (by rintro r ⟨⟩; exact (by decide : 88 < 100)) none_tm
  | shearRunway _ h => exact wind_parts nosp nosp short_none (by rintro r ⟨⟩; exact h) none_tm
  | shiftTime _ h => exact wind_parts nosp nosp short_none none_rw (by rintro t ⟨⟩; exact eventTime_fits hn h)
  | shiftTimeFront _ h => exact wind_parts nosp nosp short_none none_rw (by rintro t ⟨⟩; exact eventTime_fits hn h)
  | _ => exact wind_parts nosp nosp short_none none_rw none_tm

/-! #### Visibility -/

theorem visibility_parts {g : VisibilityGroup} (h1 : Short g.vis) (h2 : Short g.visMax)
    (h3 : ∀ r, g.rw = some r → r.rNumber < 100) : AllFit (.visibility g) := by
  intro v hv
  simp only [values, List.mem_append, List.mem_cons, List.not_mem_nil, or_false, List.mem_map,
    Option.mem_toList] at hv
  rcases hv with ((rfl | rfl | rfl) | ⟨r, hr, rfl⟩) | ⟨d, -, rfl⟩
  · show Short (if _ then _ else _)
    split
    · exact short_none
    · exact h1
  · show Short (if _ then _ else _)
    split
    · exact short_none
    · exact h1
  · exact h2
  · exact h3 r hr
  · trivial

theorem meterWord_short {s : Str} {d : Distance} (h : MeterWord s d) : Short d := by
  rcases h with ⟨-, rfl⟩ | ⟨n, hn, -, rfl⟩
  · exact short_some (Or.inr (Or.inr rfl)) (by decide) (by decide)
  · exact short_some (Or.inl rfl) (by decide) (by omega)

theorem minimum_short {ws : List Str} {a : Str} {v : Distance} (h : Minimum ws a v) : Short v := by
  cases h with
  | plain h => exact short_mileDistance (mileWord_modifier h) (by have := mileWord_bound h; linarith)
  | mixed h1 h2 =>
    have b1 := mileWord_bound h1.1
    have b2 := mileWord_bound h2.1
    exact short_mileDistance (mileWord_modifier h1.1) (by linarith)

theorem amount_short {as : List Str} {k : AmountKind} {v x : Distance} (h : Amount as k v x) :
    Short v ∧ Short x := by
  cases h with
  | whole h => exact ⟨short_mileDistance (mileWord_modifier h.1) (by have := mileWord_bound h.1; linarith), short_none⟩
  | part h => exact ⟨short_mileDistance (mileWord_modifier h.1) (by have := mileWord_bound h.1; linarith), short_none⟩
  | mixed h1 h2 =>
    have b1 := mileWord_bound h1.1
    have b2 := mileWord_bound h2.1
    exact ⟨short_mileDistance (mileWord_modifier h1.1) (by linarith), short_none⟩
  | meters h => exact ⟨meterWord_short h, short_none⟩
  | rangeWhole h h1 =>
    exact ⟨minimum_short h, short_mileDistance (mileWord_modifier h1.1) (by have := mileWord_bound h1.1; linarith)⟩
  | range h h1 =>
    exact ⟨minimum_short h, short_mileDistance (mileWord_modifier h1.1) (by have := mileWord_bound h1.1; linarith)⟩
  | rangeMixed h h1 h2 =>
    have b1 := mileWord_bound h1.1
    have b2 := fraction_bound h2
    exact ⟨minimum_short h, short_mileDistance (mileWord_modifier h1.1) (by linarith)⟩
  | meterRange h h1 => exact ⟨meterWord_short h, meterWord_short h1⟩

theorem visRemark_fits {ws : List Str} {g : VisibilityGroup} (h : VisRemark ws g) : AllFit (.visibility g) := by
  have none_rw : ∀ r, (none : Option Runway) = some r → r.rNumber < 100 := fun _ h => nomatch h
  have place : ∀ {w r d}, PlaceWord w r d → ∀ x, r = some x → x.rNumber < 100 := by
    rintro w r d h x rfl
    cases h with
    | runway h => exact h.1
  cases h with
  | visAmount h => exact visibility_parts (amount_short h).1 (amount_short h).2 none_rw
  | visAmountRunway h hr =>
    exact visibility_parts (amount_short h).1 (amount_short h).2 (by rintro r ⟨⟩; exact hr.1)
  | visWhereAmount _ h => exact visibility_parts (amount_short h).1 (amount_short h).2 none_rw
  | observerAmount _ h => exact visibility_parts (amount_short h).1 short_none none_rw
  | _ => first
    | exact visibility_parts short_none short_none none_rw
    | exact visibility_parts short_none short_none (place ‹_›)
    | exact visibility_parts short_none short_none (by rintro r ⟨⟩; exact (‹RunwayWord _ _› : RunwayWord _ _).1)

theorem milesGroup_short {s : Str} {d : Distance} (h : MilesGroup s d) : Short d := by
  rcases h with ⟨-, rfl⟩ | ⟨p, t, m, q, -, hp, ht, rfl⟩
  · exact short_none
  · exact short_mileDistance (prefix_modifier hp) (by have := mileText_le ht; linarith)

theorem bodyVisibility_fits {s : Str} {g : VisibilityGroup} (h : BodyVisibility s g) : AllFit (.visibility g) := by
  have none_rw : ∀ r, (none : Option Runway) = some r → r.rNumber < 100 := fun _ h => nomatch h
  rcases h with ⟨k, n, hk, hn, -, rfl⟩ | ⟨v, x, d, t, o, hv, -, -, rfl⟩ | ⟨d, hd, rfl⟩
  · have : n < 100 := by rcases hk with rfl | rfl <;> omega
    exact visibility_parts (short_miles (Or.inl rfl) (by omega)) short_none none_rw
  · refine visibility_parts ?_ short_none none_rw
    rcases hv with ⟨-, rfl⟩ | ⟨-, rfl⟩ | ⟨n, hn, -, rfl⟩
    · exact short_none
    · exact short_some (Or.inr (Or.inr rfl)) (by decide) (by decide)
    · exact short_some (Or.inl rfl) (by decide) (by omega)
  · exact visibility_parts (milesGroup_short hd) short_none none_rw

theorem rvrDistance_short {o : Option (RvrLimit × Nat)} {feet : Bool} (h : ∀ x ∈ o, x.2 < 10000) :
    Short (RvrText.distance o feet) := by
  cases o with
  | none => exact short_none
  | some x =>
    have := h x rfl
    refine short_some ?_ (by cases feet <;> decide) (by omega)
    cases x.1 <;> simp [RvrLimit.modifier]

theorem rvr_fits {v : RvrText} (h : v.Ok) : AllFit (.visibility v.group) := by
  obtain ⟨h0, h1, h2, -⟩ := h
  refine visibility_parts (rvrDistance_short h1) ?_ fun r hr => h0 r hr
  show Short (if v.max.isSome then RvrText.distance v.max v.feet else {})
  split
  · exact rvrDistance_short h2
  · exact short_none

/-! #### Clouds -/

theorem cloud_parts {g : CloudGroup} (h1 : Short g.heightOrVertVis) (h2 : Short g.maxHt) (h3 : Short g.cldTp.ht)
    (h4 : ∀ r, g.rw = some r → r.rNumber < 100) : AllFit (.cloud g) := by
  have hh : Short g.height := by unfold CloudGroup.height; split <;> [exact short_none; exact h1]
  have hm : Short g.minHeight := by unfold CloudGroup.minHeight; split <;> [exact short_none; exact h1]
  intro v hv
  simp only [values, List.mem_append, List.mem_cons, List.not_mem_nil, or_false, List.mem_map,
    Option.mem_toList, Option.map_eq_some_iff] at hv
  rcases hv with (((rfl | rfl | rfl | rfl) | ⟨r, hr, rfl⟩) | ⟨d, -, rfl⟩) | ⟨c, hc, rfl⟩
  · exact hh
  · exact hm
  · show Short g.maxHeight
    unfold CloudGroup.maxHeight; split <;> [exact short_none; exact h2]
  · show Short g.verticalVisibility
    unfold CloudGroup.verticalVisibility; split <;> [exact short_none; exact h1]
  · exact h4 r hr
  · trivial
  · show Short c.ht
    unfold CloudGroup.cloudType at hc
    dsimp only at hc
    split at hc <;> cases hc
    · exact hh
    · exact hh
    · exact hm
    · exact h3

theorem layer_fits {s : Str} {g : CloudGroup} (h : LayerGroup s g) : AllFit (.cloud g) := by
  obtain ⟨_, _, h, _, _, -, hn, -, -, -, rfl⟩ := h
  refine cloud_parts ?_ short_none short_none (fun _ h => nomatch h)
  cases h with
  | none => exact short_none
  | some n => exact hundreds_short (hn n rfl)

theorem amountText_short {s : Str} {a : Metaf.Amount} {h : Option Nat} (ha : AmountText s a h) :
    Short ((h.map hundreds).getD {}) := by
  obtain ⟨t, -, hn, -⟩ := ha
  cases h with
  | none => exact short_none
  | some n => exact hundreds_short (hn n rfl)

theorem ceiling_parts {s : Str} {g : CloudGroup} (h : CeilingWord s g) :
    Short g.heightOrVertVis ∧ Short g.maxHt ∧ Short g.cldTp.ht ∧ g.rw = none := by
  cases h with
  | height h => exact ⟨hundreds_short h, short_none, short_none, rfl⟩
  | range h h' => exact ⟨hundreds_short h, hundreds_short h', short_none, rfl⟩

theorem cloudRemark_fits {ws : List Str} {g : CloudGroup} (h : CloudRemark ws g) : AllFit (.cloud g) := by
  have none_rw : ∀ r, (none : Option Runway) = some r → r.rNumber < 100 := fun _ h => nomatch h
  have place : ∀ {w r d}, PlaceWord w r d → ∀ x, r = some x → x.rNumber < 100 := by
    rintro w r d h x rfl
    cases h with
    | runway h => exact h.1
  cases h with
  | ceilingHeight h =>
    obtain ⟨a, b, c, d⟩ := ceiling_parts h
    exact cloud_parts a b c (by dsimp only; rw [d]; exact none_rw)
  | ceilingPlace h hp =>
    obtain ⟨a, b, c, d⟩ := ceiling_parts h
    exact cloud_parts a b c (place hp)
  | noCeilingPlace hp => exact cloud_parts short_none short_none short_none (place hp)
  | obscurationAmount _ h => exact cloud_parts (amountText_short h) short_none (amountText_short h) none_rw
  | amount h => exact cloud_parts (amountText_short h) short_none short_none none_rw
  | amountV h => exact cloud_parts (amountText_short h) short_none short_none none_rw
  | varying h => exact cloud_parts (amountText_short h) short_none short_none none_rw
  | _ => exact cloud_parts short_none short_none short_none none_rw

theorem layers_fit {P : Str → CloudType → Prop} (hp : ∀ s c, P s c → Short c.ht) {ws : List Str}
    {cs : List CloudType} (h : List.Forall₂ P ws cs) : AllFit (.cloudTypes ⟨cs⟩) := by
  intro v hv
  obtain ⟨c, hc, rfl⟩ := List.mem_map.mp hv
  clear hv
  change c ∈ cs at hc
  show Short c.ht
  induction h with
  | nil => cases hc
  | cons h _ ih =>
    rcases List.mem_cons.mp hc with rfl | hc
    · exact hp _ _ h
    · exact ih hc

/-! #### Other groups -/

theorem one_fits {v : Value} (h : Fits v) : ∀ x ∈ [v], Fits x := by
  intro x hx; rw [List.mem_singleton.mp hx]; exact h

theorem two_fit {v w : Value} (h : Fits v) (h' : Fits w) : ∀ x ∈ [v, w], Fits x := by
  intro x hx
  rcases List.mem_cons.mp hx with rfl | hx
  · exact h
  · exact one_fits h' x hx

theorem nothing_fallen {u : PrecipitationUnit} : Fits (.precipitation ⟨none, u⟩) := fun _ h => nomatch h

theorem rain_fits {k : Nat} (hk : k ≤ 3) {s : Str} {p : Precipitation} (h : RainWritten k s p) :
    Fits (.precipitation p) := by
  rcases h with ⟨-, rfl⟩ | ⟨a, f, ha, hf, -, rfl⟩
  · exact nothing_fallen
  · rintro _ ⟨⟩
    have ha' : a < 1000 := lt_of_lt_of_le ha (Nat.pow_le_pow_right (by decide) hk)
    have h1 := abs_le.mp (C37_rain_value a f ha' hf).1
    have ha2 : (a : Rat) ≤ 1000 := by exact_mod_cast ha'.le
    have hf2 : (f : Rat) ≤ 10 := by exact_mod_cast hf.le
    refine ⟨?_, by linarith [h1.2]⟩
    unfold rainOf
    exact f32_nonneg (f64_nonneg (add_nonneg (by positivity)
      (f64_nonneg (mul_nonneg (f64_nonneg (by norm_num)) (by positivity)))))

theorem amount_fits {now : Option Nat} {code : Str} {k scale : Nat} {t : PrecipitationType} {u : PrecipitationUnit}
    (ht : (code, k, t, u, scale) ∈ amountTable now) {s : Str} {p : Precipitation}
    (h : AmountWritten k scale u s p) : Fits (.precipitation p) := by
  rcases h with ⟨-, rfl⟩ | ⟨n, hn, -, rfl⟩
  · exact nothing_fallen
  · rintro _ ⟨⟩
    have h1 := abs_le.mp (C56_amount now code k scale n t u ht hn).1
    have hs : (scale = 100 ∨ scale = 10 ∨ scale = 1 ∧ k = 3) ∧ (k = 3 ∨ k = 4) := by
      simp only [amountTable, List.mem_cons, List.not_mem_nil, or_false, Prod.mk.injEq] at ht
      omega
    have hn4 : (n : Rat) ≤ 9999 := by
      have : n ≤ 9999 := by rcases hs.2 with rfl | rfl <;> omega
      exact_mod_cast this
    have hn0 : (0 : Rat) ≤ n := by positivity
    refine ⟨?_, ?_⟩
    · unfold amountOf
      refine f32_nonneg (mul_nonneg hn0 ?_)
      split
      · norm_num
      · exact f32_nonneg (f64_nonneg (by positivity))
    · have : (n : Rat) / scale ≤ n := by
        refine div_le_self hn0 ?_
        rcases hs.1 with rfl | rfl | ⟨rfl, -⟩ <;> norm_num
      linarith [h1.2]

theorem state_fits {r : Runway} (hr : r.rNumber < 100) {s : Str} {g : RunwayStateGroup} (h : StateWritten r s g) :
    AllFit (.runwayState g) := by
  have friction : ∀ {f x}, FrictionWritten f x → Fits (.friction x) := by
    rintro f x (⟨-, rfl⟩ | ⟨-, rfl⟩ | ⟨n, hn, -, rfl⟩ | ⟨n, c, hc, -, rfl⟩)
    · exact Nat.zero_le _
    · exact Nat.zero_le _
    · exact (by omega : n ≤ 100)
    · show c ≤ 100
      simp only [List.mem_cons, Prod.mk.injEq, List.not_mem_nil, or_false] at hc
      omega
  have depth : ∀ {d p t}, DepthWritten d p t → Fits (.precipitation p) := by
    rintro d p t (⟨-, rfl, -⟩ | ⟨-, rfl, -⟩ | ⟨n, hn, -, -, rfl, -⟩)
    · exact nothing_fallen
    · exact nothing_fallen
    · rintro _ ⟨⟩
      have : depositDepth n ≤ 10000 := by unfold depositDepth; split <;> omega
      exact ⟨by positivity, by exact_mod_cast this⟩
  have key : ∀ {g : RunwayStateGroup}, g.rw = r → Fits (.precipitation g.dDepth) → Fits (.friction g.sf) →
      AllFit (.runwayState g) := by
    intro g h1 h2 h3 v hv
    simp only [values, List.mem_cons, List.not_mem_nil, or_false] at hv
    rcases hv with rfl | rfl | rfl
    · rw [h1]; exact hr
    · exact h2
    · exact h3
  cases h with
  | snoclo => exact key rfl nothing_fallen (Nat.zero_le _)
  | cleared => exact key rfl nothing_fallen (Nat.zero_le _)
  | clearedFriction hf _ => exact key rfl nothing_fallen (friction hf)
  | clrd hf => exact key rfl nothing_fallen (friction hf)
  | state _ _ hd hf => exact key rfl (depth hd) (friction hf)

theorem modest_temperature {t : Temperature} (h : ∀ n, tenths t = some n → |n| < 1000) : Fits (.temperature t) :=
  fun n hn => (h n hn).le

theorem forecast_fits {g : MinMaxTemperatureGroup} (h : Modest (.minMaxTemperature g))
    (ht : ∀ t, g.minTime = some t ∨ g.maxTime = some t → Fits (.time t)) : AllFit (.minMaxTemperature g) := by
  intro v hv
  simp only [values, List.mem_append, List.mem_cons, List.not_mem_nil, or_false, List.mem_map, Option.mem_toList] at hv
  rcases hv with (rfl | rfl) | ⟨t, h', rfl⟩
  · exact modest_temperature h.1
  · exact modest_temperature h.2
  · exact ht t h'

theorem distanceWord_short {w : Str} {d : Distance} (h : DistanceWord w d) : Short d := by
  rcases h with ⟨-, rfl⟩ | ⟨-, rfl⟩ | ⟨k, n, hk, hn, -, rfl⟩
  · exact short_none
  · exact short_none
  · have : n < 100 := by rcases hk with rfl | rfl <;> omega
    exact short_some (Or.inl rfl) (by decide) (by omega)

theorem distanceWords_short {ws : List Str} {d : Distance} (h : DistanceWords ws d) : Short d := by
  rcases h with ⟨-, rfl⟩ | ⟨w, h, -⟩
  · exact short_none
  · exact distanceWord_short h

theorem vicinity_fits {ws : List Str} {g : VicinityGroup} {c1 c2 : List Cardinal}
    (h : VicinityText ws g c1 c2) : AllFit (.vicinity g) := by
  refine one_fits ?_
  cases h with
  | rotor => exact short_none
  | kind => exact short_none
  | distance _ h => exact distanceWord_short h
  | heading _ h => exact distanceWords_short h
  | headingAnd _ h => exact distanceWords_short h
  | headings _ h => exact distanceWords_short h
  | moving _ h => exact distanceWords_short h
  | moved _ h => exact distanceWords_short h

theorem lightning_fits {ws : List Str} {g : LightningGroup} {c1 c2 : List Cardinal}
    (h : LightningText ws g c1 c2) : AllFit (.lightning g) := by
  refine one_fits ?_
  rcases h with ⟨w, f, -, -, rfl, -⟩ | ⟨fw, f, ty, ds, hd, f1, t1, f2, t2, -, -, -, -, rfl⟩
  · exact short_none
  · show Short (lastDistance ds)
    unfold lastDistance
    split
    · exact short_none
    · split <;> exact short_none

theorem nothing_fits {g : Group} (h : values g = []) : AllFit g := by
  intro v hv; rw [h] at hv; cases hv

theorem written_fits {p : ReportPart} {ws : List Str} {g : Group} (hw : Written p ws g) : AllFit g := by
  have hm := written_modest hw
  cases hw with
  | trend h => exact trend_fits (sentence_ok h)
  | wind h => exact wind_fits (now := none) (fun _ h => by cases h) h
  | visibility h => exact bodyVisibility_fits h
  | runwayVisualRange _ h => exact rvr_fits h
  | @milesAndFraction k n s f hk hn h =>
    obtain ⟨-, h2⟩ := milesGroup_bound h f rfl
    have : n < 100 := by rcases hk with rfl | rfl <;> omega
    exact visibility_parts (short_miles (Or.inl rfl) (by omega)) short_none (fun _ h => nomatch h)
  | noClouds => exact cloud_parts short_none short_none short_none (fun _ h => nomatch h)
  | cloud h => exact layer_fits h
  | weather =>
    refine nothing_fits ?_
    simp [values, made, List.filterMap_map]
  | recentWeather =>
    refine nothing_fits ?_
    simp [values, made, List.filterMap_map]
  | temperature => exact two_fit (modest_temperature hm.1) (modest_temperature hm.2)
  | pressure => exact one_fits hm
  | forecastPressure => exact one_fits hm
  | snowClosed =>
    intro v hv
    simp only [values, List.mem_cons, List.not_mem_nil, or_false] at hv
    rcases hv with rfl | rfl | rfl
    · exact (by decide : 88 < 100)
    · exact nothing_fallen
    · exact Nat.zero_le _
  | runwayState _ hr h => exact state_fits hr h
  | seaSurface _ h1 h2 =>
    refine two_fit ?_ ?_
    · rcases h1 with ⟨-, h⟩ | ⟨n, hn, -, h⟩ <;> rw [h]
      · exact fun _ h => nomatch h
      · intro k hk
        simp only [tenths, Option.map_some, Option.some.injEq] at hk
        simp at hk
        rw [abs_le]
        omega
    · intro n hn
      rcases h2 with ⟨-, h⟩ | ⟨-, h⟩ | ⟨k, m, hk, hk', hm, -, h⟩ | ⟨k, m, hm, -, h⟩ <;> rw [h] at hn <;> cases hn
      · exact lt_of_lt_of_le hm (Nat.pow_le_pow_right (by decide) hk')
      · simp at hm
        omega
  | forecastTemperature _ ha h =>
    refine forecast_fits hm ?_
    cases h <;> rintro t (h | h) <;> cases h <;> exact ⟨ha.2.2, Nat.zero_lt_succ 99⟩
  | forecastTemperatures _ ha hb h =>
    refine forecast_fits hm ?_
    cases h <;> rintro t (h | h) <;> cases h <;> first | exact ⟨ha.2.2, Nat.zero_lt_succ 99⟩ | exact ⟨hb.2.2, Nat.zero_lt_succ 99⟩
  | rainfall _ h1 h2 => exact two_fit (rain_fits (by decide) h2) (rain_fits (by decide) h1)
  | layer _ _ h =>
    refine two_fit ?_ ?_
    · rcases h with ⟨-, h1, h2⟩ | ⟨n, m, hn, hm, -, h1, h2⟩ <;> rw [h1]
      · exact short_none
      · exact short_some (Or.inl rfl) (by decide) (by omega)
    · rcases h with ⟨-, h1, h2⟩ | ⟨n, m, hn, hm, -, h1, h2⟩ <;> rw [h2]
      · exact short_none
      · exact short_some (Or.inl rfl) (by decide) (by omega)
  | _ => exact nothing_fits rfl

theorem settled_fits {g : Group} (h : AllFit g) : AllFit (settled g) := by
  cases g <;> exact h

theorem remark_fits {now : Option Nat} (hn : ∀ h, now = some h → h < 100) {ws : List Str} {g : Group}
    (h : Remark now ws g) : AllFit g := by
  have hm := remark_modest h
  cases h with
  | fixed h =>
    simp only [fixedWords, List.mem_cons, Prod.mk.injEq, List.not_mem_nil, or_false] at h
    rcases h with ⟨-, rfl⟩ | ⟨-, rfl⟩ | ⟨-, rfl⟩ | ⟨-, rfl⟩ | ⟨-, rfl⟩ | ⟨-, rfl⟩ | ⟨-, rfl⟩ <;>
      first
      | exact nothing_fits rfl
      | exact one_fits fun _ h => nomatch h
      | exact two_fit (fun _ h => nomatch h) fun _ h => nomatch h
  | missing h =>
    simp only [missingWords, List.mem_cons, Prod.mk.injEq, List.not_mem_nil, or_false] at h
    rcases h with ⟨-, rfl, -⟩ | ⟨-, rfl, -⟩ | ⟨-, rfl, -⟩ | ⟨-, rfl, -⟩ | ⟨-, rfl, -⟩ | ⟨-, rfl, -⟩ <;>
      first
      | exact nothing_fits rfl
      | exact one_fits fun _ h => nomatch h
      | exact two_fit (fun _ h => nomatch h) fun _ h => nomatch h
  | missingSaid h =>
    simp only [missingWords, List.mem_cons, Prod.mk.injEq, List.not_mem_nil, or_false] at h
    rcases h with ⟨-, -, rfl⟩ | ⟨-, -, rfl⟩ | ⟨-, -, rfl⟩ | ⟨-, -, rfl⟩ | ⟨-, -, rfl⟩ | ⟨-, -, rfl⟩ <;>
      first
      | exact nothing_fits rfl
      | exact one_fits fun _ h => nomatch h
      | exact two_fit (fun _ h => nomatch h) fun _ h => nomatch h
  | wind h => exact wind_fits hn h
  | visibility h => exact visRemark_fits h
  | cloud h => exact cloudRemark_fits h
  | @events hour fs es h1 h2 h3 h4 =>
    intro v hv
    simp only [values, List.mem_map, List.mem_filterMap] at hv
    obtain ⟨t, ⟨x, ⟨e, he, rfl⟩, ht⟩, rfl⟩ := hv
    cases ht
    exact read_all_times (hn _ h1) h3 h4 e (List.mem_of_mem_take he)
  | temperature => exact two_fit (modest_temperature hm.1) (modest_temperature hm.2)
  | pressure => exact one_fits hm
  | seaLevelPressure => exact one_fits hm
  | stationPressure => exact one_fits hm
  | sixHourly => exact two_fit (modest_temperature hm.1) (modest_temperature hm.2)
  | daily => exact two_fit (modest_temperature hm.1) (modest_temperature hm.2)
  | precipitation ht h => exact two_fit (amount_fits ht h) nothing_fallen
  | snowIncreasing => exact two_fit nothing_fallen nothing_fallen
  | snowIncrease h =>
    obtain ⟨i, j, a, b, hi, hj, ha, hb, -, rfl, rfl⟩ := h
    have h1 : a < 100 := by rcases hi with rfl | rfl <;> omega
    have h2 : b < 100 := by rcases hj with rfl | rfl <;> omega
    have key : ∀ n < 100, Fits (.precipitation ⟨some ((n : Nat) : Rat), .INCHES⟩) := by
      rintro n hn _ ⟨⟩
      exact ⟨by positivity, by exact_mod_cast (by omega : n ≤ 10000)⟩
    exact two_fit (key b h2) (key a h1)
  | tendency _ h =>
    refine one_fits ?_
    rcases h with ⟨-, rfl⟩ | ⟨n, hn, -, rfl⟩
    · exact fun _ h => nomatch h
    · rintro _ ⟨⟩
      have h1 := abs_le.mp (C36_tendency_value n hn).1
      have hn' : (n : Rat) ≤ 1000 := by exact_mod_cast hn.le
      refine ⟨?_, by linarith [h1.2]⟩
      unfold tendencyOf Pressure.tendencyDecimalPointShift
      exact f32_nonneg (mul_nonneg (f32_nonneg (by positivity)) (f32_nonneg (f64_nonneg (by norm_num))))
  | cloudTypes _ _ h =>
    refine layers_fit ?_ h
    rintro s c ⟨t, k, n, m, -, -, hm, -, rfl⟩
    exact hundreds_short hm
  | cloudOktas _ _ h =>
    refine layers_fit ?_ h
    rintro s c ⟨t, k, n, -, -, -, rfl⟩
    exact short_none
  | lightning h => exact lightning_fits h
  | vicinity h => exact vicinity_fits h
  | _ => exact nothing_fits rfl

theorem said_fits {now : Option Nat} (hn : ∀ h, now = some h → h < 100) {x : GroupInfo} (h : Said now x) :
    AllFit x.group := by
  cases h with
  | header h =>
    cases h with
    | time h1 h2 h3 => exact one_fits ⟨h2, h3⟩
    | period h1 h2 h3 h4 =>
      refine trend_fits ?_
      intro w hw
      rw [List.mem_singleton.mp hw]
      exact ⟨h1, h2, h3, h4⟩
    | _ => exact nothing_fits rfl
  | body _ h => exact written_fits h
  | remark h => exact settled_fits (remark_fits hn h)
  | remnant _ h => exact remark_fits hn h
  | _ => exact nothing_fits rfl

/-! ### Warnings -/

/-- The text begins like the warning. -/
def likeWarning (s : Str) : Bool := s.take 3 == c!"Dat"

theorem first_line {l : Str} {ls : List Str} (h : ∀ t, likeWarning (l ++ t) = false) :
    likeWarning (unlines (l :: ls)) = false := by
  rw [unlines_cons]
  exact h _

theorem no_warning (g : Group) (s : Str) : likeWarning (unlines (groupLines g s)) = false := by
  cases g with
  | keyword g => obtain ⟨t⟩ := g; cases t <;> exact first_line fun _ => rfl
  | location g => exact first_line fun _ => rfl
  | reportTime g => exact first_line fun _ => rfl
  | trend g =>
    refine first_line fun t => ?_
    unfold trendTitle
    cases g.t <;> rfl
  | wind g =>
    refine first_line fun t => ?_
    unfold windTitle
    cases g.windType <;> rfl
  | visibility g =>
    change likeWarning (unlines (visibilityLines g)) = false
    unfold visibilityLines
    split
    · exact first_line fun _ => rfl
    · refine first_line fun t => ?_
      unfold visibilityTitle
      cases g.visType <;> rfl
  | cloud g =>
    change likeWarning (unlines (cloudLines g)) = false
    unfold cloudLines
    cases g.tp
    case NO_CLOUDS => refine first_line fun t => ?_; cases g.amnt <;> rfl
    case OBSCURATION =>
      dsimp only
      cases g.height.distance with
      | none =>
        cases g.cloudType with
        | none => rfl
        | some c =>
          obtain ⟨t⟩ := c
          cases t <;> exact first_line fun _ => rfl
      | some h =>
        refine first_line fun t => ?_
        dsimp only
        split <;> rfl
    all_goals exact first_line fun _ => rfl
  | weather g =>
    refine first_line fun t => ?_
    cases g.t <;> rfl
  | temperature g => obtain ⟨t⟩ := g; cases t <;> exact first_line fun _ => rfl
  | pressure g => obtain ⟨t⟩ := g; cases t <;> exact first_line fun _ => rfl
  | runwayState g => exact first_line fun _ => rfl
  | seaSurface g => exact first_line fun _ => rfl
  | minMaxTemperature g => obtain ⟨t⟩ := g; cases t <;> exact first_line fun _ => rfl
  | precipitation g => obtain ⟨t⟩ := g; cases t <;> exact first_line fun _ => rfl
  | layerForecast g =>
    refine first_line fun t => ?_
    cases g.layerType <;> rfl
  | pressureTendency g =>
    change likeWarning (unlines (tendencyLines g)) = false
    unfold tendencyLines
    dsimp only
    split
    · exact first_line fun _ => rfl
    · split <;> exact first_line fun _ => rfl
  | cloudTypes g => exact first_line fun _ => rfl
  | lowMidHighCloud g => exact first_line fun _ => rfl
  | lightning g => exact first_line fun _ => rfl
  | vicinity g =>
    refine first_line fun t => ?_
    cases g.t <;> rfl
  | misc g =>
    change likeWarning (unlines (miscLines g)) = false
    obtain ⟨t, d⟩ := g
    cases t
    case SUNSHINE_DURATION_MINUTES =>
      refine first_line fun t => ?_
      dsimp only
      split <;> rfl
    all_goals exact first_line fun _ => rfl
  | unknown g => exact first_line fun _ => rfl

/-- The texts begin with the warning just if it is put in front of them. -/
theorem warning_first {c : Prop} [Decidable c] {ls : List Str} (h : likeWarning (unlines ls) = false) :
    warningLine <+: unlines (lineIf c warningLine ++ ls) ↔ c := by
  unfold lineIf
  split
  · simp only [List.cons_append, List.nil_append, iff_true, *]
    rw [unlines_cons]
    exact List.prefix_append _ _
  · simp only [List.nil_append, iff_false, *]
    rintro ⟨t, ht⟩
    rw [← ht] at h
    cases h

/-! ### Results -/

/-- C109. Every value of every group of a report, whatever the report is, is shown right. -/
theorem C109_values {report : Str} {limit : Nat} {r : ParseResult} (h : Result report limit r) :
    ∀ x ∈ r.groups, ∀ v ∈ values x.group, Presented v := fun x hx v hv =>
  fits_presented (said_fits (fun _ => hour_limit h) (C75_said h x hx) v hv)

/-- C109. The explanation of a group begins with the warning that data may be erroneous just if the text of the
group is faulty. -/
theorem C109_warning {report : Str} {limit : Nat} {r : ParseResult} (h : Result report limit r) :
    ∀ x ∈ r.groups, ∀ e, visitor.visit x.group x.reportPart x.rawString = .ok e →
      (c!"Data in this group may be errorneous, incomplete or inconsistent" <+: e ↔ EntryFaulty (hourOf r) x) := by
  intro x hx e he
  obtain ⟨b, hb, hf⟩ := C75_valid h x hx
  rw [← hf]
  have hb' : b = false ↔ groupValid x.group = .ok false := by rw [hb, Except.ok.injEq]
  rw [hb']
  by_cases hs : Shear x.group
  · obtain ⟨w, hw, hs⟩ := hs
    rw [hw] at he ⊢
    rw [C106_shear he hs]
    exact warning_first (first_line fun _ => rfl)
  · rw [C106_lines_partial he fun w hw ht => hs ⟨w, hw, ht⟩]
    exact warning_first (no_warning _ _)

/-- C109. In the page each row has the explanation of its group: the lines of the specification, with the warning
first just if the text is faulty, and with all values shown right. -/
theorem C109_page {memory input out : Str} (h : explain memory input = .ok out) :
    ∃ r es, Result input 200 r ∧ es.length = r.groups.length ∧
      (∀ x e, (x, e) ∈ r.groups.zip es → (¬ Shear x.group → e = unlines (explanationLines x)) ∧
        (c!"Data in this group may be errorneous, incomplete or inconsistent" <+: e ↔ EntryFaulty (hourOf r) x) ∧
        ∀ v ∈ values x.group, Presented v) ∧
      out = page (reportTypeToString r.reportMetadata.type)
        (if r.reportMetadata.error = .NONE then none else some (reportErrorToString r.reportMetadata.error))
        ((r.groups.map (·.rawString)).zip es) := by
  obtain ⟨r, es, hr, hf, ho⟩ := C99_page h
  refine ⟨r, es, hr, hf.length_eq.symm, fun x e hx => ?_, ho⟩
  have hm : x ∈ r.groups := (List.of_mem_zip hx).1
  have hv : visitor.visit x.group x.reportPart x.rawString = .ok e := List.forall₂_iff_zip.mp hf |>.2 hx
  exact ⟨fun hs => C106_lines_partial hv fun w hw ht => hs ⟨w, hw, ht⟩, C109_warning hr x hm e hv,
    C109_values hr x hm⟩

end Metaf.Props

/-! ### Cases -/

namespace Metaf.Props

open Metaf Metaf.Spec Metaf.Explain

attribute [local instance] ieee

/-- A report with values of many kinds. -/
def valuesExample : Str :=
  c!"METAR ZZZZ 041115Z 24005G15KT 180V300 9999 R24L/0600V1200U BKN020CB M00/M05 Q1013 RF00.2/001.4 W15/H28 \
    R12/290592 RMK PK WND 28045/1055 52032 P0014 RAB09E48"

/-- The text of a value in the explanation. -/
def valueText : Value → Str
  | .time t => explainMetafTime t
  | .runway r => explainRunway r
  | .direction d => explainDirection d
  | .speed s => explainSpeed s
  | .distance d => shown (explainDistance d)
  | .temperature t => explainTemperature t
  | .pressure p => explainPressure p
  | .precipitation p => explainPrecipitation p
  | .friction f => explainSurfaceFriction f
  | .waves w => explainWaveHeight w

set_option maxRecDepth 8000 in
/-- Its values as shown, without those that are not reported. -/
example : (match Parser.parse valuesExample 200 with
    | .ok r => (r.groups.flatMap fun x => (values x.group).map valueText).filter fun t =>
        t ≠ c!"not reported" ∧ t ≠ []
    | .error _ => []) =
    [c!"day 4, 11:15 GMT",
     c!"240 degrees(southwest)", c!"5 knots (2.5 m/s / 9.2 km/h / 5.7 mph)",
     c!"15 knots (7.7 m/s / 27.7 km/h / 17.2 mph)", c!"180 degrees(south)", c!"300 degrees(northwest)",
     c!"&gt;10000 meters (6 statute miles / 32808 feet)",
     c!"600 meters (3/8 statute miles / 1968 feet)", c!"1200 meters (3/4 statute miles / 3937 feet)",
     c!"runway 24 LEFT",
     c!"2000 feet (609 meters / 3/8 statute miles)", c!"2000 feet (609 meters / 3/8 statute miles)",
     c!"slightly less than 0.0 &deg;C / 32.0 &deg;F", c!"-5.0 &deg;C / 23.0 &deg;F",
     c!"1013.0 hPa / 29.91 inHg / 759.8 mmHg",
     c!"1.4 mm / 0.05 inches", c!"0.2 mm / 0.00 inches",
     c!"15.0 &deg;C / 59.0 &deg;F", c!"wave height: 2.8 meters / 9.1 feet",
     c!"runway 12", c!"5.0 mm / 0.19 inches", c!"braking action medium/poor (friction coefficient 0.26 to 0.29)",
     c!"280 degrees(west)", c!"45 knots (23.1 m/s / 83.3 km/h / 51.7 mph)", c!"10:55 GMT",
     c!"3.2 hPa / 0.09 inHg / 2.4 mmHg",
     c!"3.5 mm / 0.14 inches",
     c!"11:09 GMT", c!"11:48 GMT"] := by
  decide +kernel

set_option maxRecDepth 4000 in
/-- A time of release with and without the warning. -/
example :
    (visitor.visit (.reportTime ⟨⟨some 31, 24, 60⟩⟩) .HEADER c!"312460Z" = .ok
      c!"Data in this group may be errorneous, incomplete or inconsistent\nDay and time of report release: \
        day 31, 24:60 GMT" ∧ EntryFaulty none ⟨.reportTime ⟨⟨some 31, 24, 60⟩⟩, .HEADER, c!"312460Z"⟩) ∧
    visitor.visit (.reportTime ⟨⟨some 4, 11, 15⟩⟩) .HEADER c!"041115Z" = .ok
      c!"Day and time of report release: day 4, 11:15 GMT" := by
  refine ⟨⟨by kernel_rfl, ?_⟩, by kernel_rfl⟩
  refine ⟨fun u h => (nomatch h), ?_⟩
  exact HeaderFaulty.time (d := 31) (h := 24) (m := 60) (by decide) (by decide) (by decide) (by simp [TimeWrong])

end Metaf.Props

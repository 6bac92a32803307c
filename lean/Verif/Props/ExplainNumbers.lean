import Verif.Proofs.Numerals
import Verif.Props.Conversion
import Verif.Props.Distance
import Verif.Props.SummaryTotal

/-!
C103: numbers shown by `explain` (`/repo/examples/explain.cpp`) in other units than that of the report.
-/

set_option linter.unusedSectionVars false

namespace Metaf.Props

open Metaf Metaf.Spec Metaf.Explain

variable [FloatIeee]

/-! ### Specification -/

/-- The number `x` shown with `d` decimals in place of `y`: less than one unit of the last decimal away, up to
the error of the conversion. -/
def Accurate (d : Nat) (x y : Rat) : Prop := |x - y| < 1 / 10 ^ d + |y| * (3 / 100000) + 1 / 10000

/-- The text is a number with `d` decimals in place of `y`, followed by the name of the unit. -/
def Given (d : Nat) (y : Rat) (unit s : Str) : Prop := ∃ t x, s = t ++ unit ∧ Shows d t x ∧ Accurate d x y

/-- The names of the units of speed. -/
def speedName : SpeedUnit → Str
  | .KNOTS => c!" knots"
  | .METERS_PER_SECOND => c!" m/s"
  | .KILOMETERS_PER_HOUR => c!" km/h"
  | .MILES_PER_HOUR => c!" mph"

/-- The units of speed in the order they are shown. -/
def speedUnits : List SpeedUnit := [.KNOTS, .METERS_PER_SECOND, .KILOMETERS_PER_HOUR, .MILES_PER_HOUR]

/-- The text is a whole number in place of `y`, cut to an integer, followed by the name of the unit. -/
def GivenWhole (y : Rat) (unit s : Str) : Prop :=
  ∃ t n, s = t ++ unit ∧ Numeral t n ∧ (n : Rat) ≤ y * (1 + 2 / 100000) + 1 / 50000 ∧
    y * (1 - 2 / 100000) - 1 / 50000 < n + 1

/-- A fraction in lowest terms. -/
def FractionText (s : Str) (q : Rat) : Prop :=
  ∃ a b x y, s = a ++ '/' :: b ∧ Numeral a x ∧ Numeral b y ∧ 0 < y ∧ Nat.Coprime x y ∧ q = x / y

/-- A number written as a whole number, a fraction below one, or both. -/
def MixedText (s : Str) (q : Rat) : Prop :=
  (∃ n, Numeral s n ∧ q = n) ∨ (FractionText s q ∧ 0 < q ∧ q < 1) ∨
    ∃ a f n r, s = a ++ ' ' :: f ∧ Numeral a n ∧ 0 < n ∧ FractionText f r ∧ 0 < r ∧ r < 1 ∧ q = n + r

/-- The text is a number of statute miles in place of `y`: the largest of the values used for visibility
(`ReportableMiles`, in sixteenths) that is not above `y` rounded to sixteenths. -/
def GivenMiles (y : Rat) (s : Str) : Prop :=
  ∃ (t : Str) (k : Nat), s = t ++ c!" statute miles" ∧ MixedText t (k / 16) ∧ ReportableMiles k ∧
    (k : Rat) ≤ y * 16 + 1 / 2 + 1 / 100 ∧
    ∀ j : Nat, ReportableMiles j → (j : Rat) ≤ y * 16 - 1 / 2 - 1 / 100 → j ≤ k

/-- The text of a distance of `y` in a unit. -/
def GivenDistance (y : Rat) : DistanceUnit → Str → Prop
  | .METERS, s => GivenWhole y c!" meters" s
  | .STATUTE_MILES, s => GivenMiles y s
  | .FEET, s => GivenWhole y c!" feet" s

/-- The sign shown in front of a distance. -/
def distanceSign : Modifier → Str
  | .LESS_THAN => c!"&lt;"
  | .MORE_THAN => c!"&gt;"
  | _ => []

/-- The units of distance in the order they are shown. -/
def distanceUnits : List DistanceUnit := [.METERS, .STATUTE_MILES, .FEET]

/-! ### Lemmas -/

/-- A value computed with a small error is shown accurately. -/
theorem given_of {d : Nat} {r y : Rat} {unit : Str} (hd : d ≤ 6) (h : |r - y| ≤ |y| * (3 / 100000) + 1 / 12000) :
    Given d y unit (roundTo r d ++ unit) := by
  obtain ⟨x, h1, h2⟩ := roundTo_near r hd
  refine ⟨_, x, rfl, h1, ?_⟩
  unfold Accurate
  calc |x - y| = |(x - r) + (r - y)| := by rw [sub_add_sub_cancel]
    _ ≤ |x - r| + |r - y| := abs_add_le _ _
    _ < _ := by linarith

theorem given_within {d : Nat} {r y : Rat} {unit : Str} (hd : d ≤ 6) (hy : 0 ≤ y) (h : Within r y) :
    Given d y unit (roundTo r d ++ unit) := by
  refine given_of hd ?_
  unfold Within at h
  rw [abs_of_nonneg hy]
  norm_num at *
  linarith

theorem toInt_floor {q : Rat} (h0 : 0 ≤ q) (h : q ≤ 2100000000) :
    ∃ n : Nat, Summary.toInt q = .ok n ∧ (n : Rat) ≤ q ∧ q < n + 1 := by
  have hf : 0 ≤ q.floor := (Int.floor_nonneg (α := Rat)).mpr h0
  have h1 : ((q.floor : Int) : Rat) ≤ q := Int.floor_le _
  have h2 : q < ((q.floor : Int) : Rat) + 1 := Int.lt_floor_add_one _
  have h3 : ((q.floor.toNat : Nat) : Rat) = ((q.floor : Int) : Rat) := by
    exact_mod_cast Int.toNat_of_nonneg hf
  refine ⟨q.floor.toNat, ?_, by rw [h3]; exact h1, by rw [h3]; exact h2⟩
  have hb : q.floor ≤ 2100000000 := by
    have : ((q.floor : Int) : Rat) ≤ ((2100000000 : Int) : Rat) := by push_cast; linarith
    exact_mod_cast this
  unfold Summary.toInt
  rw [if_neg (not_lt.mpr h0)]
  simp only
  rw [if_pos (by omega), Int.toNat_of_nonneg hf]

/-- A value within the error of a conversion, cut to an integer. -/
theorem whole_within {r y : Rat} (hy : 0 ≤ y) (hb : y ≤ 2000000000) (h : Within r y) :
    ∃ t, showAsInt r = .ok t ∧ ∀ unit, GivenWhole y unit (t ++ unit) := by
  unfold Within at h
  obtain ⟨ha, hc⟩ := abs_le.mp h
  have : ∃ n : Nat, Summary.toInt r = .ok n ∧ ((n : Rat) ≤ r ∨ n = 0) ∧ r < n + 1 := by
    rcases le_or_gt 0 r with h0 | h0
    · obtain ⟨n, h1, h2, h3⟩ := toInt_floor h0 (by norm_num at hc; linarith)
      exact ⟨n, h1, Or.inl h2, h3⟩
    · refine ⟨0, ?_, Or.inr rfl, by push_cast; linarith⟩
      have hf : (-r).floor = 0 := floor_eq (by push_cast; linarith) (by norm_num at ha ⊢; linarith)
      unfold Summary.toInt
      rw [if_pos h0, hf]
      rfl
  obtain ⟨n, h1, h2, h3⟩ := this
  refine ⟨showNat n, ?_, fun unit => ⟨_, n, rfl, showNat_numeral n, ?_, ?_⟩⟩
  · unfold showAsInt
    rw [h1]
    simp [showInt, text, bind, Except.bind]
  · rcases h2 with h2 | rfl
    · norm_num at *; linarith
    · norm_num; linarith
  · norm_num at *; linarith

/-- Every fraction but `NONE` is shown in lowest terms. -/
theorem fractionText_table (f : MilesFraction) (h : f ≠ .NONE) :
    FractionText (distanceMilesFractionToString f) (sixteenths f / 16) ∧ 0 < sixteenths f ∧ sixteenths f < 16 := by
  have key : ∀ (x y : Nat) (a b : Str), Numeral a x → Numeral b y → 0 < y → Nat.Coprime x y →
      (sixteenths f / 16 : Rat) = x / y → distanceMilesFractionToString f = a ++ '/' :: b →
      FractionText (distanceMilesFractionToString f) (sixteenths f / 16) :=
    fun x y a b h1 h2 h3 h4 h5 h6 => ⟨a, b, x, y, h6, h1, h2, h3, h4, h5⟩
  refine ⟨?_, by cases f <;> simp_all [sixteenths], by cases f <;> simp_all [sixteenths]⟩
  cases f
  · exact absurd rfl h
  · exact key 1 16 _ _ (showNat_numeral 1) (showNat_numeral 16) (by decide) (by decide) (by norm_num [sixteenths]) rfl
  · exact key 1 8 _ _ (showNat_numeral 1) (showNat_numeral 8) (by decide) (by decide) (by norm_num [sixteenths]) rfl
  · exact key 3 16 _ _ (showNat_numeral 3) (showNat_numeral 16) (by decide) (by decide) (by norm_num [sixteenths]) rfl
  · exact key 1 4 _ _ (showNat_numeral 1) (showNat_numeral 4) (by decide) (by decide) (by norm_num [sixteenths]) rfl
  · exact key 5 16 _ _ (showNat_numeral 5) (showNat_numeral 16) (by decide) (by decide) (by norm_num [sixteenths]) rfl
  · exact key 3 8 _ _ (showNat_numeral 3) (showNat_numeral 8) (by decide) (by decide) (by norm_num [sixteenths]) rfl
  · exact key 1 2 _ _ (showNat_numeral 1) (showNat_numeral 2) (by decide) (by decide) (by norm_num [sixteenths]) rfl
  · exact key 5 8 _ _ (showNat_numeral 5) (showNat_numeral 8) (by decide) (by decide) (by norm_num [sixteenths]) rfl
  · exact key 3 4 _ _ (showNat_numeral 3) (showNat_numeral 4) (by decide) (by decide) (by norm_num [sixteenths]) rfl
  · exact key 7 8 _ _ (showNat_numeral 7) (showNat_numeral 8) (by decide) (by decide) (by norm_num [sixteenths]) rfl

theorem showMiles_mixed (n : Nat) (f : MilesFraction) : MixedText (showMiles n f) ((milesValue (n, f) : Nat) / 16) := by
  have hv : ((milesValue (n, f) : Nat) / 16 : Rat) = n + (sixteenths f : Rat) / 16 := by
    unfold milesValue
    push_cast
    ring
  rw [hv]
  by_cases hf : f = .NONE
  · subst hf
    left
    exact ⟨n, by simpa [showMiles] using showNat_numeral n, by simp [sixteenths]⟩
  · obtain ⟨h1, h2, h3⟩ := fractionText_table f hf
    have h2' : (0 : Rat) < sixteenths f := by exact_mod_cast h2
    have h3' : (sixteenths f : Rat) < 16 := by exact_mod_cast h3
    by_cases hn : n = 0
    · subst hn
      right; left
      exact ⟨by simpa [showMiles, hf] using h1, by norm_num; linarith, by norm_num; linarith⟩
    · right; right
      exact ⟨showNat n, _, n, _, by simp [showMiles, hf, hn], showNat_numeral n, by omega, h1, by linarith,
        by linarith, rfl⟩

theorem miles_given (d : Distance) (q : Rat) (hq : exactMiles d = some q) (hb : q ≤ 200) :
    ∃ r, d.miles = some r ∧ GivenMiles q (showMiles r.1 r.2 ++ c!" statute miles") := by
  obtain ⟨x, hx, h0, hn⟩ := toMiles_near d q hq hb
  have hm : d.miles = some (Distance.milesTable (roundHalfAway (f32 (x * 16))).toNat) := by
    unfold Distance.miles; rw [hx]
  refine ⟨_, hm, _, _, rfl, showMiles_mixed _ _, C33_reportable d _ hm, C33_not_above d q hq hb _ hm, ?_⟩
  intro j hj hle
  rw [← milesTable_fix j hj]
  refine milesTable_mono _ _ ?_
  have hn' := abs_le.mp hn
  have hy : (j : Rat) + 1 / 2 ≤ f32 (x * 16) := by linarith
  have hj0 : (0 : Rat) ≤ j := by positivity
  unfold roundHalfAway
  rw [if_neg (by linarith)]
  have h4 : ((j : Int)) ≤ (f32 (x * 16) + 1 / 2).floor := Rat.le_floor_iff.mpr (by push_cast; linarith)
  omega

/-! ### Theorems -/

/-- C103. A speed is shown as in the report, followed by the speed in each other unit. -/
theorem C103_speed (v : Nat) (hv : v < 2 ^ 32) (u : SpeedUnit) :
    ∃ a, Numeral a v ∧ ∃ t : SpeedUnit → Str, (∀ w, Given 1 (v * (mpsPer u / mpsPer w)) (speedName w) (t w)) ∧
      explainSpeed ⟨some v, u⟩ = a ++ speedName u ++ c!" (" ++
        c!" / ".intercalate ((speedUnits.filter (· ≠ u)).map t) ++ c!")" := by
  have hq : ∀ w, ∃ r, (⟨some v, u⟩ : Speed).toUnit w = some r ∧ Within r (v * (mpsPer u / mpsPer w)) :=
    fun w => C31_speed_value v hv u w
  choose r hr hw using hq
  have hp : ∀ w, 0 ≤ (v : Rat) * (mpsPer u / mpsPer w) := by
    intro w
    have : 0 < mpsPer u / mpsPer w := by cases u <;> cases w <;> norm_num [mpsPer]
    positivity
  refine ⟨showNat v, showNat_numeral v, fun w => roundTo (r w) 1 ++ speedName w,
    fun w => given_within (by decide) (hp w) (hw w), ?_⟩
  have hs : ∀ w f, Explain.speedIn ⟨some v, u⟩ w f = roundTo (r w) 1 ++ speedName w := by
    intro w f
    unfold Explain.speedIn
    rw [hr w]
    cases w <;> simp [speedName, speedUnitToString]
  unfold explainSpeed
  simp only [hs]
  cases u <;> simp [speedUnits, speedName, speedUnitToString, List.intercalate, List.intersperse]

/-- C103. A temperature is shown in degrees Celsius and Fahrenheit. In front of zero degrees written without
decimals it says on which side of the freezing point the temperature was. -/
theorem C103_temperature (x : Temperature) (v : Rat) (h : x.temperature = some v) (hv : |v| ≤ 2 ^ 32) :
    ∃ c f, Given 1 v c!" &deg;C" c ∧ Given 1 (v * 9 / 5 + 32) c!" &deg;F" f ∧
      explainTemperature x = (if v = 0 ∧ x.precise = false then
        if x.freezing then c!"slightly less than " else c!"slightly more than " else []) ++ c ++ c!" / " ++ f := by
  obtain ⟨r, hr, hb⟩ := C31_temperature_value x v h hv
  have hc : x.toUnit .C = some v := by rw [(C31_temperature_own x .C).2, h]
  refine ⟨_, _, given_of (d := 1) (r := v) (by decide) ?_, given_of (d := 1) (r := r) (by decide) ?_, ?_⟩
  · rw [sub_self, abs_zero]; positivity
  · refine hb.trans ?_
    have h1 : |v| ≤ |v * 9 / 5 + 32| + 32 := by
      rcases abs_cases v with ⟨a, _⟩ | ⟨a, _⟩ <;> rcases abs_cases (v * 9 / 5 + 32) with ⟨b, _⟩ | ⟨b, _⟩ <;>
        rw [a, b] <;> linarith
    have h2 := abs_nonneg (v * 9 / 5 + 32)
    linarith
  · unfold explainTemperature
    rw [h, hc, hr]

/-- C103. A pressure is shown in hectopascals, inches and millimetres of mercury. -/
theorem C103_pressure (v : Rat) (h0 : 0 ≤ v) (hv : v ≤ 2 ^ 33) (u : PressureUnit) :
    ∃ a b c, Given 1 (v * (hpaPer u / hpaPer .HECTOPASCAL)) c!" hPa" a ∧
      Given 2 (v * (hpaPer u / hpaPer .INCHES_HG)) c!" inHg" b ∧
      Given 1 (v * (hpaPer u / hpaPer .MM_HG)) c!" mmHg" c ∧
      explainPressure ⟨some v, u⟩ = a ++ c!" / " ++ b ++ c!" / " ++ c := by
  have hp : ∀ w, 0 ≤ v * (hpaPer u / hpaPer w) := by
    intro w
    have : 0 < hpaPer u / hpaPer w := by cases u <;> cases w <;> norm_num [hpaPer]
    positivity
  obtain ⟨r1, e1, w1⟩ := C31_pressure_value v h0 hv u .HECTOPASCAL
  obtain ⟨r2, e2, w2⟩ := C31_pressure_value v h0 hv u .INCHES_HG
  obtain ⟨r3, e3, w3⟩ := C31_pressure_value v h0 hv u .MM_HG
  refine ⟨_, _, _, given_within (by decide) (hp _) w1, given_within (by decide) (hp _) w2,
    given_within (by decide) (hp _) w3, ?_⟩
  unfold explainPressure
  dsimp only
  rw [e1, e2, e3]

/-- C103. An amount of precipitation other than a trace is shown in millimetres and inches. -/
theorem C103_precipitation (v : Rat) (h0 : 0 < v) (hv : v ≤ 2 ^ 33) (u : PrecipitationUnit) :
    ∃ a b, Given 1 (v * (mmPer u / mmPer .MM)) c!" mm" a ∧ Given 2 (v * (mmPer u / mmPer .INCHES)) c!" inches" b ∧
      explainPrecipitation ⟨some v, u⟩ = a ++ c!" / " ++ b := by
  have hp : ∀ w, 0 ≤ v * (mmPer u / mmPer w) := by
    intro w
    have : 0 < mmPer u / mmPer w := by cases u <;> cases w <;> norm_num [mmPer]
    positivity
  obtain ⟨r1, e1, w1⟩ := C31_precipitation_value v h0.le hv u .MM
  obtain ⟨r2, e2, w2⟩ := C31_precipitation_value v h0.le hv u .INCHES
  refine ⟨_, _, given_within (by decide) (hp _) w1, given_within (by decide) (hp _) w2, ?_⟩
  unfold explainPrecipitation
  rw [if_neg (by simp [Precipitation.isReported]), if_neg (by simp; exact ne_of_gt h0), e1, e2]

theorem waveHeight_text (n : Nat) (hn : n < 2 ^ 32) :
    ∃ b, Given 1 (n / 10) c!" meters" (roundTo (Speed.mulLit n (1 / 10)) 1 ++ c!" meters") ∧
      Given 1 (n / 10 * (10000 / 3048)) c!" feet" b ∧ explainWaveHeight ⟨.WAVE_HEIGHT, some n⟩ =
        c!"wave height: " ++ (roundTo (Speed.mulLit n (1 / 10)) 1 ++ c!" meters") ++ c!" / " ++ b := by
  obtain ⟨h1, h2, h3⟩ := C31_wave_height ⟨.WAVE_HEIGHT, some n⟩ .FEET (by rintro _ ⟨⟩; exact hn)
  obtain ⟨r, hr, hw⟩ := h3 _ rfl
  have hn' : (n : Rat) ≤ 2 ^ 32 := by exact_mod_cast hn.le
  have h0 : (0 : Rat) ≤ n := by positivity
  have hm := mulLit_near (v := n) (k := 1 / 10) h0 (le_trans hn' (by norm_num)) (by norm_num) (by norm_num)
  have hp := mulLit_nonneg (v := n) (k := 1 / 10) h0 (by norm_num)
  change Within r (Speed.mulLit n (1 / 10) * (10000 / 3048)) at hw
  have h2' : (⟨.WAVE_HEIGHT, some n⟩ : WaveHeight).toUnit .METERS = some (Speed.mulLit n (1 / 10)) := h2
  refine ⟨_, given_of (d := 1) (r := Speed.mulLit n (1 / 10)) (by decide) ?_,
    given_of (d := 1) (r := r) (by decide) ?_, ?_⟩
  · generalize Speed.mulLit (n : Rat) (1 / 10) = z at *
    rw [abs_of_nonneg (show (0 : Rat) ≤ n / 10 by positivity)]
    rw [abs_le] at *
    generalize (n : Rat) = q at *
    norm_num at *
    constructor <;> linarith
  · generalize Speed.mulLit (n : Rat) (1 / 10) = z at *
    rw [abs_of_nonneg (show (0 : Rat) ≤ n / 10 * (10000 / 3048) by positivity)]
    unfold Within at hw
    rw [abs_le] at *
    generalize (n : Rat) = q at *
    norm_num at *
    constructor <;> linarith
  · unfold explainWaveHeight
    dsimp only
    rw [h2', hr]
    simp [WaveHeight.isReported]

/-- C103. A wave height is shown in metres and feet. -/
theorem C103_wave_height (n : Nat) (hn : n < 2 ^ 32) :
    ∃ a b, Given 1 (n / 10) c!" meters" a ∧ Given 1 (n / 10 * (10000 / 3048)) c!" feet" b ∧
      explainWaveHeight ⟨.WAVE_HEIGHT, some n⟩ = c!"wave height: " ++ a ++ c!" / " ++ b := by
  obtain ⟨b, h1, h2, h3⟩ := waveHeight_text n hn
  exact ⟨_, b, h1, h2, h3⟩

/-- The texts of a distance in each unit. -/
def distanceText (t1 t2 : Str) (r : Nat × MilesFraction) : DistanceUnit → Str
  | .METERS => t1 ++ c!" meters"
  | .STATUTE_MILES => showMiles r.1 r.2 ++ c!" statute miles"
  | .FEET => t2 ++ c!" feet"

theorem distance_text (m : Modifier) (v : Nat) (u : DistanceUnit) (hm : m = .NONE ∨ m = .LESS_THAN ∨ m = .MORE_THAN)
    (hv : storedAmount v u * metersPer u ≤ 200 * metersPer .STATUTE_MILES) :
    ∃ x1 t1 x2 t2 r, (⟨m, some v, u⟩ : Distance).toUnit .METERS = some x1 ∧ showAsInt x1 = .ok t1 ∧
      (⟨m, some v, u⟩ : Distance).toUnit .FEET = some x2 ∧ showAsInt x2 = .ok t2 ∧
      (⟨m, some v, u⟩ : Distance).miles = some r ∧
      (∀ w, GivenDistance (storedAmount v u * (metersPer u / metersPer w)) w (distanceText t1 t2 r w)) ∧
      explainDistance ⟨m, some v, u⟩ = .ok (distanceSign m ++ distanceText t1 t2 r u ++ c!" (" ++
        c!" / ".intercalate ((distanceUnits.filter (· ≠ u)).map (distanceText t1 t2 r)) ++ c!")") := by
  have h0 : 0 ≤ storedAmount v u := by cases u <;> simp only [storedAmount] <;> positivity
  have hv32 : v < 2 ^ 32 := by
    have : (v : Rat) < 4294967296 := by
      cases u <;> norm_num [storedAmount, metersPer] at hv <;> linarith
    exact_mod_cast this
  have hq : exactMiles ⟨m, some v, u⟩ = some (storedAmount v u * (metersPer u / metersPer .STATUTE_MILES)) := by
    cases u <;> norm_num [exactMiles, storedAmount, metersPer] <;> ring
  obtain ⟨r, hr, gr⟩ := miles_given _ _ hq (by norm_num [metersPer] at hv ⊢; linarith)
  have hw : ∀ w, w ≠ .STATUTE_MILES → ∃ x t, (⟨m, some v, u⟩ : Distance).toUnit w = some x ∧ showAsInt x = .ok t ∧
      ∀ unit, GivenWhole (storedAmount v u * (metersPer u / metersPer w)) unit (t ++ unit) := by
    intro w hw
    obtain ⟨x, h1, h2⟩ := C31_distance_value m v hv32 u w
    have hp : 0 < metersPer w := by cases w <;> norm_num [metersPer]
    have hy : 0 ≤ storedAmount v u * (metersPer u / metersPer w) := by
      have : 0 < metersPer u / metersPer w := by cases u <;> cases w <;> norm_num [metersPer]
      positivity
    have hb : storedAmount v u * (metersPer u / metersPer w) ≤ 2000000000 := by
      rw [← mul_div_assoc, div_le_iff₀ hp]
      refine hv.trans ?_
      cases w <;> norm_num [metersPer]
    obtain ⟨t, h3, h4⟩ := whole_within hy hb h2
    exact ⟨x, t, h1, h3, h4⟩
  obtain ⟨x1, t1, a1, b1, g1⟩ := hw .METERS (by simp)
  obtain ⟨x2, t2, a2, b2, g2⟩ := hw .FEET (by simp)
  refine ⟨x1, t1, x2, t2, r, a1, b1, a2, b2, hr, ?_, ?_⟩
  · intro w
    cases w
    · exact g1 _
    · exact gr
    · exact g2 _
  · have hs : modifierText m = distanceSign m := by rcases hm with rfl | rfl | rfl <;> rfl
    unfold explainDistance distanceConverted
    obtain ⟨r1, r2⟩ := r
    cases u <;> simp [Distance.isReported, Distance.isValue, a1, a2, b1, b2, hr, hs, cat, opt, text, bind, Except.bind,
      List.intercalate, distanceUnits, distanceUnitToString, distanceText]

/-- C103. A distance is shown in its own unit and then in the other units: whole metres and feet, and miles
with a fraction. -/
theorem C103_distance (m : Modifier) (v : Nat) (u : DistanceUnit) (hm : m = .NONE ∨ m = .LESS_THAN ∨ m = .MORE_THAN)
    (hv : storedAmount v u * metersPer u ≤ 200 * metersPer .STATUTE_MILES) :
    ∃ t : DistanceUnit → Str, (∀ w, GivenDistance (storedAmount v u * (metersPer u / metersPer w)) w (t w)) ∧
      explainDistance ⟨m, some v, u⟩ = .ok (distanceSign m ++ t u ++ c!" (" ++
        c!" / ".intercalate ((distanceUnits.filter (· ≠ u)).map t) ++ c!")") := by
  obtain ⟨x1, t1, x2, t2, r, _, _, _, _, _, hg, he⟩ := distance_text m v u hm hv
  exact ⟨_, hg, he⟩

/-! ### Examples -/

example : ∃ a, Numeral a 10 ∧ ∃ t : SpeedUnit → Str,
    (∀ w, Given 1 (10 * (mpsPer .KNOTS / mpsPer w)) (speedName w) (t w)) ∧
      explainSpeed ⟨some 10, .KNOTS⟩ = a ++ speedName .KNOTS ++ c!" (" ++
        c!" / ".intercalate ((speedUnits.filter (· ≠ .KNOTS)).map t) ++ c!")" := by
  simpa using C103_speed 10 (by norm_num) .KNOTS

example : (⟨some 0, true, false⟩ : Temperature).temperature = some (f32 0) := by simp [Temperature.temperature]

example := C103_pressure 1013 (by norm_num) (by norm_num) .HECTOPASCAL

example := C103_precipitation 25 (by norm_num) (by norm_num) .MM

example := C103_wave_height 15 (by norm_num)

example := C103_distance .LESS_THAN 2500 .STATUTE_MILES (by simp) (by norm_num [storedAmount, metersPer])

end Metaf.Props

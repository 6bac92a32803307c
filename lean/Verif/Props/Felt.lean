import Verif.Props.Perceived
import Verif.Props.SummaryExact
import Verif.Spec.Felt

/-!
C142: the temperature felt in the summary of a METAR report is that of the published formulas.
-/

namespace Metaf.Props

open Metaf.Spec
open Metaf.Summary

set_option linter.unusedSectionVars false

variable [FloatIeee]

/-! ### Whole parts -/

theorem part_near_self (q : Rat) : |(integerPart q : Rat) - q| < 1 := by
  rw [← trunc_eq]
  split
  · have a := Int.floor_le (-q)
    have b := Int.lt_floor_add_one (-q)
    rw [show (-q).floor = ⌊-q⌋ from rfl, abs_lt]
    push_cast
    constructor <;> linarith
  · have a := Int.floor_le q
    have b := Int.lt_floor_add_one q
    rw [show q.floor = ⌊q⌋ from rfl, abs_lt]
    constructor <;> linarith

theorem part_le {p q : Rat} (h : p ≤ q) : integerPart p ≤ integerPart q := by
  rw [← trunc_eq, ← trunc_eq, show (-p).floor = ⌊-p⌋ from rfl, show p.floor = ⌊p⌋ from rfl,
    show (-q).floor = ⌊-q⌋ from rfl, show q.floor = ⌊q⌋ from rfl]
  split <;> split
  · exact neg_le_neg (Int.floor_le_floor (neg_le_neg h))
  · have a : 0 ≤ ⌊-p⌋ := Int.floor_nonneg.mpr (by linarith)
    have b : 0 ≤ ⌊q⌋ := Int.floor_nonneg.mpr (by linarith)
    omega
  · linarith
  · exact Int.floor_le_floor h

theorem part_sub_one (q : Rat) : integerPart q - 1 ≤ integerPart (q - 1) := by
  rw [← trunc_eq, ← trunc_eq, show (-q).floor = ⌊-q⌋ from rfl, show q.floor = ⌊q⌋ from rfl,
    show (-(q - 1)).floor = ⌊-q + 1⌋ from by rw [show -(q - 1) = -q + 1 by ring]; rfl,
    show (q - 1).floor = ⌊q - 1⌋ from rfl, Int.floor_add_one, Int.floor_sub_one]
  split <;> split
  · omega
  · linarith
  · have a : ⌊-q⌋ ≤ 0 := by
      have := Int.floor_le_floor (show -q ≤ 0 by linarith)
      simpa using this
    have b : ⌊q⌋ < 1 := Int.floor_lt.mpr (by push_cast; linarith)
    omega
  · omega

/-! ### Temperatures of any size -/

/-- A temperature of at most 6001 degrees in degrees Celsius. -/
theorem celsius_of_tenths {t : Temperature} {k : Int} (h : tenths t = some k) (hk : |k| ≤ 60010) :
    ∃ c, t.toUnit .C = some c ∧ |c - (k : Rat) / 10| ≤ 1 / 1000 := by
  obtain ⟨v, f, p⟩ := t
  cases v with
  | none => simp [tenths] at h
  | some v =>
    cases p
    · simp only [tenths, Option.map_some, Bool.false_eq_true, if_false, Option.some.injEq] at h
      subst h
      have hv : |v| ≤ 6001 := by rw [abs_mul] at hk; norm_num at hk; omega
      refine ⟨f32 v, rfl, ?_⟩
      rw [FloatSem.f32_int v (le_trans hv (by norm_num))]
      push_cast
      rw [show (v : Rat) - 10 * v / 10 = 0 by ring]
      norm_num
    · simp only [tenths, Option.map_some, if_true, Option.some.injEq] at h
      subst h
      refine ⟨f32 (f32 v * Temperature.preciseValuePrecision), rfl, ?_⟩
      rw [FloatSem.f32_int v (le_trans hk (by norm_num)), tenth_eq]
      have hv : |(v : Rat)| ≤ 60010 := by exact_mod_cast hk
      have hv2 := abs_le.mp hv
      have a : |(v : Rat) * (13421773 / 2 ^ 27) - v / 10| ≤ 2 / 10000 := by
        rw [abs_le]; norm_num; constructor <;> linarith
      have b := f32_near 6001 a (by rw [abs_le]; constructor <;> linarith) (by norm_num)
      exact le_trans b (by norm_num)

/-- The temperature in degrees Fahrenheit made of one in degrees Celsius. -/
def inFahrenheit (c : Rat) : Rat := f32 (f64 (f64 (c * f64 (18 / 10)) + 32))

theorem toUnit_fahrenheit {t : Temperature} {c : Rat} (h : t.toUnit .C = some c) :
    t.toUnit .F = some (inFahrenheit c) := by
  unfold Temperature.toUnit at h ⊢
  cases ht : t.temperature with
  | none => rw [ht] at h; cases h
  | some x =>
    rw [ht] at h
    obtain rfl := Option.some.inj h
    rfl

theorem inFahrenheit_le {a b : Rat} (h : a ≤ b) : inFahrenheit a ≤ inFahrenheit b := by
  have k := f64_near (x := 18 / 10) (y := 9 / 5) (e := 0) 2 (by norm_num) (by norm_num [abs_le]) (by norm_num)
  have k0 : 0 ≤ f64 (18 / 10) := by
    have := (abs_le.mp k).1
    norm_num at this ⊢
    linarith
  unfold inFahrenheit
  refine FloatSem.f32_mono _ _ (FloatSem.f64_mono _ _ ?_)
  have := FloatSem.f64_mono _ _ (mul_le_mul_of_nonneg_right h k0)
  linarith

theorem inFahrenheit_near {c x : Rat} (h : |c - x| ≤ 1 / 1000) (hx : |x| ≤ 6001) :
    |inFahrenheit c - (x * 9 / 5 + 32)| ≤ 4 / 1000 := by
  have k := f64_near (x := 18 / 10) (y := 9 / 5) (e := 0) 2 (by norm_num) (by norm_num [abs_le]) (by norm_num)
  have m := mul_near h k hx (show |(9 / 5 : Rat)| ≤ 2 by norm_num [abs_le])
  have hx2 := abs_le.mp hx
  have m' := f64_near 12002 m (by rw [abs_le]; constructor <;> linarith) (by norm_num)
  have a := add_near m' (near_self 32)
  have a' := f64_near 12034 a (by rw [abs_le]; constructor <;> linarith) (by norm_num)
  have a'' := f32_near 12034 a' (by rw [abs_le]; constructor <;> linarith) (by norm_num)
  unfold inFahrenheit
  rw [show x * 9 / 5 + 32 = x * (9 / 5) + 32 by ring]
  exact le_trans a'' (by norm_num)

/-- The number shown of a temperature and the value it is made of. -/
theorem temperatureIn_value {t : Temperature} {k : Int} (h : tenths t = some k) (hk : |k| ≤ 60010) (imperial : Bool) :
    ∃ q, temperatureIn imperial t = some (integerPart q) ∧
      |q - (if imperial then (k : Rat) / 10 * 9 / 5 + 32 else (k : Rat) / 10)| ≤ 4 / 1000 := by
  obtain ⟨c, hc, hn⟩ := celsius_of_tenths h hk
  have hx : |(k : Rat) / 10| ≤ 6001 := by
    have : |(k : Rat)| ≤ 60010 := by exact_mod_cast hk
    rw [abs_div]; norm_num; linarith
  cases imperial
  · refine ⟨c, by simp [temperatureIn, hc], ?_⟩
    simp only [Bool.false_eq_true, if_false]
    exact le_trans hn (by norm_num)
  · refine ⟨inFahrenheit c, by simp [temperatureIn, toUnit_fahrenheit hc], ?_⟩
    simp only [if_true]
    exact inFahrenheit_near hn hx

theorem shown_near {t : Temperature} {k : Int} (h : tenths t = some k) (hk : |k| ≤ 60010) (imperial : Bool) :
    ∃ p, temperatureIn imperial t = some p ∧
      |(p : Rat) - (if imperial then (k : Rat) / 10 * 9 / 5 + 32 else (k : Rat) / 10)| ≤ 1004 / 1000 := by
  obtain ⟨q, h1, h2⟩ := temperatureIn_value h hk imperial
  refine ⟨_, h1, ?_⟩
  have a := abs_lt.mp (part_near_self q)
  have b := abs_le.mp h2
  rw [abs_le]
  constructor <;> linarith

theorem near_inUnit {p : Int} {k : Int} {x : ℝ} {imperial : Bool}
    (h : |(p : Rat) - (if imperial then (k : Rat) / 10 * 9 / 5 + 32 else (k : Rat) / 10)| ≤ 1004 / 1000)
    (hx : |(k : ℝ) / 10 - x| ≤ 52 / 1000) : |(p : ℝ) - inUnit imperial x| ≤ 111 / 100 := by
  have a := Rat.cast_le (K := ℝ) |>.mpr h
  have b := abs_le.mp hx
  unfold inUnit
  cases imperial
  · simp only [Bool.false_eq_true, if_false] at a ⊢
    push_cast at a
    have a := abs_le.mp a
    rw [abs_le]
    constructor <;> linarith
  · simp only [if_true] at a ⊢
    push_cast at a
    have a := abs_le.mp a
    rw [abs_le]
    constructor <;> linarith

theorem temperatureIn_missing {t : Temperature} (h : t.isReported = false) (imperial : Bool) :
    temperatureIn imperial t = none :=
  toUnit_none.2.2.1 t |>.mpr h

theorem reported_iff_tenths {t : Temperature} : t.isReported = true ↔ ∃ n, tenths t = some n := by
  obtain ⟨v, f, p⟩ := t
  cases v
  · simp [tenths, Temperature.isReported]
  · simp [tenths, Temperature.isReported]

/-- The wind speed in kilometres per hour, if it is known. -/
def windKmh (wind : Option Speed) : Option Rat := wind.bind fun s => s.speedValue.map (kmhExact · s.speedUnit)

theorem heat_bound {n : Int} {r : Rat} (h1 : 270 ≤ n) (h2 : n ≤ 1000) (h3 : 40 ≤ r) (h4 : r ≤ 100) {k : Int}
    (hk : |(k : Rat) / 10 - heatIndexOf ((n : Rat) / 10) r| ≤ 52 / 1000) : |k| ≤ 60010 := by
  have hn' : |(n : Rat) / 10| ≤ 101 := by
    have a : (270 : Rat) ≤ n := by exact_mod_cast h1
    have b : (n : Rat) ≤ 1000 := by exact_mod_cast h2
    rw [abs_le]; constructor <;> linarith
  have hr : |r| ≤ 100 := by rw [abs_le]; constructor <;> linarith
  have a := abs_le.mp (heatPolynomial_bound hn' hr)
  have b := abs_le.mp (heatPolynomial_near (t := (n : Rat) / 10) (r := r) (by linarith) h4)
  have c := abs_le.mp hk
  have : |(k : Rat)| ≤ 60010 := by
    rw [abs_le]
    norm_num at b
    constructor <;> linarith
  exact_mod_cast this

/-- The power of the wind speed in the formula of the wind chill. -/
theorem wind_power {v : Rat} (h1 : 4 ≤ v) (h2 : v ≤ 3600) : 0 ≤ (v : ℝ) ^ (0.16 : ℝ) ∧ (v : ℝ) ^ (0.16 : ℝ) ≤ 3.71 := by
  have q1 : (4 : ℝ) ≤ v := by exact_mod_cast h1
  have q2 : (v : ℝ) ≤ 3600 := by exact_mod_cast h2
  refine ⟨Real.rpow_nonneg (by linarith) _, ?_⟩
  have e : (3600 : ℝ) ≤ (3.71 : ℝ) ^ (25 / 4 : ℝ) := by
    have a : (3600 : ℝ) ^ (4 : ℝ) ≤ ((3.71 : ℝ) ^ (25 / 4 : ℝ)) ^ (4 : ℝ) := by
      rw [← Real.rpow_mul (by norm_num), show (25 / 4 * 4 : ℝ) = ((25 : ℕ) : ℝ) by norm_num, Real.rpow_natCast,
        show (4 : ℝ) = ((4 : ℕ) : ℝ) by norm_num, Real.rpow_natCast]
      norm_num
    exact (Real.rpow_le_rpow_iff (by norm_num) (Real.rpow_nonneg (by norm_num) _) (by norm_num)).mp a
  have b := Real.rpow_le_rpow (by linarith) (le_trans q2 e) (by norm_num : (0 : ℝ) ≤ 0.16)
  rw [← Real.rpow_mul (by norm_num), show (25 / 4 * 0.16 : ℝ) = 1 by norm_num, Real.rpow_one] at b
  exact b

theorem kmh_most {v : Nat} {u : SpeedUnit} (h : v < 1000) : kmhExact v u ≤ 3600 := by
  have : (v : Rat) ≤ 999 := by exact_mod_cast (by omega : v ≤ 999)
  unfold kmhExact
  cases u <;> norm_num [mpsPer] <;> linarith

/-- The least wind chill for a temperature. -/
theorem windChillOf_range {n : Int} {v : Rat} (hn : n ≤ 100) (h1 : 4 ≤ v) (h2 : v ≤ 3600) :
    -29.07 + 2.092515 * ((n : ℝ) / 10) ≤ windChillOf ((n : ℝ) / 10) (v : ℝ) ∧
      windChillOf ((n : ℝ) / 10) (v : ℝ) ≤ 20 := by
  obtain ⟨p1, p2⟩ := wind_power h1 h2
  have ht : (n : ℝ) / 10 ≤ 10 := by
    have : (n : ℝ) ≤ 100 := by exact_mod_cast hn
    linarith
  unfold windChillOf
  generalize (v : ℝ) ^ (0.16 : ℝ) = q at *
  generalize (n : ℝ) / 10 = t at *
  have m1 := mul_nonneg (show (0 : ℝ) ≤ 3.71 - q by linarith) (show (0 : ℝ) ≤ 11.37 - 0.3965 * t by
    norm_num; linarith)
  have m2 := mul_nonneg p1 (show (0 : ℝ) ≤ 11.37 - 0.3965 * t by norm_num; linarith)
  norm_num at m1 m2 ⊢
  constructor <;> linarith

theorem chill_bound {n k : Int} {v : Rat} (h0 : -1000 ≤ n) (hn : n ≤ 100) (h1 : 4 ≤ v) (h2 : v ≤ 3600)
    (hk : |(k : ℝ) / 10 - windChillOf ((n : ℝ) / 10) (v : ℝ)| ≤ 52 / 1000) : |k| ≤ 60010 := by
  obtain ⟨a, b⟩ := windChillOf_range hn h1 h2
  have c := abs_le.mp hk
  have : (-1000 : ℝ) ≤ n := by exact_mod_cast h0
  have : |(k : ℝ)| ≤ 60010 := by
    rw [abs_le]
    norm_num at a
    constructor <;> linarith
  exact_mod_cast this

/-- What is felt, with the number of tenths it is rounded to. -/
theorem felt_tenths (hp : PowNear) (g : TemperatureGroup) (wind : Option Speed) {n : Int} (ht : tenths g.t = some n)
    (hn : |n| < 1000) (hd : ∀ m, tenths g.dp = some m → |m| < 1000)
    (hw : ∀ s v, wind = some s → s.speedValue = some v → v < 1000) :
    ∃ x t k, Feels n (tenths g.dp) (windKmh wind) x ∧ tenths t = some k ∧ |k| ≤ 60010 ∧
      |(k : ℝ) / 10 - x| ≤ 52 / 1000 ∧ (n ≤ 100 → k ≤ n) ∧ (270 ≤ n → n - 4 ≤ k) ∧ (100 < n → n < 270 → t = g.t) ∧
      ∀ imperial, felt imperial g wind = temperatureIn imperial t := by
  have hn2 := abs_lt.mp hn
  by_cases hh : (Temperature.heatIndex g.t g.dp).isReported = true
  · obtain ⟨n', rh, e, h1, h2, h3⟩ := (C29_heat_index_dew_point hp.powTen g.t g.dp
      (by intro m hm; rw [ht] at hm; obtain rfl := Option.some.inj hm; exact hn.le) fun m hm => (hd m hm).le).mp hh
    rw [ht] at e
    obtain rfl := Option.some.inj e
    have hdp : g.dp.isReported = true := by
      have := C28_available g.t g.dp
      rw [h2] at this
      simp only [Option.isSome_some] at this
      have := this.symm
      simp only [Bool.and_eq_true] at this
      exact this.2
    obtain ⟨m, hm⟩ := reported_iff_tenths.mp hdp
    obtain ⟨rh', e1, -, e2⟩ := C28_range hp.powTen g.t g.dp n m ht hm hn.le (hd m hm).le
    rw [h2] at e1
    obtain rfl := Option.some.inj e1
    have near : |(rh : ℝ) - humidityOfTenths n m| ≤ 1 / 100 := by
      unfold humidityOfTenths
      split
      · rename_i hle
        obtain ⟨r', a, b⟩ := C140_humidity hp g.t g.dp n m ht hm hn.le (hd m hm).le hle
        rw [h2] at a
        obtain rfl := Option.some.inj a
        exact b
      · have := C28_saturated hp.powTen g.t g.dp n m ht hm hn.le (hd m hm).le (by omega)
        rw [h2] at this
        obtain rfl := Option.some.inj this
        norm_num
    obtain ⟨k, k1, k2⟩ := C140_heat_index g.t n rh ht h1 (by omega) h3 e2
    have fl := C141_heat_index_floor g.t n k rh ht h1 (by omega) h3 e2 k1
    have kb := heat_bound h1 (by omega) h3 e2 k2
    refine ⟨_, Temperature.heatIndexRh g.t rh, k, Feels.heat h1 hm near h3 e2, k1, kb, ?_, by omega, fun _ => fl.1,
      by omega, ?_⟩
    · have := Rat.cast_le (K := ℝ) |>.mpr k2
      push_cast at this ⊢
      exact this
    · intro imperial
      unfold felt
      rw [C140_heat_index_dew_point g.t g.dp rh h2]
      obtain ⟨p, q, -⟩ := shown_near k1 kb imperial
      rw [q]
      rfl
  · have hh' : (Temperature.heatIndex g.t g.dp).isReported = false := by simpa using hh
    have dry : 270 ≤ n → ∀ m, tenths g.dp = some m → humidityOfTenths n m < 40 + 1 / 100 := by
      intro h1 m hm
      by_contra hc
      push Not at hc
      apply hh
      rw [C29_heat_index_dew_point hp.powTen g.t g.dp
        (by intro m hm; rw [ht] at hm; obtain rfl := Option.some.inj hm; exact hn.le) fun m hm => (hd m hm).le]
      unfold humidityOfTenths at hc
      split at hc
      · rename_i hle
        obtain ⟨r', a, b⟩ := C140_humidity hp g.t g.dp n m ht hm hn.le (hd m hm).le hle
        refine ⟨n, r', ht, h1, a, ?_⟩
        have b := (abs_le.mp b).1
        have : (40 : ℝ) ≤ r' := by linarith
        exact_mod_cast this
      · exact ⟨n, 100, ht, h1, C28_saturated hp.powTen g.t g.dp n m ht hm hn.le (hd m hm).le (by omega), by norm_num⟩
    by_cases hc : ∃ s v, wind = some s ∧ s.speedValue = some v ∧ n ≤ 100 ∧ 48 / 10 ≤ kmhExact v s.speedUnit
    · obtain ⟨⟨sv, su⟩, v, rfl, hv, h1, h2⟩ := hc
      simp only at hv
      subst hv
      have hv := hw _ v rfl rfl
      obtain ⟨k, k1, k2⟩ := C140_wind_chill hp g.t n v su ht (by omega) h1 h2 hv
      have low := C141_wind_chill_below hp g.t n k v su ht (by omega) h1 h2 hv k1
      have kb := chill_bound (by omega) h1 (by simp only at h2; linarith) (kmh_most hv) k2
      refine ⟨_, Temperature.windChill g.t ⟨some v, su⟩, k, Feels.chill h1 rfl h2, k1, kb, k2, fun _ => low.le, by omega,
        by omega, ?_⟩
      intro imperial
      unfold felt
      rw [temperatureIn_missing hh']
      obtain ⟨p, q, -⟩ := shown_near k1 kb imperial
      simp only [Option.bind_some, q]
      rfl
    · refine ⟨_, g.t, n, Feels.air dry ?_, ht, by rw [abs_le]; omega, by rw [sub_self, abs_zero]; norm_num, fun _ => le_refl _, fun _ => by omega,
        fun _ _ => rfl, ?_⟩
      · intro h1 v hv
        by_contra hcc
        push Not at hcc
        apply hc
        unfold windKmh at hv
        cases wind with
        | none => cases hv
        | some s =>
          simp only [Option.bind_some] at hv
          cases hs : s.speedValue with
          | none => rw [hs] at hv; cases hv
          | some w =>
            rw [hs] at hv
            obtain rfl := Option.some.inj hv
            exact ⟨s, w, rfl, hs, h1, hcc⟩
      · intro imperial
        unfold felt
        rw [temperatureIn_missing hh']
        cases wind with
        | none => rfl
        | some s =>
          have : (Temperature.windChill g.t s).isReported = false := by
            by_contra hcc
            have hcc : (Temperature.windChill g.t s).isReported = true := by simpa using hcc
            obtain ⟨n', v, e, a, b, c⟩ := (C29_wind_chill g.t s
              (by intro m hm; rw [ht] at hm; obtain rfl := Option.some.inj hm; exact hn.le)
              fun v hv => lt_trans (hw s v rfl hv) (by norm_num)).mp hcc
            rw [ht] at e
            obtain rfl := Option.some.inj e
            exact hc ⟨s, v, rfl, a, b, c⟩
          simp only [Option.bind_some, temperatureIn_missing this]
          rfl

/-! ### C142 -/

/-- The last group with a temperature before the first trend, with the wind reported before it. -/
structure LastTemperature (gs : List GroupInfo) (t : TemperatureGroup) (wind : Option Speed) : Prop where
  place : ∃ before g after, beforeTrend (gs.map (·.group)) = before ++ g :: after ∧ temperatureGroupOf g = some t ∧
    (∀ g' ∈ after, temperatureGroupOf g' = none) ∧ wind = lastOf (fun g => (surfaceWind g).map (·.wSpeed)) before

theorem lastOf_append_cons {α : Type} {f : Group → Option α} {before after : List Group} {g : Group} {a : α}
    (hg : f g = some a) (ha : ∀ g' ∈ after, f g' = none) : lastOf f (before ++ g :: after) = some a := by
  unfold lastOf
  rw [List.reverse_append, List.reverse_cons, List.append_assoc, List.findSome?_append,
    List.findSome?_eq_none_iff.mpr (by simpa using ha)]
  simp [hg]

/-- What the summary says of the last temperature. -/
theorem summary_felt (hp : PowNear) {metar taf : Str} {y m d : Int} {imperial : Bool} {gs : List GroupInfo}
    {r : CurrentWeather} (hm : Gives metar .METAR gs) (h : getCurrentWeather metar taf y m d imperial = .ok r)
    {t : TemperatureGroup} {wind : Option Speed} (hl : LastTemperature gs t wind) {n : Int} (hn : tenths t.t = some n) :
    |n| < 1000 ∧ temperatureIn imperial t.t = some r.airTemperature ∧
    ∃ x u k, Feels n (tenths t.dp) (windKmh wind) x ∧ (∀ v, windKmh wind = some v → v ≤ 3600) ∧
      tenths u = some k ∧ |k| ≤ 60010 ∧
      |(k : ℝ) / 10 - x| ≤ 52 / 1000 ∧ (n ≤ 100 → k ≤ n) ∧ (270 ≤ n → n - 4 ≤ k) ∧ (100 < n → n < 270 → u = t.t) ∧
      temperatureIn imperial u = some r.perceivedTemperature := by
  obtain ⟨b, g, a, e, hg, ha, rfl⟩ := hl.place
  have md : ∀ g ∈ beforeTrend (gs.map (·.group)), Modest g :=
    fun g hg => gives_modest hm g (beforeTrend_subset g hg)
  obtain ⟨-, me⟩ := C87_metar hm h
  have mg := md g (by rw [e]; simp)
  have eg : g = .temperature t := by
    cases g <;> simp only [temperatureGroupOf, reduceCtorEq] at hg
    split at hg
    · rw [Option.some.inj hg]
    · cases hg
  subst eg
  have hb := mg.1 n hn
  have hw : ∀ s v, lastOf (fun g => (surfaceWind g).map (·.wSpeed)) b = some s → s.speedValue = some v → v < 1000 := by
    intro s v hs hv
    obtain ⟨g', hg', he⟩ := lastOf_mem hs
    cases hsw : surfaceWind g' with
    | none => rw [hsw] at he; cases he
    | some w =>
      rw [hsw] at he
      obtain rfl := Option.some.inj he
      obtain rfl := surfaceWind_eq g' w hsw
      exact (md (.wind w) (by rw [e]; exact List.mem_append_left _ hg')).2.1 v hv
  obtain ⟨x, u, k, f1, f2, f3, f4, f5, f6, f7, f8⟩ := felt_tenths hp t _ hn hb mg.2 hw
  refine ⟨hb, ?_, x, u, k, f1, ?_, f2, f3, f4, f5, f6, f7, ?_⟩
  · obtain ⟨p, q, -⟩ := shown_near hn (le_trans hb.le (by norm_num)) imperial
    rw [q, me.airTemperature, e, lastOf_append_cons (a := p) (by rw [hg]; exact q)
      (fun g' h' => by rw [ha g' h']; rfl)]
    rfl
  · intro v hv
    unfold windKmh at hv
    cases hs : lastOf (fun g => (surfaceWind g).map (·.wSpeed)) b with
    | none => rw [hs] at hv; cases hv
    | some s =>
      rw [hs] at hv
      simp only [Option.bind_some] at hv
      cases hs' : s.speedValue with
      | none => rw [hs'] at hv; cases hv
      | some w =>
        rw [hs'] at hv
        obtain rfl := Option.some.inj hv
        exact kmh_most (hw s w hs hs')
  · obtain ⟨p, q, -⟩ := shown_near f2 f3 imperial
    rw [q, me.perceivedTemperature b _ t a e hg ha, f8, q]
    rfl

/-- C142: the temperature felt in the summary is that of the published formulas, with the fraction dropped. -/
theorem C142_felt (hp : PowNear) {metar taf : Str} {y m d : Int} {imperial : Bool} {gs : List GroupInfo}
    {r : CurrentWeather} (hm : Gives metar .METAR gs) (h : getCurrentWeather metar taf y m d imperial = .ok r)
    {t : TemperatureGroup} {wind : Option Speed} (hl : LastTemperature gs t wind) {n : Int} (hn : tenths t.t = some n) :
    ∃ x, Feels n (tenths t.dp) (windKmh wind) x ∧ |(r.perceivedTemperature : ℝ) - inUnit imperial x| ≤ 111 / 100 := by
  obtain ⟨-, -, x, u, k, f1, -, f2, f3, f4, -, -, -, f8⟩ := summary_felt hp hm h hl hn
  refine ⟨x, f1, ?_⟩
  obtain ⟨p, q, e⟩ := shown_near f2 f3 imperial
  rw [q] at f8
  obtain rfl := Option.some.inj f8
  exact near_inUnit e f4

/-- C142: between 10 and 27 degrees the temperature felt is the temperature of the air. -/
theorem C142_mild (hp : PowNear) {metar taf : Str} {y m d : Int} {imperial : Bool} {gs : List GroupInfo}
    {r : CurrentWeather} (hm : Gives metar .METAR gs) (h : getCurrentWeather metar taf y m d imperial = .ok r)
    {t : TemperatureGroup} {wind : Option Speed} (hl : LastTemperature gs t wind) {n : Int} (hn : tenths t.t = some n)
    (h1 : 100 < n) (h2 : n < 270) : r.perceivedTemperature = r.airTemperature := by
  obtain ⟨-, a, x, u, k, -, -, -, -, -, -, -, f7, f8⟩ := summary_felt hp hm h hl hn
  rw [f7 h1 h2, a] at f8
  exact (Option.some.inj f8).symm

theorem temperatureIn_le {t u : Temperature} {n k : Int} (hn : tenths t = some n) (hk : tenths u = some k)
    (h1 : |n| < 1000) (h2 : |k| ≤ 60010) (h : k ≤ n) {imperial : Bool} {a b : Int}
    (ha : temperatureIn imperial t = some a) (hb : temperatureIn imperial u = some b) : b ≤ a := by
  obtain ⟨c, hc, ce⟩ := celsius_of_tenths hn (le_trans h1.le (by norm_num))
  obtain ⟨e, he, ee⟩ := celsius_of_tenths hk h2
  have hn2 := abs_lt.mp h1
  have hle : e ≤ c := by
    by_cases hs : -1000 ≤ k
    · have h3 : |k| ≤ 1000 := by rw [abs_le]; omega
      rw [temperature_eq hn h1.le] at hc
      rw [temperature_eq hk h3] at he
      obtain rfl := Option.some.inj hc
      obtain rfl := Option.some.inj he
      exact not_lt.mp fun hc => absurd ((value_lt h1.le h3).mp hc) (by omega)
    · have a1 := abs_le.mp ce
      have a2 := abs_le.mp ee
      have b1 : (-999 : Rat) ≤ n := by exact_mod_cast (by omega : -999 ≤ n)
      have b2 : (k : Rat) ≤ -1001 := by exact_mod_cast (by omega : k ≤ -1001)
      linarith
  cases imperial
  · simp only [temperatureIn, Bool.false_eq_true, if_false, hc, he, Option.map_some] at ha hb
    rw [← Option.some.inj ha, ← Option.some.inj hb]
    exact part_le hle
  · simp only [temperatureIn, if_true, toUnit_fahrenheit hc, toUnit_fahrenheit he, Option.map_some] at ha hb
    rw [← Option.some.inj ha, ← Option.some.inj hb]
    exact part_le (inFahrenheit_le hle)

/-- C142: up to 10 degrees it never feels warmer than the air is. -/
theorem C142_cold (hp : PowNear) {metar taf : Str} {y m d : Int} {imperial : Bool} {gs : List GroupInfo}
    {r : CurrentWeather} (hm : Gives metar .METAR gs) (h : getCurrentWeather metar taf y m d imperial = .ok r)
    {t : TemperatureGroup} {wind : Option Speed} (hl : LastTemperature gs t wind) {n : Int} (hn : tenths t.t = some n)
    (h1 : n ≤ 100) : r.perceivedTemperature ≤ r.airTemperature := by
  obtain ⟨b, a, x, u, k, -, -, f2, f3, -, f5, -, -, f8⟩ := summary_felt hp hm h hl hn
  exact temperatureIn_le hn f2 b f3 (f5 h1) a f8

/-- C142: from 27 degrees the number shown is at most one degree below that of the air. -/
theorem C142_warm (hp : PowNear) {metar taf : Str} {y m d : Int} {imperial : Bool} {gs : List GroupInfo}
    {r : CurrentWeather} (hm : Gives metar .METAR gs) (h : getCurrentWeather metar taf y m d imperial = .ok r)
    {t : TemperatureGroup} {wind : Option Speed} (hl : LastTemperature gs t wind) {n : Int} (hn : tenths t.t = some n)
    (h1 : 270 ≤ n) : r.airTemperature - 1 ≤ r.perceivedTemperature := by
  obtain ⟨b, a, x, u, k, -, -, f2, f3, -, -, f6, -, f8⟩ := summary_felt hp hm h hl hn
  obtain ⟨q, e1, e2⟩ := temperatureIn_value hn (le_trans b.le (by norm_num)) imperial
  obtain ⟨p, g1, g2⟩ := temperatureIn_value f2 f3 imperial
  rw [a] at e1
  rw [f8] at g1
  rw [Option.some.inj e1, Option.some.inj g1]
  refine le_trans (part_sub_one q) (part_le ?_)
  have hk : (n : Rat) - 4 ≤ k := by exact_mod_cast f6 h1
  have e2 := abs_le.mp e2
  have g2 := abs_le.mp g2
  cases imperial
  · simp only [Bool.false_eq_true, if_false] at e2 g2
    linarith
  · simp only [if_true] at e2 g2
    linarith

/-- C142: in degrees Celsius, and in degrees Fahrenheit from 60 degrees Celsius below zero, the temperature felt is
not the number which stands for a missing value. -/
theorem C142_reported (hp : PowNear) {metar taf : Str} {y m d : Int} {imperial : Bool} {gs : List GroupInfo}
    {r : CurrentWeather} (hm : Gives metar .METAR gs) (h : getCurrentWeather metar taf y m d imperial = .ok r)
    {t : TemperatureGroup} {wind : Option Speed} (hl : LastTemperature gs t wind) {n : Int} (hn : tenths t.t = some n)
    (hi : imperial = false ∨ -600 ≤ n) : -250 < r.perceivedTemperature := by
  obtain ⟨b, -, x, u, k, f1, fv, f2, f3, f4, -, f6, -, f8⟩ := summary_felt hp hm h hl hn
  obtain ⟨p, q, e⟩ := shown_near f2 f3 imperial
  rw [q] at f8
  obtain rfl := Option.some.inj f8
  have key := abs_le.mp (near_inUnit e f4)
  have b1 : (-999 : ℝ) ≤ n := by exact_mod_cast (by have := abs_lt.mp b; omega : -999 ≤ n)
  have low : imperial = false ∧ -248 ≤ x ∨ -154.7 ≤ x := by
    cases f1 with
    | heat h1 =>
      right
      have c1 : (270 : ℝ) ≤ n := by exact_mod_cast h1
      have c2 : (n : ℝ) - 4 ≤ k := by exact_mod_cast f6 h1
      have f4 := abs_le.mp f4
      norm_num
      linarith
    | @chill v h1 h2 h3 =>
      have w := (windChillOf_range h1 (show 4 ≤ v by linarith) (fv v h2)).1
      rcases hi with hi | hi
      · left
        refine ⟨hi, ?_⟩
        norm_num at w ⊢
        linarith
      · right
        have : (-600 : ℝ) ≤ n := by exact_mod_cast hi
        norm_num at w ⊢
        linarith
    | air =>
      right
      norm_num
      linarith
  have : (-250 : ℝ) < r.perceivedTemperature := by
    rcases low with ⟨hi, lo⟩ | lo
    · subst hi
      simp only [inUnit, Bool.false_eq_true, if_false] at key
      linarith
    · unfold inUnit at key
      norm_num at lo
      cases imperial
      · simp only [Bool.false_eq_true, if_false] at key
        linarith
      · simp only [if_true] at key
        linarith
  exact_mod_cast this

end Metaf.Props

/-! ### Examples -/

namespace Metaf.Props

open Metaf.Spec
open Metaf.Summary

attribute [local instance] ieeePow

/-- A report of minus 5 degrees with wind of 20 knots. -/
def coldText : Str := c!"METAR ZZZZ 041115Z 24020KT 9999 M05/M08 Q1013="

set_option maxRecDepth 4000 in
theorem coldText_groups : ∃ gs, Gives coldText .METAR gs ∧
    LastTemperature gs { t := ⟨some (-5), true, false⟩, dp := ⟨some (-8), true, false⟩ } (some ⟨some 20, .KNOTS⟩) := by
  obtain ⟨gs, hg⟩ := gives_of (report := coldText) (type := .METAR) (by kernel_rfl)
  refine ⟨gs, hg, ?_⟩
  obtain ⟨r, hr, -, -, rfl⟩ := hg
  have h : (Parser.parse coldText).map (fun r =>
      ((beforeTrend (r.groups.map (·.group)))[5]?.bind temperatureGroupOf,
        lastOf (fun g => (surfaceWind g).map (·.wSpeed)) ((beforeTrend (r.groups.map (·.group))).take 5),
        ((beforeTrend (r.groups.map (·.group))).drop 6).all fun g => (temperatureGroupOf g).isNone)) =
      .ok (some { t := ⟨some (-5), true, false⟩, dp := ⟨some (-8), true, false⟩ }, some ⟨some 20, .KNOTS⟩, true) := by
    kernel_rfl
  rw [show Parser.parse coldText = .ok r from hr] at h
  injection h with h
  injection h with h1 h
  injection h with h2 h3
  constructor
  generalize beforeTrend (r.groups.map (·.group)) = l at h1 h2 h3 ⊢
  cases hl : l[5]? with
  | none => rw [hl] at h1; cases h1
  | some g =>
    rw [hl] at h1
    obtain ⟨hlt, hl⟩ := List.getElem?_eq_some_iff.mp hl
    refine ⟨l.take 5, g, l.drop 6, ?_, h1, ?_, h2.symm⟩
    · rw [← hl, ← List.drop_eq_getElem_cons hlt, List.take_append_drop]
    · intro g' hg'
      have := List.all_eq_true.mp h3 g' hg'
      simpa using this

/-- Example: the report has a summary, and minus 5 degrees with 20 knots feel colder than the air is. -/
example : ∃ r, getCurrentWeather coldText [] 2020 3 14 false = .ok r ∧
    |(r.perceivedTemperature : ℝ) - windChillOf ((-50 : ℤ) / 10) ((kmhExact 20 .KNOTS : Rat) : ℝ)| ≤ 111 / 100 := by
  obtain ⟨gs, hg, hl⟩ := coldText_groups
  obtain ⟨r, hr⟩ := C92_total powNear_ieee.powTen powNear_ieee.powSmall coldText [] 2020 3 14 false
  refine ⟨r, hr, ?_⟩
  obtain ⟨x, hx, he⟩ := C142_felt powNear_ieee hg hr hl (n := -50) rfl
  cases hx with
  | heat h => norm_num at h
  | chill h1 h2 h3 =>
    obtain rfl := Option.some.inj h2
    simpa [inUnit] using he
  | air h1 h2 =>
    have := h2 (by norm_num) _ rfl
    norm_num [kmhExact, mpsPer] at this

end Metaf.Props

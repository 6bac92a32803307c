import Verif.Props.Summary

/-!
C92: a summary of the current weather (`/repo/examples/summary.cpp`) is made of every two texts: no
conversion to a whole number is out of range. On `std::pow` it is assumed that powers of ten and the power
of the wind chill formula are of the magnitude they should be.
-/

set_option linter.unusedSectionVars false

namespace Metaf.Props

open Metaf Metaf.Spec Metaf.Summary

variable [FloatIeee]

/-! ### Magnitude of results -/

/-- All values are less than the range of `int`. -/
def Small (v : Option Rat) : Prop := ∀ q, v = some q → |q| ≤ 2100000000

theorem f64_bound {x : Rat} {N : Nat} (h : |x| ≤ N) (hN : N ≤ 2 ^ 53) : |f64 x| ≤ N := by
  have h' := abs_le.mp h
  have h1 := FloatSem.f64_mono _ _ h'.2
  have h2 := FloatSem.f64_mono _ _ h'.1
  have e1 : f64 (N : Rat) = N := f64_nat hN
  have e2 : f64 (-(N : Rat)) = -(N : Rat) := by
    have := FloatSem.f64_int (-(N : Int)) (by rw [abs_neg, abs_of_nonneg (by positivity)]; exact_mod_cast hN)
    push_cast at this
    exact this
  rw [e1] at h1
  rw [e2] at h2
  exact abs_le.mpr ⟨h2, h1⟩

theorem f32_bound {x B : Rat} (h : |x| ≤ B) (hB : B ≤ 2 ^ 50) : |f32 x| ≤ B + B / 2 ^ 24 + 1 := by
  have h1 := f32_rel (x := x) (le_trans h (le_trans hB (by norm_num)))
  have h2 : |f32 x| ≤ |f32 x - x| + |x| := by
    have := abs_add_le (f32 x - x) x
    rwa [sub_add_cancel] at this
  have h3 : |x| / 2 ^ 24 ≤ B / 2 ^ 24 := div_le_div_of_nonneg_right h (by positivity)
  have h4 : (1 : Rat) / 2 ^ 100 ≤ 1 := by norm_num
  linarith

theorem mulD_bound {a b : Rat} {A B : Nat} (ha : |a| ≤ A) (hb : |b| ≤ B) (h : A * B ≤ 2 ^ 53) :
    |Temperature.mulD a b| ≤ ((A * B : Nat) : Rat) := by
  refine f64_bound ?_ h
  rw [abs_mul]
  push_cast
  exact mul_le_mul ha hb (abs_nonneg _) (by positivity)

theorem addD_bound {a b : Rat} {A B : Nat} (ha : |a| ≤ A) (hb : |b| ≤ B) (h : A + B ≤ 2 ^ 53) :
    |Temperature.addD a b| ≤ ((A + B : Nat) : Rat) := by
  refine f64_bound ?_ h
  push_cast
  exact le_trans (abs_add_le _ _) (by linarith)

theorem lit_bound {x : Rat} (N : Nat) (h : |x| ≤ N) (hN : N ≤ 2 ^ 53) : |f64 x| ≤ N := f64_bound h hN

theorem round_bound {q : Rat} {N : Nat} (h : |q| ≤ N) : |roundHalfAway q| ≤ N + 1 := by
  have h' := abs_le.mp h
  unfold roundHalfAway
  have key : ∀ x : Rat, 0 ≤ x → x ≤ N → |(x + 1 / 2).floor| ≤ (N : Int) + 1 := by
    intro x h0 h1
    rw [show (x + 1 / 2).floor = ⌊x + 1 / 2⌋ from rfl, abs_le]
    constructor
    · have : 0 ≤ ⌊x + 1 / 2⌋ := Int.floor_nonneg.mpr (by linarith)
      omega
    · have : ⌊x + 1 / 2⌋ < (N : Int) + 1 := Int.floor_lt.mpr (by push_cast; linarith)
      omega
  split
  · rw [abs_neg]
    exact key _ (by linarith) (by linarith)
  · exact key _ (by linarith) (by linarith)

/-! ### Conversion of numbers -/

theorem toInt_small {q : Rat} (h : |q| ≤ 2100000000) : ∃ n, toInt q = .ok n := by
  have h' := abs_le.mp h
  unfold toInt
  simp only
  rw [if_pos]
  · exact ⟨_, rfl⟩
  have key : ∀ x : Rat, 0 ≤ x → x ≤ 2100000000 → 0 ≤ x.floor ∧ x.floor ≤ 2100000000 := by
    intro x h0 h1
    rw [show x.floor = ⌊x⌋ from rfl]
    exact ⟨Int.floor_nonneg.mpr h0, by
      have : ⌊x⌋ < 2100000001 := Int.floor_lt.mpr (by push_cast; linarith)
      omega⟩
  split
  · have := key (-q) (by linarith) (by linarith)
    omega
  · have := key q (by linarith) (by linarith)
    omega

theorem assign_small {v : Option Rat} {old : Int} (h : Small v) : ∃ n, assign v old = .ok n := by
  cases v with
  | none => exact ⟨old, rfl⟩
  | some q => exact toInt_small (h q rfl)

theorem within_small {x y : Rat} (h : Within x y) (h0 : 0 ≤ y) (hy : y ≤ 10000000) : |x| ≤ 11000000 := by
  unfold Within at h
  have := abs_le.mp h
  rw [abs_le]
  norm_num at *
  constructor <;> linarith

theorem speed_small {s : Speed} (h : ∀ n, s.speedValue = some n → n < 1000) (u : SpeedUnit) :
    Small (s.toUnit u) := by
  obtain ⟨v, w⟩ := s
  cases v with
  | none => intro q hq; cases hq
  | some v =>
    have hv : v < 1000 := h v rfl
    obtain ⟨r, hr, hw⟩ := C31_speed_value v (by omega) w u
    intro q hq
    rw [hr] at hq
    obtain rfl := Option.some.inj hq
    have h1 : (v : Rat) ≤ 1000 := by exact_mod_cast hv.le
    have h0 : (0 : Rat) ≤ v := by positivity
    refine le_trans (within_small hw ?_ ?_) (by norm_num)
    · cases w <;> cases u <;> simp only [mpsPer] <;> positivity
    · cases w <;> cases u <;> simp only [mpsPer] <;> norm_num <;> linarith

theorem distance_small {d : Distance} (h : ∀ n, d.dist = some n →
    n ≤ 10000 ∨ (d.distUnit = .STATUTE_MILES ∧ n ≤ 2000000)) {u : DistanceUnit} (hu : u ≠ .FEET) :
    Small (d.toUnit u) := by
  obtain ⟨m, v, w⟩ := d
  cases v with
  | none => intro q hq; cases hq
  | some v =>
    have hv := h v rfl
    obtain ⟨r, hr, hw⟩ := C31_distance_value m v (by omega) w u
    intro q hq
    rw [hr] at hq
    obtain rfl := Option.some.inj hq
    have h0 : (0 : Rat) ≤ v := by positivity
    refine le_trans (within_small hw ?_ ?_) (by norm_num)
    · cases w <;> cases u <;> simp only [metersPer, storedAmount] <;> positivity
    · rcases hv with hv | ⟨rfl, hv⟩
      · have h1 : (v : Rat) ≤ 10000 := by exact_mod_cast hv
        cases w <;> cases u <;> simp only [metersPer, storedAmount] <;> norm_num <;> linarith
      · have h1 : (v : Rat) ≤ 2000000 := by exact_mod_cast hv
        cases u <;> simp only [metersPer, storedAmount] <;> norm_num <;> linarith

theorem pressure_small {p : Pressure} (h : ∀ q, p.pressureValue = some q → 0 ≤ q ∧ q ≤ 10000)
    (u : PressureUnit) : ∀ q, p.toUnit u = some q → |q| ≤ 11000000 := by
  obtain ⟨v, w⟩ := p
  cases v with
  | none => intro q hq; cases hq
  | some v =>
    obtain ⟨h0, h1⟩ := h v rfl
    obtain ⟨r, hr, hw⟩ := C31_pressure_value v h0 (le_trans h1 (by norm_num)) w u
    intro q hq
    rw [hr] at hq
    obtain rfl := Option.some.inj hq
    refine within_small hw ?_ ?_
    · cases w <;> cases u <;> simp only [hpaPer] <;> positivity
    · cases w <;> cases u <;> simp only [hpaPer] <;> norm_num <;> linarith

/-! ### Temperature -/

theorem tenth_small : |Temperature.preciseValuePrecision| ≤ 1 := by
  rw [tenth_eq]; norm_num [abs_le]

theorem temperature_small {t : Temperature} (h : ∀ v, t.tempValue = some v → |v| ≤ 1100000000)
    (u : TemperatureUnit) : Small (t.toUnit u) := by
  obtain ⟨v, f, p⟩ := t
  cases v with
  | none => intro q hq; cases hq
  | some v =>
    have hv : |v| ≤ 1100000000 := h v rfl
    have hv' : |(v : Rat)| ≤ 1100000000 := by exact_mod_cast hv
    have b1 := f32_bound hv' (by norm_num)
    have hc : ∃ c, (⟨some v, f, p⟩ : Temperature).temperature = some c ∧ |c| ≤ 1100000300 := by
      cases p
      · exact ⟨_, rfl, le_trans b1 (by norm_num)⟩
      · refine ⟨_, rfl, ?_⟩
        have : |f32 (v : Rat) * Temperature.preciseValuePrecision| ≤ 1100000100 := by
          rw [abs_mul]
          have := mul_le_mul b1 tenth_small (abs_nonneg _) (by norm_num)
          norm_num at this
          linarith
        exact le_trans (f32_bound this (by norm_num)) (by norm_num)
    obtain ⟨c, hc, hb⟩ := hc
    intro q hq
    unfold Temperature.toUnit at hq
    rw [hc] at hq
    cases u with
    | C =>
      obtain rfl := Option.some.inj hq
      exact le_trans hb (by norm_num)
    | F =>
      obtain rfl := Option.some.inj hq
      have k := f64_near (x := 18 / 10) 2 (near_self _) (by norm_num) (by norm_num)
      have k' := abs_le.mp k
      have h1 : |c * f64 (18 / 10)| ≤ ((1980010000 : Nat) : Rat) := by
        rw [abs_mul]
        have : |f64 (18 / 10)| ≤ 1800001 / 1000000 := by
          rw [abs_le]; norm_num at *; constructor <;> linarith
        refine le_trans (mul_le_mul hb this (abs_nonneg _) (by norm_num)) (by norm_num)
      have h2 := f64_bound h1 (by norm_num)
      have h3 : |f64 (c * f64 (18 / 10)) + 32| ≤ ((1980010032 : Nat) : Rat) := by
        refine le_trans (abs_add_le _ _) ?_
        push_cast at *
        norm_num
        linarith
      have h4 := f64_bound h3 (by norm_num)
      refine le_trans (f32_bound h4 (by norm_num)) (by norm_num)

theorem tenths_small {t : Temperature} (h : ∀ n, tenths t = some n → |n| < 1000) (u : TemperatureUnit) :
    Small (t.toUnit u) := by
  refine temperature_small (fun v hv => ?_) u
  have : tenths t = some (if t.precise then v else 10 * v) := by simp [tenths, hv]
  have := h _ this
  rw [abs_lt] at this
  rw [abs_le]
  split at this <;> omega

theorem ofFloat_small {x : Rat} (h : |x| ≤ 109999999) :
    ∀ v, (Temperature.ofFloat x).tempValue = some v → |v| ≤ 1100000000 := by
  intro v hv
  obtain rfl := Option.some.inj hv
  have h1 : |x * 10| ≤ ((1099999990 : Nat) : Rat) := by
    rw [abs_mul]; norm_num; linarith
  have := round_bound (f64_bound h1 (by norm_num))
  exact le_trans this (by norm_num)

theorem heatIndexC_bound {t r : Rat} (ht : |t| ≤ ((101 : Nat) : Rat)) (hr : |r| ≤ ((100 : Nat) : Rat)) :
    |Temperature.heatIndexC t r| ≤ 105000000 := by
  unfold Temperature.heatIndexC
  have c1 : |f64 (-878469475556 / 100000000000)| ≤ ((9 : Nat) : Rat) := f64_bound (by norm_num [abs_le]) (by norm_num)
  have c2 : |f64 (161139411 / 100000000)| ≤ ((2 : Nat) : Rat) := f64_bound (by norm_num [abs_le]) (by norm_num)
  have c3 : |f64 (233854883889 / 100000000000)| ≤ ((3 : Nat) : Rat) := f64_bound (by norm_num [abs_le]) (by norm_num)
  have c4 : |f64 (-14611605 / 100000000)| ≤ ((1 : Nat) : Rat) := f64_bound (by norm_num [abs_le]) (by norm_num)
  have c5 : |f64 (-12308094 / 1000000000)| ≤ ((1 : Nat) : Rat) := f64_bound (by norm_num [abs_le]) (by norm_num)
  have c6 : |f64 (-164248277778 / 10000000000000)| ≤ ((1 : Nat) : Rat) := f64_bound (by norm_num [abs_le]) (by norm_num)
  have c7 : |f64 (2211732 / 1000000000)| ≤ ((1 : Nat) : Rat) := f64_bound (by norm_num [abs_le]) (by norm_num)
  have c8 : |f64 (72546 / 100000000)| ≤ ((1 : Nat) : Rat) := f64_bound (by norm_num [abs_le]) (by norm_num)
  have c9 : |f64 (-3582 / 1000000000)| ≤ ((1 : Nat) : Rat) := f64_bound (by norm_num [abs_le]) (by norm_num)
  have m2 := mulD_bound c2 ht (by norm_num)
  have m3 := mulD_bound c3 hr (by norm_num)
  have m4 := mulD_bound (mulD_bound c4 ht (by norm_num)) hr (by norm_num)
  have m5 := mulD_bound (mulD_bound c5 ht (by norm_num)) ht (by norm_num)
  have m6 := mulD_bound (mulD_bound c6 hr (by norm_num)) hr (by norm_num)
  have m7 := mulD_bound (mulD_bound (mulD_bound c7 ht (by norm_num)) ht (by norm_num)) hr (by norm_num)
  have m8 := mulD_bound (mulD_bound (mulD_bound c8 ht (by norm_num)) hr (by norm_num)) hr (by norm_num)
  have m9 := mulD_bound (mulD_bound (mulD_bound (mulD_bound c9 ht (by norm_num)) ht (by norm_num)) hr
    (by norm_num)) hr (by norm_num)
  have s := addD_bound (addD_bound (addD_bound (addD_bound (addD_bound (addD_bound (addD_bound (addD_bound
    c1 m2 (by norm_num)) m3 (by norm_num)) m4 (by norm_num)) m5 (by norm_num)) m6 (by norm_num)) m7 (by norm_num))
    m8 (by norm_num)) m9 (by norm_num)
  exact le_trans s (by norm_num)

theorem none_small {t : Temperature} (h : t = {}) : ∀ v, t.tempValue = some v → |v| ≤ 1100000000 := by
  subst h
  intro v hv
  cases hv

theorem celsius_small {t : Temperature} (h : ∀ n, tenths t = some n → |n| < 1000) {c : Rat}
    (hc : t.toUnit .C = some c) : |c| ≤ ((101 : Nat) : Rat) := by
  cases ht : tenths t with
  | none =>
    obtain ⟨v, f, p⟩ := t
    cases v
    · cases hc
    · simp [tenths] at ht
  | some n =>
    have hn : |n| ≤ 1000 := (h n ht).le
    rw [temperature_eq ht hn] at hc
    obtain rfl := Option.some.inj hc
    exact_mod_cast value_bound hn

/-- The heat index in tenths of a degree fits an `int`. -/
theorem heatIndex_small {t d : Temperature} (h : ∀ n, tenths t = some n → |n| < 1000) :
    ∀ v, (Temperature.heatIndex t d).tempValue = some v → |v| ≤ 1100000000 := by
  unfold Temperature.heatIndex
  split
  · exact none_small rfl
  · rename_i rh _
    unfold Temperature.heatIndexRh
    split
    · exact none_small rfl
    · rename_i c hc
      split
      · exact none_small rfl
      · split
        · exact none_small rfl
        · rename_i hrh
          simp only [Bool.or_eq_true, decide_eq_true_eq, not_or, not_lt] at hrh
          refine ofFloat_small ?_
          have hr : |rh| ≤ ((100 : Nat) : Rat) := by
            rw [abs_le]; push_cast; constructor <;> linarith [hrh.1, hrh.2]
          refine le_trans (f32_bound (heatIndexC_bound (celsius_small h hc) hr) (by norm_num)) (by norm_num)

/-- What is assumed of `std::pow` in the formula of the wind chill: the power with the exponent 0.16 of a
number from 1 to 4000 is at most 4000. -/
def PowSmall : Prop := ∀ v : Rat, 1 ≤ v → v ≤ 4000 → |FloatSem.pow v (f64 (16 / 100))| ≤ 4000

/-- The wind chill in tenths of a degree fits an `int`. -/
theorem windChill_small (hp : PowSmall) {t : Temperature} {w : Speed}
    (h : ∀ n, tenths t = some n → |n| < 1000) (hw : ∀ n, w.speedValue = some n → n < 1000) :
    ∀ v, (Temperature.windChill t w).tempValue = some v → |v| ≤ 1100000000 := by
  unfold Temperature.windChill
  split
  · exact none_small rfl
  · rename_i c hc
    split
    · exact none_small rfl
    · split
      · exact none_small rfl
      · rename_i s hs
        split
        · exact none_small rfl
        · rename_i hlow
          have hs4 : s ≤ 4000 := by
            obtain ⟨v, u⟩ := w
            cases v with
            | none => cases hs
            | some v =>
              have hv : v < 1000 := hw v rfl
              obtain ⟨r, hr, hwi⟩ := C31_speed_value v (by omega) u .KILOMETERS_PER_HOUR
              rw [hs] at hr
              obtain rfl := Option.some.inj hr
              have h1 : (v : Rat) ≤ 999 := by exact_mod_cast (by omega : v ≤ 999)
              unfold Within at hwi
              have := (abs_le.mp hwi).2
              cases u <;> simp only [mpsPer] at this <;> norm_num at this <;> linarith
          have hs1 : 1 ≤ s := by
            have := FloatSem.f64_mono 1 (48 / 10) (by norm_num)
            have e : f64 (1 : Rat) = 1 := by simpa using f64_nat (n := 1) (by norm_num)
            rw [e] at this
            linarith
          have hp' : |FloatSem.pow s (f64 (16 / 100))| ≤ ((4000 : Nat) : Rat) := by
            exact_mod_cast hp s hs1 hs4
          have ht := celsius_small h hc
          have c1 : |f64 (1312 / 100)| ≤ ((14 : Nat) : Rat) := f64_bound (by norm_num [abs_le]) (by norm_num)
          have c2 : |f64 (6215 / 10000)| ≤ ((1 : Nat) : Rat) := f64_bound (by norm_num [abs_le]) (by norm_num)
          have c3 : |f64 (1137 / 100)| ≤ ((12 : Nat) : Rat) := f64_bound (by norm_num [abs_le]) (by norm_num)
          have c4 : |f64 (3965 / 10000)| ≤ ((1 : Nat) : Rat) := f64_bound (by norm_num [abs_le]) (by norm_num)
          have m1 := addD_bound c1 (mulD_bound c2 ht (by norm_num)) (by norm_num)
          have m2 := mulD_bound c3 hp' (by norm_num)
          have m3 := mulD_bound (mulD_bound c4 ht (by norm_num)) hp' (by norm_num)
          refine ofFloat_small ?_
          generalize Temperature.addD (f64 (1312 / 100)) (Temperature.mulD (f64 (6215 / 10000)) c) = x at *
          generalize Temperature.mulD (f64 (1137 / 100)) (FloatSem.pow s (f64 (16 / 100))) = y at *
          have d : |f64 (x - y)| ≤ ((1000000 : Nat) : Rat) := by
            refine f64_bound ?_ (by norm_num)
            refine le_trans (abs_sub _ _) ?_
            push_cast at *
            linarith
          have s := addD_bound d m3 (by norm_num)
          exact le_trans (f32_bound s (by norm_num)) (by norm_num)

theorem humidity_reported (hp : PowTen) {t d : Temperature} (h : ∀ n, tenths t = some n → |n| < 1000)
    (h' : ∀ n, tenths d = some n → |n| < 1000) {q : Rat} (hq : Temperature.relativeHumidity t d = some q) :
    0 < q ∧ q ≤ 100 := by
  have ha := C28_available t d
  rw [hq] at ha
  have ha : t.isReported = true ∧ d.isReported = true := by simpa using ha.symm
  have key : ∀ t : Temperature, t.isReported = true → ∃ n, tenths t = some n := by
    rintro ⟨v, f, p⟩ hv
    cases v with
    | none => cases hv
    | some v => exact ⟨_, rfl⟩
  obtain ⟨n, hn⟩ := key t ha.1
  obtain ⟨m, hm⟩ := key d ha.2
  obtain ⟨r, hr, h0, h1⟩ := C28_range hp t d n m hn hm (h n hn).le (h' m hm).le
  rw [hq] at hr
  obtain rfl := Option.some.inj hr
  exact ⟨h0, h1⟩

theorem humidity_small (hp : PowTen) {t d : Temperature} (h : ∀ n, tenths t = some n → |n| < 1000)
    (h' : ∀ n, tenths d = some n → |n| < 1000) : Small (Temperature.relativeHumidity t d) := by
  intro q hq
  obtain ⟨h0, h1⟩ := humidity_reported hp h h' hq
  rw [abs_of_nonneg h0.le]
  linarith

/-! ### The loops -/

theorem keyword_total (imperial : Bool) (k : KeywordGroup) (r : CurrentWeather) :
    ∃ r', keywordGroup imperial k r = .ok r' := by
  unfold keywordGroup
  split
  · have hs : Small (Distance.cavokVisibility.toUnit (visibilityUnit imperial)) :=
      distance_small (fun n hn => by cases hn; exact Or.inl (by decide))
        (by cases imperial <;> decide)
    obtain ⟨v, hv⟩ := assign_small (old := r.visibility) hs
    rw [hv]
    exact ⟨_, rfl⟩
  · exact ⟨_, rfl⟩

theorem wind_total (imperial : Bool) {w : WindGroup} (h : Modest (.wind w)) (r : CurrentWeather) :
    ∃ r', windValues imperial w r = .ok r' := by
  unfold windValues
  obtain ⟨a, ha⟩ := assign_small (old := r.windSpeed) (speed_small h.2.1 (speedUnit imperial))
  obtain ⟨b, hb⟩ := assign_small (old := r.gustSpeed) (speed_small h.2.2 (speedUnit imperial))
  rw [ha, hb]
  exact ⟨_, rfl⟩

theorem visibility_small {imperial : Bool} {v : VisibilityGroup} (h : Modest (.visibility v)) :
    Small (v.visibility.toUnit (visibilityUnit imperial)) := by
  unfold VisibilityGroup.visibility
  split
  · intro q hq; cases hq
  · exact distance_small h (by cases imperial <;> decide)

theorem temperature_total (h1 : PowTen) (h2 : PowSmall) (imperial : Bool) {w : Speed}
    (hw : ∀ n, w.speedValue = some n → n < 1000) {t : TemperatureGroup} (h : Modest (.temperature t))
    (r : CurrentWeather) : ∃ r', temperatureGroup imperial w t r = .ok r' := by
  unfold temperatureGroup
  have s := tenths_small h.1 (temperatureUnit imperial)
  obtain ⟨a, ha⟩ := assign_small (old := r.airTemperature) s
  obtain ⟨b, hb⟩ := assign_small (old := r.perceivedTemperature) s
  have hr : Small t.relativeHumidity := humidity_small h1 h.1 h.2
  obtain ⟨c, hc⟩ := assign_small (old := r.relativeHumidity) hr
  obtain ⟨d, hd⟩ := assign_small (old := b)
    (temperature_small (windChill_small h2 h.1 hw) (temperatureUnit imperial))
  obtain ⟨e, he⟩ := assign_small (old := d)
    (temperature_small (heatIndex_small (d := t.dp) h.1) (temperatureUnit imperial))
  simp only [ha, hb, hc]
  refine ⟨{ r with airTemperature := a, perceivedTemperature := e, relativeHumidity := c }, ?_⟩
  show (do
    let perceived ← assign ((Temperature.windChill t.t w).toUnit (temperatureUnit imperial)) b
    let perceived ← assign ((Temperature.heatIndex t.t t.dp).toUnit (temperatureUnit imperial)) perceived
    .ok { r with airTemperature := a, perceivedTemperature := perceived, relativeHumidity := c }
      : Res CurrentWeather) = _
  rw [hd]
  show (do
    let perceived ← assign ((Temperature.heatIndex t.t t.dp).toUnit (temperatureUnit imperial)) d
    .ok { r with airTemperature := a, perceivedTemperature := perceived, relativeHumidity := c }
      : Res CurrentWeather) = _
  rw [he]
  rfl

theorem pressure_total (imperial : Bool) {p : PressureGroup} (h : Modest (.pressure p)) (r : CurrentWeather) :
    ∃ r', pressureGroup imperial p r = .ok r' := by
  unfold pressureGroup
  split
  · split
    · exact ⟨_, rfl⟩
    · rename_i q hq
      have hs := pressure_small h _ q hq
      have : ∃ v, toInt (if pressureUnit imperial = .INCHES_HG then f32 (q * 100) else q) = .ok v := by
        refine toInt_small ?_
        split
        · have : |q * 100| ≤ 1100000000 := by rw [abs_mul]; norm_num; linarith
          exact le_trans (f32_bound this (by norm_num)) (by norm_num)
        · exact le_trans hs (by norm_num)
      obtain ⟨v, hv⟩ := this
      rw [hv]
      exact ⟨_, rfl⟩
  · exact ⟨_, rfl⟩

theorem metarGroup_total (h1 : PowTen) (h2 : PowSmall) (imperial : Bool) {g : Group} (h : Modest g) {w : Speed}
    (hw : ∀ n, w.speedValue = some n → n < 1000) (r : CurrentWeather) :
    ∃ x, metarGroup imperial g w r = .ok x ∧ ∀ n, x.1.speedValue = some n → n < 1000 := by
  cases g with
  | keyword k =>
    obtain ⟨r', hr⟩ := keyword_total imperial k r
    simp only [metarGroup, hr]
    exact ⟨_, rfl, hw⟩
  | wind x =>
    simp only [metarGroup]
    split
    · obtain ⟨r', hr⟩ := wind_total imperial h r
      rw [hr]
      exact ⟨_, rfl, h.2.1⟩
    · exact ⟨_, rfl, hw⟩
  | visibility v =>
    simp only [metarGroup]
    split
    · obtain ⟨n, hn⟩ := assign_small (old := r.visibility) (visibility_small (imperial := imperial) h)
      rw [hn]
      exact ⟨_, rfl, hw⟩
    · exact ⟨_, rfl, hw⟩
  | weather x =>
    simp only [metarGroup]
    split <;> exact ⟨_, rfl, hw⟩
  | temperature t =>
    obtain ⟨r', hr⟩ := temperature_total h1 h2 imperial hw h r
    simp only [metarGroup, hr]
    exact ⟨_, rfl, hw⟩
  | pressure p =>
    obtain ⟨r', hr⟩ := pressure_total imperial h r
    simp only [metarGroup, hr]
    exact ⟨_, rfl, hw⟩
  | _ => exact ⟨_, rfl, hw⟩

theorem metarLoop_total (h1 : PowTen) (h2 : PowSmall) (imperial : Bool) (xs : List GroupInfo)
    (h : ∀ x ∈ xs, Modest x.group) (w : Speed) (hw : ∀ n, w.speedValue = some n → n < 1000)
    (r : CurrentWeather) : ∃ r', metarLoop imperial xs w r = .ok r' := by
  induction xs generalizing w r with
  | nil => exact ⟨_, rfl⟩
  | cons x xs ih =>
    unfold metarLoop
    split
    · exact ⟨_, rfl⟩
    · obtain ⟨y, hy, hyw⟩ := metarGroup_total h1 h2 imperial (h x (List.mem_cons_self ..)) hw r
      rw [hy]
      exact ih (fun z hz => h z (List.mem_cons_of_mem _ hz)) _ hyw _

theorem tafGroup_total (imperial : Bool) {g : Group} (h : Modest g) (r : CurrentWeather) :
    ∃ x, tafGroup imperial g r = .ok x := by
  cases g with
  | keyword k => exact keyword_total imperial k r
  | wind x => exact wind_total imperial h r
  | visibility v =>
    obtain ⟨n, hn⟩ := assign_small (old := r.visibility) (visibility_small (imperial := imperial) h)
    simp only [tafGroup, hn]
    exact ⟨_, rfl⟩
  | _ => exact ⟨_, rfl⟩

theorem tafLoop_total (imperial : Bool) (xs : List GroupInfo) (h : ∀ x ∈ xs, Modest x.group) (n : Nat)
    (r : CurrentWeather) : ∃ r', tafLoop imperial xs n r = .ok r' := by
  induction xs generalizing n r with
  | nil => exact ⟨_, rfl⟩
  | cons x xs ih =>
    have ih' := ih fun z hz => h z (List.mem_cons_of_mem _ hz)
    unfold tafLoop
    split
    · split
      · exact ⟨_, rfl⟩
      · exact ih' _ _
    · obtain ⟨y, hy⟩ := tafGroup_total imperial (h x (List.mem_cons_self ..)) r
      rw [hy]
      exact ih' _ _

theorem minMax_small {xs : List GroupInfo} (h : ∀ x ∈ xs, Modest x.group) {t : Temperature × Temperature}
    (ht : (∀ n, tenths t.1 = some n → |n| < 1000) ∧ ∀ n, tenths t.2 = some n → |n| < 1000) :
    (∀ n, tenths (minMaxLoop xs t).1 = some n → |n| < 1000) ∧
      ∀ n, tenths (minMaxLoop xs t).2 = some n → |n| < 1000 := by
  induction xs generalizing t with
  | nil => exact ht
  | cons x xs ih =>
    have ih' := @ih fun z hz => h z (List.mem_cons_of_mem _ hz)
    unfold minMaxLoop
    split
    · rename_i g hg
      have := h x (List.mem_cons_self ..)
      rw [hg] at this
      exact ih' this
    · exact ih' ht

theorem forecast_total (imperial : Bool) {xs : List GroupInfo} (h : ∀ x ∈ xs, Modest x.group)
    (r : CurrentWeather) : ∃ r', temperatureForecastFromTaf r xs imperial = .ok r' := by
  unfold temperatureForecastFromTaf
  obtain ⟨s1, s2⟩ := minMax_small h (t := ({}, {}))
    ⟨(fun n hn => nomatch hn), (fun n hn => nomatch hn)⟩
  obtain ⟨a, ha⟩ := assign_small (old := r.airTemperatureLow) (tenths_small s1 (temperatureUnit imperial))
  obtain ⟨b, hb⟩ := assign_small (old := r.airTemperatureHigh) (tenths_small s2 (temperatureUnit imperial))
  simp only [ha, hb]
  exact ⟨_, rfl⟩

theorem parsed_modest (report : Str) (type : ReportType) :
    ∃ gs, parseReport report type = .ok gs ∧ ∀ x ∈ gs, Modest x.group := by
  rcases parseReport_cases report type with ⟨gs, hg, hp⟩ | ⟨-, hp⟩
  · exact ⟨gs, hp, fun x hx => gives_modest hg _ (List.mem_map_of_mem hx)⟩
  · exact ⟨[], hp, by simp⟩

/-- C92: the summary is made of every two texts, for every date and both systems of units. -/
theorem C92_total (h1 : PowTen) (h2 : PowSmall) (metar taf : Str) (y m d : Int) (imperial : Bool) :
    ∃ r, getCurrentWeather metar taf y m d imperial = .ok r := by
  obtain ⟨gs, hg, hm⟩ := parsed_modest metar .METAR
  obtain ⟨ts, ht, hm'⟩ := parsed_modest taf .TAF
  unfold getCurrentWeather
  rw [hg, ht]
  show ∃ r, ((if (!gs.isEmpty) = true then _ else _ : Res CurrentWeather)) = .ok r
  split
  · obtain ⟨r1, hr1⟩ := metarLoop_total h1 h2 imperial gs hm {} (fun n hn => nomatch hn) {}
    rw [show currentWeatherFromMetar gs imperial = .ok r1 from hr1]
    exact forecast_total imperial hm' _
  · obtain ⟨r1, hr1⟩ := tafLoop_total imperial ts hm' 0 {}
    rw [show currentWeatherFromTaf ts imperial = .ok r1 from hr1]
    exact forecast_total imperial hm' _

end Metaf.Props

/-! ### The assumptions can be met -/

namespace Metaf.Props

open Metaf Metaf.Spec Metaf.Summary

attribute [local instance] ieee

/-- The assumption about `std::pow` holds for the `pow` of `ieee`. -/
theorem powSmall_ieee : PowSmall := by
  intro v _ _
  change |(10023 / 10000 : Rat) ^ ⌊1000 * f64 (16 / 100)⌋| ≤ 4000
  have hb := (abs_le.mp (f64_bound (x := 16 / 100) (N := 1) (by norm_num [abs_of_pos]) (by norm_num))).2
  have h1 : ⌊1000 * f64 (16 / 100)⌋ ≤ ((250 * 4 : Nat) : Int) := by
    have h2 : ⌊1000 * f64 (16 / 100)⌋ ≤ ⌊(1000 : Rat)⌋ := Int.floor_mono (by push_cast at hb; linarith)
    norm_num at h2 ⊢
    exact h2
  rw [abs_of_pos (zpow_pos (by norm_num) _)]
  refine le_trans (zpow_le_zpow_right₀ (by norm_num) h1) ?_
  rw [zpow_natCast, pow_mul]
  refine le_trans (pow_le_pow_left₀ (by positivity) (show (10023 / 10000 : Rat) ^ 250 ≤ 2 by norm_num) 4) ?_
  norm_num

/-- Example: texts which are no reports at all, and a date which does not exist. -/
example : ∃ r, getCurrentWeather c!"METAR ZZZZ 999999Z 99999KT M99/M99 A9999" c!"= = /" (-1) 99 (-5) true = .ok r :=
  C92_total powTen_ieee powSmall_ieee _ _ _ _ _ _

end Metaf.Props

import Verif.Props.PageText

/-!
C125: what the page says on the time of a report.
-/

set_option linter.unusedSectionVars false

namespace Metaf.Props

open Metaf Metaf.Spec Metaf.Summary Metaf.Page

variable [FloatIeee]

/-! ### Dates -/

/-- The number the script gives to a day. -/
def dayNumber (d : Date) : Int := makeDay d.year ((d.month : Int) - 1) d.day

theorem dayNumber_eq (d : Date) (h1 : 1 ≤ d.month) (h2 : d.month ≤ 12) :
    dayNumber d = dayFromYear d.year + dayBeforeMonth (isLeap d.year) ((d.month : Int) - 1) + ((d.day : Int) - 1) := by
  unfold dayNumber makeDay
  have e1 : ((d.month : Int) - 1) / 12 = 0 := by omega
  have e2 : ((d.month : Int) - 1) % 12 = (d.month : Int) - 1 := by omega
  rw [e1, e2, Int.add_zero]

theorem isLeap_iff (y : Nat) : isLeap y = true ↔ y % 4 = 0 ∧ (y % 100 ≠ 0 ∨ y % 400 = 0) := by
  unfold isLeap
  simp only [Bool.and_eq_true, Bool.or_eq_true, decide_eq_true_eq]
  omega

theorem year_next (y : Nat) : dayFromYear ((y : Int) + 1) = dayFromYear y + (if isLeap y = true then 366 else 365) := by
  unfold dayFromYear
  by_cases h : isLeap y = true
  · rw [if_pos h]
    rw [isLeap_iff] at h
    omega
  · rw [if_neg h]
    rw [isLeap_iff] at h
    omega

theorem month_next (y m : Nat) (h1 : 1 ≤ m) (h2 : m < 12) :
    dayBeforeMonth (isLeap y) ((m : Int) + 1 - 1) = dayBeforeMonth (isLeap y) ((m : Int) - 1) + daysInMonth y m := by
  have hl := isLeap_iff y
  generalize isLeap (y : Int) = l at *
  unfold dayBeforeMonth daysInMonth
  have : m = 1 ∨ m = 2 ∨ m = 3 ∨ m = 4 ∨ m = 5 ∨ m = 6 ∨ m = 7 ∨ m = 8 ∨ m = 9 ∨ m = 10 ∨ m = 11 := by omega
  cases l
  · have hl' : ¬(y % 4 = 0 ∧ (y % 100 ≠ 0 ∨ y % 400 = 0)) := fun h => Bool.false_ne_true (hl.mpr h)
    rcases this with rfl | rfl | rfl | rfl | rfl | rfl | rfl | rfl | rfl | rfl | rfl <;>
      first | rfl | (rw [if_neg hl']; rfl)
  · have hl' := hl.mp rfl
    rcases this with rfl | rfl | rfl | rfl | rfl | rfl | rfl | rfl | rfl | rfl | rfl <;>
      first | rfl | (rw [if_pos hl']; rfl)

theorem december (y : Nat) :
    dayBeforeMonth (isLeap y) 11 + 31 = if isLeap y = true then 366 else 365 := by
  cases isLeap (y : Int) <;> rfl

/-- The script numbers the days as a calendar does. -/
theorem dayNumber_calendar : Calendar dayNumber := by
  constructor
  · rfl
  · rintro ⟨y, m, d⟩ ⟨h1, h2, h3, h4⟩
    simp only at h1 h2 h3 h4
    unfold nextDay
    simp only
    split
    · rw [dayNumber_eq _ h1 h2, dayNumber_eq _ h1 h2]
      push_cast
      omega
    · split
      · rename_i h5 h6
        rw [dayNumber_eq _ (by simp) (show m + 1 ≤ 12 by omega), dayNumber_eq _ h1 h2]
        simp only
        have := month_next y m h1 h6
        push_cast
        omega
      · rename_i h5 h6
        have hm : m = 12 := by omega
        subst hm
        rw [dayNumber_eq _ (by simp) (by simp), dayNumber_eq _ h1 h2]
        simp only
        have h7 := year_next y
        have h8 := december y
        have h9 : daysInMonth y 12 = 31 := rfl
        have h10 : dayBeforeMonth (isLeap ((y : Int) + 1)) 0 = 0 := by cases isLeap ((y : Int) + 1) <;> rfl
        rw [show (((1 : Nat) : Int) - 1) = 0 from rfl]
        rw [show (((12 : Nat) : Int) - 1) = 11 from rfl, show (((y + 1 : Nat) : Int)) = (y : Int) + 1 from rfl]
        omega

/-! ### Texts -/

theorem twoDigits_decimal (n : Nat) (h : n < 60) : twoDigits n = decimal 2 n := by
  have : ∀ n < 60, twoDigits (Int.ofNat n) = decimal 2 n := by decide
  exact this n h

theorem clock_text (n : Nat) (h : n < 1440) :
    dateTimeToStr_HH_MM n = decimal 2 (n / 60) ++ c!":" ++ decimal 2 (n % 60) := by
  unfold dateTimeToStr_HH_MM
  rw [← twoDigits_decimal _ (by omega), ← twoDigits_decimal _ (by omega)]
  rfl

theorem duration_text (n : Nat) : timeDifferenceMinutesToString n = durationText n := by
  unfold timeDifferenceMinutesToString durationText
  by_cases h0 : n = 0
  · subst h0; rfl
  · rw [if_neg (by omega), if_neg h0]
    have e1 : (n : Int).tdiv 60 = ((n / 60 : Nat) : Int) := by
      rw [Int.tdiv_eq_ediv_of_nonneg (by omega)]; norm_cast
    have e2 : (n : Int) - ((n / 60 : Nat) : Int) * 60 = ((n % 60 : Nat) : Int) := by omega
    simp only [e1, e2, showInt_text]
    have p1 : (((n / 60 : Nat) : Int) = 0) = (n < 60) := by apply propext; omega
    have p2 : (((n / 60 : Nat) : Int) = 1) = (n / 60 = 1) := by apply propext; omega
    have p3 : (((n % 60 : Nat) : Int) = 0) = (n % 60 = 0) := by apply propext; omega
    have p4 : (((n % 60 : Nat) : Int) = 1) = (n % 60 = 1) := by apply propext; omega
    simp only [p1, p2, p3, p4, ne_eq]
    by_cases h1 : n < 60
    · have h2 : n % 60 = n := by omega
      have h3 : ¬ n % 60 = 0 := by omega
      simp only [h1, h3, not_true_eq_false, false_and, ↓reduceIte, List.nil_append]
      simp only [h2]
    · by_cases h3 : n % 60 = 0
      · simp only [h1, h3, not_true_eq_false, and_false, ↓reduceIte, List.append_nil]
      · simp only [h1, h3, not_false_eq_true, and_self, ↓reduceIte, List.append_assoc]

/-! ### C125 -/

theorem known_nat (n : Nat) : known (n : Int) = some (n : Int) := by
  unfold known
  rw [if_neg (by omega)]

theorem round_near (q : Rat) : (mathRound q : Rat) - q ≤ 1 / 2 ∧ q - mathRound q < 1 / 2 := by
  unfold mathRound
  have h1 : (((q + 1 / 2).floor : Int) : Rat) ≤ q + 1 / 2 := Rat.floor_le _
  have h2 : q + 1 / 2 < (((q + 1 / 2).floor : Int) : Rat) + 1 := by
    exact_mod_cast Rat.lt_floor_add_one _
  constructor <;> linarith

/-- The offset of the time in minutes differs by at most half a minute from the difference of the clocks. -/
theorem offset_near (device : Device) (gmt : Int) :
    |getActualTimeOffset device gmt * 60000 - (device.now + device.zone * 60000 - gmt)| ≤ 30000 := by
  unfold getActualTimeOffset
  obtain ⟨h1, h2⟩ := round_near (((device.now - -device.zone * 60000 - gmt : Int) : Rat) / 60000)
  simp only
  generalize mathRound _ = z at *
  have e : device.now - -device.zone * 60000 - gmt = device.now + device.zone * 60000 - gmt := by omega
  rw [e] at h1 h2
  generalize device.now + device.zone * 60000 - gmt = x at *
  have h3 : (z : Rat) * 60000 ≤ x + 30000 := by
    have : (x : Rat) / 60000 * 60000 = x := by field_simp
    linarith
  have h4 : (x : Rat) < z * 60000 + 30000 := by
    have : (x : Rat) / 60000 * 60000 = x := by field_simp
    linarith
  have h5 : z * 60000 ≤ x + 30000 := by exact_mod_cast h3
  have h6 : x < z * 60000 + 30000 := by exact_mod_cast h4
  rw [abs_le]
  constructor <;> omega

theorem updated_line :
    ∀ {metar taf : Str} {y m d : Int} {imperial : Bool} {r : CurrentWeather},
    getCurrentWeather metar taf y m d imperial = .ok r →
    ∀ (device : Device) (gmt : Int) (text : Str) (lines : List Str),
    currentWeatherToHTML device (adaptCurrentWeather r valueNotSpecified) imperial c!"<br>"
      (getActualTimeOffset device gmt) = .ok text →
    PageLines text lines →
    ∀ (date : Date) (hour minute : Nat), RealDate date → 100 ≤ date.year →
    r.updateYear = date.year → r.updateMonth = date.month → r.updateDay = date.day → r.updateHour = hour →
    r.updateMinute = minute →
    (dayNumber date * 1440 + hour * 60 + minute) * 60000 ≤ gmt →
    ∃ (offset : Int) (age clock : Nat),
      |offset * 60000 - (device.now + device.zone * 60000 - gmt)| ≤ 30000 ∧
      |(age : Int) * 60000 - (gmt - (dayNumber date * 1440 + hour * 60 + minute) * 60000)| < 90000 ∧
      (clock : Int) = (hour * 60 + minute + offset) % 1440 ∧
      linesFrom c!"Updated: " lines = [c!"Updated: " ++ decimal 2 (clock / 60) ++ c!":" ++ decimal 2 (clock % 60) ++
        c!" (" ++ durationText age ++ c!" ago)"] := by
  intro metar taf y m d imperial r h device gmt text lines ht hl date hour minute hd hyear h1 h2 h3 h4 h5 hpast
  rw [html_lines device r imperial _ (weather_known h)] at ht
  obtain rfl := Except.ok.inj ht
  rw [pageLines_unique hl ⟨rfl, lt_all device r imperial _⟩, all_updated]
  have hnear := offset_near device gmt
  generalize getActualTimeOffset device gmt = offset at *
  have hdate : newDate device date.year ((date.month : Int) - 1) date.day hour minute =
      dayNumber date * 1440 + hour * 60 + minute - device.zone := by
    unfold newDate dayNumber
    simp only
    rw [if_neg (by omega)]
  have hage : ∃ age : Nat, (device.now - (dayNumber date * 1440 + hour * 60 + minute - device.zone + offset) *
      60000).tdiv 60000 = age ∧
      |(age : Int) * 60000 - (gmt - (dayNumber date * 1440 + hour * 60 + minute) * 60000)| < 90000 := by
    rw [abs_le] at hnear
    obtain ⟨hn1, hn2⟩ := hnear
    generalize hx : device.now - (dayNumber date * 1440 + hour * 60 + minute - device.zone + offset) * 60000 = x
    have hx1 : -30000 ≤ x := by omega
    by_cases hx0 : 0 ≤ x
    · refine ⟨(x / 60000).toNat, ?_, ?_⟩
      · rw [Int.tdiv_eq_ediv_of_nonneg hx0]; omega
      · rw [abs_lt]; constructor <;> omega
    · refine ⟨0, ?_, ?_⟩
      · have : x.tdiv 60000 = -((-x).tdiv 60000) := by rw [Int.neg_tdiv, Int.neg_neg]
        rw [this, Int.tdiv_eq_ediv_of_nonneg (by omega)]
        omega
      · rw [abs_lt]; constructor <;> omega
  obtain ⟨age, ha, hn⟩ := hage
  refine ⟨offset, age, ((hour * 60 + minute + offset) % 1440).toNat, hnear, hn, by omega, ?_⟩
  unfold updatedPart
  rw [h1, h2, h3, h4, h5]
  simp only [known_nat, hdate, ha]
  have hclock : minuteOfDay device (dayNumber date * 1440 + hour * 60 + minute - device.zone + offset) =
      (((hour * 60 + minute + offset) % 1440).toNat : Int) := by
    unfold minuteOfDay
    omega
  rw [hclock, clock_text _ (by omega), duration_text]
  simp only [List.append_assoc]

/-- C125: if the date and the time of the release are known, there is one line on them. The time shown is that of the
clock of the device at the release, and the duration shown is the time since the release by the clock of the server,
up to one and a half minutes; a wrong time zone or a wrong clock of the device makes no difference. `gmt` is the time
of the server in milliseconds since 1970. (Missing: the date of the release in the summary may be wrong, see
`C125_violated`.) -/
theorem C125_updated_partial : ∃ number, Calendar number ∧
    ∀ {metar taf : Str} {y m d : Int} {imperial : Bool} {r : CurrentWeather},
    getCurrentWeather metar taf y m d imperial = .ok r →
    ∀ (device : Device) (gmt : Int) (text : Str) (lines : List Str),
    currentWeatherToHTML device (adaptCurrentWeather r valueNotSpecified) imperial c!"<br>"
      (getActualTimeOffset device gmt) = .ok text →
    PageLines text lines →
    ∀ (date : Date) (hour minute : Nat), RealDate date → 100 ≤ date.year →
    r.updateYear = date.year → r.updateMonth = date.month → r.updateDay = date.day → r.updateHour = hour →
    r.updateMinute = minute →
    (number date * 1440 + hour * 60 + minute) * 60000 ≤ gmt →
    ∃ (offset : Int) (age clock : Nat),
      |offset * 60000 - (device.now + device.zone * 60000 - gmt)| ≤ 30000 ∧
      |(age : Int) * 60000 - (gmt - (number date * 1440 + hour * 60 + minute) * 60000)| < 90000 ∧
      (clock : Int) = (hour * 60 + minute + offset) % 1440 ∧
      linesFrom c!"Updated: " lines = [c!"Updated: " ++ decimal 2 (clock / 60) ++ c!":" ++ decimal 2 (clock % 60) ++
        c!" (" ++ durationText age ++ c!" ago)"] :=
  ⟨dayNumber, dayNumber_calendar, updated_line⟩

/-- C125: if something on the time of the release is missing, there is no such line. -/
theorem C125_missing {metar taf : Str} {y m d : Int} {imperial : Bool} {r : CurrentWeather}
    (h : getCurrentWeather metar taf y m d imperial = .ok r) (device : Device) (offset : Int) (text : Str)
    (lines : List Str)
    (ht : currentWeatherToHTML device (adaptCurrentWeather r valueNotSpecified) imperial c!"<br>" offset = .ok text)
    (hl : PageLines text lines)
    (hm : -250 ∈ [r.updateYear, r.updateMonth, r.updateDay, r.updateHour, r.updateMinute]) :
    linesFrom c!"Updated: " lines = [] := by
  rw [html_lines device r imperial _ (weather_known h)] at ht
  obtain rfl := Except.ok.inj ht
  rw [pageLines_unique hl ⟨rfl, lt_all device r imperial _⟩, all_updated]
  unfold updatedPart
  have hk : known (-250) = none := rfl
  simp only [List.mem_cons, List.not_mem_nil, or_false] at hm
  rcases hm with hm | hm | hm | hm | hm <;> rw [← hm, hk]
  · cases known r.updateYear <;> rfl
  · cases known r.updateYear <;> cases known r.updateMonth <;> rfl
  · cases known r.updateYear <;> cases known r.updateMonth <;> cases known r.updateDay <;> rfl
  · cases known r.updateYear <;> cases known r.updateMonth <;> cases known r.updateDay <;>
      cases known r.updateHour <;> rfl

end Metaf.Props

namespace Metaf.Props

open Metaf Metaf.Spec Metaf.Summary Metaf.Page

attribute [local instance] ieee

/-- C125: the date given to the library is that of the device. West of Greenwich it may be the day before that of
Greenwich; then a report released five minutes ago is dated a month back. -/
theorem C125_violated : ∃ number, Calendar number ∧
    ∃ (device : Device) (today released : Date) (r : CurrentWeather) (text : Str) (lines : List Str),
      (device.now / 60000 + device.zone) / 1440 = number today ∧
      number released * 1440 + 35 = device.now / 60000 - 5 ∧ released.day = 1 ∧
      getCurrentWeather c!"METAR KJFK 010035Z 24012KT 9999 FEW030 10/05 Q1013=" [] today.year today.month today.day
        false = .ok r ∧
      currentWeatherToHTML device (adaptCurrentWeather r valueNotSpecified) false c!"<br>"
        (getActualTimeOffset device device.now) = .ok text ∧
      PageLines text lines ∧ linesFrom c!"Updated: " lines = [c!"Updated: 19:35 (744 hours 5 minutes ago)"] := by
  refine ⟨dayNumber, dayNumber_calendar, ⟨1577839200000, -300⟩, ⟨2019, 12, 31⟩, ⟨2020, 1, 1⟩, ?_⟩
  have h : (getCurrentWeather c!"METAR KJFK 010035Z 24012KT 9999 FEW030 10/05 Q1013=" [] 2019 12 31 false).map
      (fun r => (r.updateYear, r.updateMonth, r.updateDay, r.updateHour, r.updateMinute)) = .ok (2019, 12, 1, 0, 35) := by
    kernel_rfl
  obtain ⟨r, hr, h⟩ := map_ok h
  simp only [Prod.mk.injEq] at h
  obtain ⟨h1, h2, h3, h4, h5⟩ := h
  refine ⟨r, _, _, by decide, by decide, rfl, hr, html_lines _ r false _ (weather_known hr), ⟨rfl, lt_all _ _ _ _⟩, ?_⟩
  rw [all_updated]
  unfold updatedPart
  rw [h1, h2, h3, h4, h5]
  decide +kernel

/-- A report with a date in the past, as `C125` asks: half past eleven in London is half past six in New York, even if
the zone of the device is set to Tokyo. -/
example : ∃ r, getCurrentWeather c!"METAR EGLL 011130Z 24012KT 9999 FEW030 10/05 Q1013=" [] 2020 1 1 false = .ok r ∧
    r.updateYear = (2020 : Nat) ∧ r.updateMonth = (1 : Nat) ∧ r.updateDay = (1 : Nat) ∧ r.updateHour = (11 : Nat) ∧
    r.updateMinute = (30 : Nat) ∧ RealDate ⟨2020, 1, 1⟩ ∧ (dayNumber ⟨2020, 1, 1⟩ * 1440 + 11 * 60 + 30) * 60000 ≤
      1577880000000 ∧
    linesFrom c!"Updated: " (allLines ⟨1577880000000 - 14 * 3600000, 540⟩ r false
      (getActualTimeOffset ⟨1577880000000 - 14 * 3600000, 540⟩ 1577880000000)) =
      [c!"Updated: 06:30 (30 minutes ago)"] := by
  have h : (getCurrentWeather c!"METAR EGLL 011130Z 24012KT 9999 FEW030 10/05 Q1013=" [] 2020 1 1 false).map
      (fun r => (r.updateYear, r.updateMonth, r.updateDay, r.updateHour, r.updateMinute)) = .ok (2020, 1, 1, 11, 30) := by
    kernel_rfl
  obtain ⟨r, hr, h⟩ := map_ok h
  simp only [Prod.mk.injEq] at h
  obtain ⟨h1, h2, h3, h4, h5⟩ := h
  refine ⟨r, hr, h1, h2, h3, h4, h5, ⟨by decide, by decide, by decide, by decide⟩, by decide, ?_⟩
  rw [all_updated]
  unfold updatedPart
  rw [h1, h2, h3, h4, h5]
  decide +kernel

/-- A report without a time (`C125_missing`). -/
example : ∃ r, getCurrentWeather [] [] 2020 1 1 false = .ok r ∧ r.updateYear = -250 := by
  have h : (getCurrentWeather [] [] 2020 1 1 false).map (·.updateYear) = .ok (-250) := by kernel_rfl
  obtain ⟨r, hr, h⟩ := map_ok h
  exact ⟨r, hr, h⟩

end Metaf.Props

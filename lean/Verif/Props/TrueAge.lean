import Verif.Props.PageTime

/-!
C125: the page shows the true age of a report of the last four weeks.
-/

set_option linter.unusedSectionVars false

namespace Metaf.Props

open Metaf Metaf.Spec Metaf.Summary Metaf.Page

variable [FloatIeee]

/-! ### Months -/

/-- The first day of a month; months are counted from January of the year 0. -/
def firstOf (i : Nat) : Date := ⟨i / 12, i % 12 + 1, 1⟩

theorem month_days (y m : Nat) : 28 ≤ daysInMonth y m ∧ daysInMonth y m ≤ 31 := by
  unfold daysInMonth
  split
  · split <;> omega
  · split <;> omega

theorem firstOf_next (i : Nat) :
    dayNumber (firstOf (i + 1)) = dayNumber (firstOf i) + daysInMonth (i / 12) (i % 12 + 1) := by
  have hd := month_days (i / 12) (i % 12 + 1)
  have hm : i % 12 < 12 := Nat.mod_lt _ (by omega)
  have hl : dayNumber (⟨i / 12, i % 12 + 1, daysInMonth (i / 12) (i % 12 + 1)⟩ : Date) =
      dayNumber (firstOf i) + daysInMonth (i / 12) (i % 12 + 1) - 1 := by
    unfold firstOf
    rw [dayNumber_eq _ (by simp) (by simp only; omega), dayNumber_eq _ (by simp) (by simp only; omega)]
    simp only
    push_cast
    omega
  have hn := dayNumber_calendar.next ⟨i / 12, i % 12 + 1, daysInMonth (i / 12) (i % 12 + 1)⟩
    ⟨by simp, by simp only; omega, by simp only; omega, le_refl _⟩
  have e : nextDay ⟨i / 12, i % 12 + 1, daysInMonth (i / 12) (i % 12 + 1)⟩ = firstOf (i + 1) := by
    unfold nextDay firstOf
    simp only [Nat.lt_irrefl, if_false]
    split
    · have h1 : (i + 1) / 12 = i / 12 := by omega
      have h2 : (i + 1) % 12 = i % 12 + 1 := by omega
      rw [h1, h2]
    · have h1 : (i + 1) / 12 = i / 12 + 1 := by omega
      have h2 : (i + 1) % 12 = 0 := by omega
      rw [h1, h2]
  rw [e, hl] at hn
  omega

theorem firstOf_later (i k : Nat) : dayNumber (firstOf i) + 28 * k ≤ dayNumber (firstOf (i + k)) := by
  induction k with
  | zero => simp
  | succ k ih =>
    have h := firstOf_next (i + k)
    have hd := month_days ((i + k) / 12) ((i + k) % 12 + 1)
    rw [← Nat.add_assoc, h]
    push_cast
    omega

/-- The number of the month of a date. -/
def monthOf (d : Date) : Nat := 12 * d.year + (d.month - 1)

theorem monthOf_parts {d : Date} (h1 : 1 ≤ d.month) (h2 : d.month ≤ 12) :
    monthOf d / 12 = d.year ∧ monthOf d % 12 + 1 = d.month := by
  unfold monthOf
  omega

theorem number_parts {d : Date} (h1 : 1 ≤ d.month) (h2 : d.month ≤ 12) :
    dayNumber d = dayNumber (firstOf (monthOf d)) + (d.day : Int) - 1 := by
  obtain ⟨a, b⟩ := monthOf_parts h1 h2
  unfold firstOf
  rw [a, b, dayNumber_eq d h1 h2, dayNumber_eq ⟨d.year, d.month, 1⟩ h1 h2]
  simp only
  push_cast
  omega

/-- Any numbers of days which are as in a calendar are those of the script. -/
theorem calendar_unique {number : Date → Int} (hc : Calendar number) {d : Date} (hd : RealDate d) :
    number d = dayNumber d := by
  have inMonth : ∀ {f : Date → Int}, Calendar f → ∀ (i k : Nat), k + 1 ≤ daysInMonth (i / 12) (i % 12 + 1) →
      f ⟨i / 12, i % 12 + 1, k + 1⟩ = f (firstOf i) + k := by
    intro f hf i k
    have hm : i % 12 < 12 := Nat.mod_lt _ (by omega)
    induction k with
    | zero => intro _; simp [firstOf]
    | succ k ih =>
      intro hk
      have h := hf.next ⟨i / 12, i % 12 + 1, k + 1⟩ ⟨by simp, by simp only; omega, by simp, by simp only; omega⟩
      unfold nextDay at h
      rw [if_pos (by simp only; omega), ih (by omega)] at h
      rw [h]
      push_cast
      omega
  have step : ∀ {f : Date → Int}, Calendar f → ∀ i : Nat,
      f (firstOf (i + 1)) = f (firstOf i) + daysInMonth (i / 12) (i % 12 + 1) := by
    intro f hf i
    have hd := month_days (i / 12) (i % 12 + 1)
    have hm : i % 12 < 12 := Nat.mod_lt _ (by omega)
    obtain ⟨n, hn⟩ : ∃ n, daysInMonth (i / 12) (i % 12 + 1) = n + 1 := ⟨daysInMonth (i / 12) (i % 12 + 1) - 1, by omega⟩
    have hl := inMonth hf i n (by omega)
    have h := hf.next ⟨i / 12, i % 12 + 1, n + 1⟩ ⟨by simp, by simp only; omega, by simp, by simp only; omega⟩
    have e : nextDay ⟨i / 12, i % 12 + 1, n + 1⟩ = firstOf (i + 1) := by
      unfold nextDay firstOf
      simp only [hn, Nat.lt_irrefl, if_false]
      split
      · have h1 : (i + 1) / 12 = i / 12 := by omega
        have h2 : (i + 1) % 12 = i % 12 + 1 := by omega
        rw [h1, h2]
      · have h1 : (i + 1) / 12 = i / 12 + 1 := by omega
        have h2 : (i + 1) % 12 = 0 := by omega
        rw [h1, h2]
    rw [e, hl] at h
    rw [h, hn]
    push_cast
    omega
  have same : ∀ i, number (firstOf i) - dayNumber (firstOf i) = number (firstOf 0) - dayNumber (firstOf 0) := by
    intro i
    induction i with
    | zero => rfl
    | succ i ih =>
      have h1 := step hc i
      have h2 := step dayNumber_calendar i
      omega
  have h1970 : number (firstOf 23640) = 0 := hc.epoch
  have h1970' : dayNumber (firstOf 23640) = 0 := dayNumber_calendar.epoch
  have hz := same 23640
  obtain ⟨d1, d2, d3, d4⟩ := hd
  obtain ⟨p1, p2⟩ := monthOf_parts d1 d2
  have hk : d = ⟨monthOf d / 12, monthOf d % 12 + 1, d.day - 1 + 1⟩ := by
    rw [p1, p2, Nat.sub_add_cancel d3]
  have h1 := inMonth hc (monthOf d) (d.day - 1) (by rw [p1, p2]; omega)
  have h2 := inMonth dayNumber_calendar (monthOf d) (d.day - 1) (by rw [p1, p2]; omega)
  rw [← hk] at h1 h2
  have hs := same (monthOf d)
  omega

theorem notLater_iff {a b : Date} (ha : 1 ≤ a.month) (ha' : a.month ≤ 12) (hb : 1 ≤ b.month) (hb' : b.month ≤ 12) :
    NotLater a b ↔ monthOf a < monthOf b ∨ monthOf a = monthOf b ∧ a.day ≤ b.day := by
  unfold NotLater monthOf
  omega

/-- A date up to 27 days before another one is in the same month or in the month before and has a later day. -/
theorem within_month {a b : Date} (ha : RealDate a) (hb : RealDate b) (h0 : 0 ≤ dayNumber b - dayNumber a)
    (h1 : dayNumber b - dayNumber a ≤ 27) :
    monthOf a = monthOf b ∧ a.day ≤ b.day ∨ monthOf a + 1 = monthOf b ∧ b.day < a.day := by
  obtain ⟨a1, a2, a3, a4⟩ := ha
  obtain ⟨b1, b2, b3, b4⟩ := hb
  have ea := number_parts a1 a2
  have eb := number_parts b1 b2
  obtain ⟨pa1, pa2⟩ := monthOf_parts a1 a2
  obtain ⟨pb1, pb2⟩ := monthOf_parts b1 b2
  have na := firstOf_next (monthOf a)
  have nb := firstOf_next (monthOf b)
  rw [pa1, pa2] at na
  rw [pb1, pb2] at nb
  have da := month_days a.year a.month
  rcases lt_trichotomy (monthOf a) (monthOf b) with h | h | h
  · right
    obtain ⟨k, hk⟩ : ∃ k, monthOf b = monthOf a + 1 + k := ⟨monthOf b - (monthOf a + 1), by omega⟩
    have hl := firstOf_later (monthOf a + 1) k
    rw [← hk] at hl
    omega
  · left
    rw [h] at ea
    omega
  · obtain ⟨k, hk⟩ : ∃ k, monthOf a = monthOf b + 1 + k := ⟨monthOf a - (monthOf b + 1), by omega⟩
    have hl := firstOf_later (monthOf b + 1) k
    rw [← hk] at hl
    omega

/-- The date found is the date of release if this is up to 27 days before the date given. -/
theorem date_found {date released today : Date} (hr : RealDate released) (ht : RealDate today)
    (h0 : 0 ≤ dayNumber today - dayNumber released) (h1 : dayNumber today - dayNumber released ≤ 27)
    (hd : date.day = released.day) (hm : 1 ≤ date.month) (hm' : date.month ≤ 12) (hn : NotLater date today)
    (hlast : ∀ other : Date, other.day = date.day → 1 ≤ other.month → other.month ≤ 12 → NotLater other today →
      NotLater other date) : date = released := by
  obtain ⟨r1, r2, r3, r4⟩ := hr
  obtain ⟨t1, t2, t3, t4⟩ := ht
  have hw := within_month ⟨r1, r2, r3, r4⟩ ⟨t1, t2, t3, t4⟩ h0 h1
  have hrt : NotLater released today := (notLater_iff r1 r2 t1 t2).mpr (by omega)
  have h2 := (notLater_iff r1 r2 hm hm').mp (hlast released hd.symm r1 r2 hrt)
  have h3 := (notLater_iff hm hm' t1 t2).mp hn
  have h4 : monthOf date = monthOf released := by omega
  obtain ⟨p1, p2⟩ := monthOf_parts hm hm'
  obtain ⟨q1, q2⟩ := monthOf_parts r1 r2
  rw [h4] at p1 p2
  cases date
  cases released
  simp only at *
  subst hd
  congr 1 <;> omega

/-- C125. For a report released up to 27 days before the date of the device, and not after it, the page shows one line
on its time, with the true time since the release by the clock of the server, up to one and a half minutes, and the time
of the release by the clock of the device. The time of release is that written in the report on the date `released`.
(Missing: reports with a date after that of the device, see `C125_violated`, and older reports, the text of which does
not tell their month.) -/
theorem C125_true_age_partial {number : Date → Int} (hc : Calendar number) {metar taf : Str} {imperial : Bool}
    {today released : Date} {gs : List GroupInfo} {r : CurrentWeather} {t : MetafTime} (htoday : RealDate today)
    (hy : 1 ≤ today.year) (hy' : today.year < 2147483648)
    (hg : Gives metar .METAR gs ∨ Refused metar .METAR ∧ Gives taf .TAF gs)
    (h : getCurrentWeather metar taf today.year today.month today.day imperial = .ok r)
    (ht : lastOf timeValue (gs.map (·.group)) = some t) (hd : t.dayValue = some released.day)
    (hr : RealDate released) (hr' : 100 ≤ released.year) (h0 : 0 ≤ number today - number released)
    (h27 : number today - number released ≤ 27) (device : Device) (gmt : Int) (text : Str) (lines : List Str)
    (hp : currentWeatherToHTML device (adaptCurrentWeather r valueNotSpecified) imperial c!"<br>"
      (getActualTimeOffset device gmt) = .ok text) (hl : PageLines text lines)
    (hpast : (number released * 1440 + t.hourValue * 60 + t.minuteValue) * 60000 ≤ gmt) :
    ∃ (offset : Int) (age clock : Nat),
      |offset * 60000 - (device.now + device.zone * 60000 - gmt)| ≤ 30000 ∧
      |(age : Int) * 60000 - (gmt - (number released * 1440 + t.hourValue * 60 + t.minuteValue) * 60000)| < 90000 ∧
      (clock : Int) = (t.hourValue * 60 + t.minuteValue + offset) % 1440 ∧
      linesFrom c!"Updated: " lines = [c!"Updated: " ++ decimal 2 (clock / 60) ++ c!":" ++ decimal 2 (clock % 60) ++
        c!" (" ++ durationText age ++ c!" ago)"] := by
  rw [calendar_unique hc htoday, calendar_unique hc hr] at h0 h27
  rw [calendar_unique hc hr] at hpast ⊢
  have hdays := month_days today.year today.month
  have hrel : Released (gs.map (·.group)) today r := by
    rcases hg with hm | ⟨hm, hg⟩
    · exact C94_metar hm hy hy' htoday.1 htoday.2.1 (by have := htoday.2.2.2; omega) h
    · exact C94_taf hm hg hy hy' htoday.1 htoday.2.1 (by have := htoday.2.2.2; omega) h
  obtain ⟨k1, k2⟩ := hrel.time t ht
  obtain ⟨date, e1, e2, e3, e4, m1, m2, hn, hlast⟩ := hrel.date t ht
  rw [hd] at e4
  have := date_found hr htoday h0 h27 (Option.some.inj e4).symm m1 m2 hn hlast
  subst this
  exact updated_line h device gmt text lines hp hl date t.hourValue t.minuteValue hr hr' e1 e2 e3 k1 k2 hpast

end Metaf.Props

namespace Metaf.Props

open Metaf Metaf.Spec Metaf.Summary Metaf.Page

attribute [local instance] ieee

/-- A report of the last day of February in a leap year, seen on the first of March. -/
def leapReport : Str := c!"METAR EGLL 292350Z 24012KT 9999 FEW030 10/05 Q1013="

set_option maxRecDepth 4000 in
example : (∃ gs r t, Gives leapReport .METAR gs ∧ getCurrentWeather leapReport [] 2020 3 1 false = .ok r ∧
      lastOf timeValue (gs.map (·.group)) = some t ∧ t.dayValue = some 29) ∧
    RealDate ⟨2020, 3, 1⟩ ∧ RealDate ⟨2020, 2, 29⟩ ∧
    ∀ number, Calendar number → number ⟨2020, 3, 1⟩ - number ⟨2020, 2, 29⟩ = 1 := by
  have hr : RealDate ⟨2020, 2, 29⟩ := ⟨by decide, by decide, by decide, by decide⟩
  refine ⟨?_, ⟨by decide, by decide, by decide, by decide⟩, hr, fun number hc => ?_⟩
  · obtain ⟨gs, hg⟩ := gives_of (report := leapReport) (type := .METAR) (by kernel_rfl)
    obtain ⟨r, hr⟩ := C92_total powTen_ieee powSmall_ieee leapReport [] 2020 3 1 false
    have h : (Parser.parse leapReport).map (fun r => (lastOf timeValue (r.groups.map (·.group))).map (·.dayValue)) =
        .ok (some (some 29)) := by kernel_rfl
    obtain ⟨rep, hp, -, -, rfl⟩ := id hg
    rw [show Parser.parse leapReport = .ok rep from hp] at h
    have h : (lastOf timeValue (rep.groups.map (·.group))).map (·.dayValue) = some (some 29) := Except.ok.inj h
    cases ht : lastOf timeValue (rep.groups.map (·.group)) with
    | none => rw [ht] at h; cases h
    | some t =>
      rw [ht] at h
      exact ⟨_, r, t, hg, hr, ht, Option.some.inj h⟩
  · rw [show (⟨2020, 3, 1⟩ : Date) = nextDay ⟨2020, 2, 29⟩ from rfl, hc.next _ hr]
    omega

end Metaf.Props

import Verif.Props.WithRemarks
import Verif.Props.SummaryMembers

/-!
C112: what remarks can change in the summary of a METAR report.
-/

set_option linter.unusedSectionVars false

namespace Metaf.Props

open Metaf Metaf.Spec Metaf.Summary

variable [FloatIeee]

/-- The two summaries say the same about wind, visibility, weather, storm clouds, forecast
temperatures and the time of the report. -/
def SameWindAndWeather (w w' : CurrentWeather) : Prop :=
  w' = { w with cloud := w'.cloud, airTemperature := w'.airTemperature,
                perceivedTemperature := w'.perceivedTemperature, relativeHumidity := w'.relativeHumidity,
                atmosphericPressure := w'.atmosphericPressure }

theorem SameWindAndWeather.trans {a b c : CurrentWeather} (h : SameWindAndWeather a b) (h' : SameWindAndWeather b c) :
    SameWindAndWeather a c := by
  unfold SameWindAndWeather at *
  rw [h] at h'
  exact h'

/-- A group which says nothing about the wind on the ground, the prevailing visibility, the present weather,
storm clouds and the sky as a whole, and is neither a trend nor the time of the report. -/
def Beside : Group → Prop
  | .keyword k => k.t ≠ .CAVOK
  | .wind w => w.windType ∉ [WindType.SURFACE_WIND, .SURFACE_WIND_CALM, .SURFACE_WIND_WITH_VARIABLE_SECTOR]
  | .visibility v => v.visType ∉ [VisibilityType.PREVAILING, .PREVAILING_NDV]
  | .cloud c => c.convtype ≠ .CUMULONIMBUS
  | .weather w => w.t ≠ .CURRENT
  | .trend _ | .reportTime _ => False
  | _ => True

theorem observer_beside {w : Str} {t : VisibilityType}
    (h : (w, t) ∈ [(c!"SFC", VisibilityType.SURFACE), (c!"TWR", .TOWER)]) :
    t ∉ [VisibilityType.PREVAILING, .PREVAILING_NDV] := by
  simp only [List.mem_cons, Prod.mk.injEq, List.not_mem_nil, or_false] at h
  rcases h with ⟨-, rfl⟩ | ⟨-, rfl⟩ <;> decide

theorem remark_beside {now : Option Nat} {next : Str} {ws : List Str} {g : Group} (h : Remark now ws g)
    (hl : ¬ Lacking next ws) : Beside g := by
  cases h with
  | keyword h =>
    obtain ⟨ps, h1, h2⟩ := h
    simp only [keywords, List.mem_cons, Prod.mk.injEq, List.not_mem_nil, or_false] at h1
    rcases h1 with h1 | h1 | h1 | h1 | h1 | h1 | h1 | h1 | h1 | h1 | h1 | h1 | h1 | h1 | h1 | h1 <;>
      obtain ⟨-, rfl, rfl⟩ := h1 <;> revert h2 <;> simp only [Beside] <;> decide
  | fixed h =>
    simp only [fixedWords, List.mem_cons, Prod.mk.injEq, List.not_mem_nil, or_false] at h
    rcases h with h | h | h | h | h | h | h <;> obtain ⟨-, rfl⟩ := h <;> simp [Beside]
  | missing h =>
    simp only [missingWords, List.mem_cons, Prod.mk.injEq, List.not_mem_nil, or_false] at h
    rcases h with h | h | h | h | h | h <;> obtain ⟨-, rfl, -⟩ := h <;> simp [Beside]
  | missingSaid h =>
    simp only [missingWords, List.mem_cons, Prod.mk.injEq, List.not_mem_nil, or_false] at h
    rcases h with h | h | h | h | h | h <;> obtain ⟨-, -, rfl⟩ := h <;> simp [Beside]
  | wind h =>
    cases h with
    | wind h => rcases h with h | h <;> cases h
    | windAndSector h => rcases h with h | h <;> cases h
    | sector h => rcases h with h | h <;> cases h
    | _ => simp [Beside]
  | visibility h =>
    cases h with
    | vis => exact absurd (.visibility .vis) hl
    | visAmount h =>
      rename_i k _ _
      cases hk : k.isRange
      · exact absurd (.visibility (.amount h hk)) hl
      · simp [Beside]
    | visWhereAmount =>
      simp only [Beside]
      split <;> split <;> decide
    | observer h => exact observer_beside h
    | observerVis h => exact observer_beside h
    | observerAmount h => exact observer_beside h
    | _ => (try split) <;> simp [Beside]
  | cloud h =>
    cases h with
    | ceilingHeight h => cases h <;> simp [Beside]
    | ceilingPlace h => cases h <;> simp [Beside]
    | _ => simp [Beside]
  | events => simp [Beside]
  | lightningSensor => simp [Beside]
  | lightningSensorTemporarily => simp [Beside]
  | lightningSensorUnavailable => simp [Beside]
  | _ => trivial

theorem settled_beside {g : Group} (h : Beside g) : Beside (settled g) := by
  cases g <;> exact h

theorem said_beside {now : Option Nat} {x : GroupInfo} (h : Said now x) (hp : x.reportPart = .RMK) : Beside x.group := by
  cases h with
  | unknown => trivial
  | header => cases hp
  | afterNil => cases hp
  | body h => rcases h with rfl | rfl <;> cases hp
  | remark h hl => exact settled_beside (remark_beside h hl)
  | remnant => trivial

theorem beside_group {imperial : Bool} {g : Group} {wind : Speed} {r : CurrentWeather} {x : Speed × CurrentWeather}
    (hb : Beside g) (h : metarGroup imperial g wind r = .ok x) : SameWindAndWeather r x.2 := by
  cases g with
  | keyword k =>
    obtain ⟨_, hx, h⟩ := bind_ok h
    cases h
    unfold keywordGroup at hx
    rw [if_neg hb] at hx
    cases hx
    rfl
  | wind w =>
    simp only [metarGroup] at h
    rw [if_neg (by simpa [Beside, not_or] using hb)] at h
    cases h
    rfl
  | visibility v =>
    simp only [metarGroup] at h
    rw [if_neg (by simpa [Beside, not_or] using hb)] at h
    cases h
    rfl
  | cloud c =>
    cases h
    unfold cloudGroup
    rw [if_neg hb]
    rfl
  | weather w =>
    simp only [metarGroup] at h
    rw [if_neg hb] at h
    cases h
    rfl
  | temperature t =>
    obtain ⟨_, hx, h⟩ := bind_ok h
    cases h
    obtain ⟨-, a, p, q, rfl⟩ := temperatureGroup_ok hx
    rfl
  | pressure t =>
    obtain ⟨_, hx, h⟩ := bind_ok h
    cases h
    obtain ⟨-, p, rfl⟩ := pressureGroup_ok (wind := wind) hx
    rfl
  | _ => cases h; rfl

theorem beside_loop {imperial : Bool} {xs : List GroupInfo} {wind : Speed} {r r' : CurrentWeather}
    (hb : ∀ x ∈ xs, Beside x.group) (h : metarLoop imperial xs wind r = .ok r') : SameWindAndWeather r r' := by
  induction xs generalizing wind r with
  | nil => cases h; rfl
  | cons x xs ih =>
    unfold metarLoop at h
    split at h
    · cases h; rfl
    · obtain ⟨y, hy, h⟩ := bind_ok h
      exact (beside_group (hb x (by simp)) hy).trans (ih (fun x hx => hb x (by simp [hx])) h)

/-- The loop on more groups. -/
theorem metarLoop_more {imperial : Bool} {xs more : List GroupInfo} {wind : Speed} {r r1 : CurrentWeather}
    (h : metarLoop imperial xs wind r = .ok r1) :
    ((∃ x ∈ xs, isTrend x.group = true) → metarLoop imperial (xs ++ more) wind r = .ok r1) ∧
    ((∀ x ∈ xs, isTrend x.group = false) → ∃ wind', metarLoop imperial (xs ++ more) wind r = metarLoop imperial more wind' r1) := by
  induction xs generalizing wind r with
  | nil =>
    cases h
    exact ⟨fun ⟨x, hx, _⟩ => (List.not_mem_nil hx).elim, fun _ => ⟨wind, rfl⟩⟩
  | cons x xs ih =>
    obtain ⟨g, p, s⟩ := x
    by_cases ht : isTrend g
    · cases g <;> cases ht
      cases h
      exact ⟨fun _ => rfl, fun h => absurd (h _ (List.mem_cons_self ..)) (by simp [isTrend])⟩
    · have ht' : isTrend g = false := by simpa using ht
      have h2 : (metarGroup imperial g wind r >>= fun s => metarLoop imperial xs s.1 s.2) = .ok r1 := by
        cases g <;> first | exact h | cases ht'
      obtain ⟨y, hy, h⟩ := bind_ok h2
      have e : metarLoop imperial ((⟨g, p, s⟩ :: xs) ++ more) wind r = metarLoop imperial (xs ++ more) y.1 y.2 := by
        have : metarLoop imperial ((⟨g, p, s⟩ :: xs) ++ more) wind r =
            (metarGroup imperial g wind r >>= fun s => metarLoop imperial (xs ++ more) s.1 s.2) := by
          cases g <;> first | rfl | cases ht'
        rw [this, hy]
        rfl
      rw [e]
      refine ⟨?_, ?_⟩
      · rintro ⟨x, hx, hxt⟩
        rcases List.mem_cons.mp hx with rfl | hx
        · exact absurd hxt ht
        · exact (ih h).1 ⟨x, hx, hxt⟩
      · intro ha
        exact (ih h).2 fun x hx => ha x (by simp [hx])

theorem releaseTime_more {gs more : List GroupInfo} {y m d : Int} {r : CurrentWeather}
    (h : ∀ x ∈ more, Beside x.group) : reportReleaseTime r (gs ++ more) y m d = reportReleaseTime r gs y m d := by
  induction gs generalizing r with
  | nil =>
    induction more with
    | nil => rfl
    | cons x more ih =>
      obtain ⟨g, p, s⟩ := x
      have := h _ (List.mem_cons_self ..)
      cases g <;> first | exact ih fun x hx => h x (List.mem_cons_of_mem _ hx) | cases this
  | cons x gs ih =>
    obtain ⟨g, p, s⟩ := x
    cases g <;> exact ih

theorem releaseTime_beside {gs : List GroupInfo} {y m d : Int} {r r' : CurrentWeather} (h : SameWindAndWeather r r') :
    SameWindAndWeather (reportReleaseTime r gs y m d) (reportReleaseTime r' gs y m d) := by
  induction gs generalizing r r' with
  | nil => exact h
  | cons x gs ih =>
    obtain ⟨g, p, s⟩ := x
    cases g
    case reportTime =>
      refine ih ?_
      unfold SameWindAndWeather at h ⊢
      rw [h]
    all_goals exact ih h

/-- C112. Remarks of a METAR report change nothing in its summary but the cover of the sky, the temperature,
the perceived temperature, the humidity and the pressure: wind, gusts, visibility, weather, storm clouds, the
forecast of the temperature and the time of the report are the same with and without remarks. If there is a trend before the remarks, they do not change anything. -/
theorem C112_remarks {s s' taf : Str} {ws rmk : List Str} {r : ParseResult} {y m d : Int} {imperial : Bool}
    {w w' : CurrentWeather} (hs : Groups s ws) (hs' : Groups s' (ws ++ c!"RMK" :: rmk)) (hr : Result s 200 r)
    (hty : r.reportMetadata.type = .METAR) (he : r.reportMetadata.error = .NONE)
    (hn : r.reportMetadata.isNil = false) (hc : r.reportMetadata.isCancelled = false) (hw : c!"RMK" ∉ ws)
    (hl : (ws ++ c!"RMK" :: rmk).length + 1 < 200)
    (h : getCurrentWeather s taf y m d imperial = .ok w) (h' : getCurrentWeather s' taf y m d imperial = .ok w') :
    SameWindAndWeather w w' ∧ ((∃ x ∈ r.groups, isTrend x.group = true) → w' = w) := by
  obtain ⟨r', rest, h1, h2, h3, h4, h5⟩ := C111_remarks hs hs' hr he hn hc hw hl
  have he' : r'.reportMetadata.error = .NONE := by rw [h5, hty]; rfl
  obtain ⟨w1, tg, ht, a1, a2⟩ := summary_metar ⟨r, hr, hty, he, rfl⟩ h
  obtain ⟨w1', tg', ht', b1, b2⟩ := summary_metar ⟨r', h1, h4.trans hty, he', rfl⟩ h'
  rw [ht] at ht'
  obtain rfl := Except.ok.inj ht'
  have hb : ∀ x ∈ (⟨.keyword ⟨.RMK⟩, bodyPart r.reportMetadata.type, c!"RMK"⟩ : GroupInfo) :: rest, Beside x.group := by
    intro x hx
    rcases List.mem_cons.mp hx with rfl | hx
    · simp [Beside]
    · exact said_beside (C75_said h1 x (by rw [h2]; simp [hx])) (h3 x hx)
  unfold currentWeatherFromMetar at a1 b1
  rw [h2] at b1 b2
  rw [releaseTime_more hb] at b2
  obtain ⟨m1, m2⟩ := metarLoop_more (more := (⟨.keyword ⟨.RMK⟩, bodyPart r.reportMetadata.type, c!"RMK"⟩ : GroupInfo) :: rest) a1
  have same : SameWindAndWeather w1 w1' := by
    by_cases htr : ∃ x ∈ r.groups, isTrend x.group = true
    · rw [m1 htr] at b1
      cases b1
      rfl
    · obtain ⟨wind', m2⟩ := m2 fun x hx => by
        cases ht : isTrend x.group
        · rfl
        · exact absurd ⟨x, hx, ht⟩ htr
      rw [m2] at b1
      exact beside_loop hb b1
  refine ⟨?_, ?_⟩
  · obtain ⟨lo, l1, a2⟩ := bind_ok a2
    obtain ⟨hi, l2, a2⟩ := bind_ok a2
    obtain ⟨lo', l1', b2⟩ := bind_ok b2
    obtain ⟨hi', l2', b2⟩ := bind_ok b2
    cases a2
    cases b2
    have k := releaseTime_beside (gs := r.groups) (y := y) (m := m) (d := d) same
    unfold SameWindAndWeather at k ⊢
    rw [k] at l1' l2'
    have e1 : lo' = lo := by
      have := l1.symm.trans l1'
      exact (Except.ok.inj this).symm
    have e2 : hi' = hi := by
      have := l2.symm.trans l2'
      exact (Except.ok.inj this).symm
    rw [k, e1, e2]
  · intro htr
    rw [m1 htr] at b1
    cases b1
    rw [a2] at b2
    cases b2
    rfl

end Metaf.Props

/-! ### Examples -/

namespace Metaf.Props

open Metaf Metaf.Spec Metaf.Summary

attribute [local instance] ieee

/-- A report without remarks. -/
def plainText : Str := c!"METAR UUEE 121530Z 05004MPS 9999 -RA BKN020 12/08 Q1013"

/-- The same report with remarks. -/
def remarkedText : Str :=
  c!"METAR UUEE 121530Z 05004MPS 9999 -RA BKN020 12/08 Q1013 RMK SCT020 V BKN A3010 T00250010 PK WND 28045/15 RAB05"

set_option maxRecDepth 4000 in
/-- Remarks can change the cover of the sky, the temperatures, the humidity and the pressure. -/
theorem C112_changes :
    ∃ w w', getCurrentWeather plainText c!"" 2020 3 14 false = .ok w ∧
      getCurrentWeather remarkedText c!"" 2020 3 14 false = .ok w' ∧ w'.cloud ≠ w.cloud ∧
      w'.airTemperature ≠ w.airTemperature ∧ w'.perceivedTemperature ≠ w.perceivedTemperature ∧
      w'.relativeHumidity ≠ w.relativeHumidity ∧ w'.atmosphericPressure ≠ w.atmosphericPressure := by
  have h : (getCurrentWeather plainText c!"" 2020 3 14 false).map (fun w =>
      (w.cloud, w.airTemperature, w.perceivedTemperature, w.relativeHumidity, w.atmosphericPressure)) =
      .ok (.MOSTLY_CLOUDY, 12, 12, 76, 1013) := by kernel_rfl
  have h' : (getCurrentWeather remarkedText c!"" 2020 3 14 false).map (fun w =>
      (w.cloud, w.airTemperature, w.perceivedTemperature, w.relativeHumidity, w.atmosphericPressure)) =
      .ok (.MOSTLY_CLEAR, 2, 0, 89, 1019) := by kernel_rfl
  obtain ⟨w, hw⟩ := C92_total powTen_ieee powSmall_ieee plainText c!"" 2020 3 14 false
  obtain ⟨w', hw'⟩ := C92_total powTen_ieee powSmall_ieee remarkedText c!"" 2020 3 14 false
  rw [hw] at h
  rw [hw'] at h'
  simp only [Except.map, Except.ok.injEq, Prod.mk.injEq] at h h'
  refine ⟨w, w', hw, hw', ?_⟩
  simp [h, h']

set_option maxRecDepth 4000 in
/-- Example: C112 for these reports. -/
example : ∃ w w', getCurrentWeather plainText c!"" 2020 3 14 false = .ok w ∧
    getCurrentWeather remarkedText c!"" 2020 3 14 false = .ok w' ∧ SameWindAndWeather w w' := by
  have h : (Parser.parse plainText).map (fun r => (r.reportMetadata.type, r.reportMetadata.error,
      r.reportMetadata.isNil, r.reportMetadata.isCancelled)) = .ok (.METAR, .NONE, false, false) := by kernel_rfl
  obtain ⟨r, hr, -⟩ := C01_parse_total plainText 200
  rw [show Parser.parse plainText = .ok r from hr] at h
  simp only [Except.map, Except.ok.injEq, Prod.mk.injEq] at h
  obtain ⟨w, hw⟩ := C92_total powTen_ieee powSmall_ieee plainText c!"" 2020 3 14 false
  obtain ⟨w', hw'⟩ := C92_total powTen_ieee powSmall_ieee remarkedText c!"" 2020 3 14 false
  have e : tokens remarkedText = tokens plainText ++ c!"RMK" :: (tokens remarkedText).drop 10 := by decide +kernel
  exact ⟨w, w', hw, hw', (C112_remarks (groups_tokens _) (e ▸ groups_tokens _) hr h.1 h.2.1 h.2.2.1 h.2.2.2
    (by decide +kernel) (by rw [← e]; decide +kernel) hw hw').1⟩

end Metaf.Props

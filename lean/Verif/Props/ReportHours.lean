import Verif.Model.Basic
import Mathlib.Tactic.IntervalCases
import Mathlib.Tactic.NormNum

/-!
C132: which times are those of three-hourly and of six-hourly reports.
-/

namespace Metaf.Props

open Metaf

/-! ### Specification -/

/-- Minutes in a day. -/
def dayMinutes : Int := 24 * 60

/-- The clock shows `h` hours and `m` minutes at most one hour before, or less than one hour after, the full
hour `s` of some day. -/
def WithinHourOf (s : Nat) (h m : Nat) : Prop :=
  ∃ days : Int, -60 ≤ 60 * (h : Int) + m - (60 * s + days * dayMinutes) ∧
    60 * (h : Int) + m - (60 * s + days * dayMinutes) < 60

/-- Three-hourly reports are made at 03, 09, 15 and 21 hours. -/
def threeHourly (h m : Nat) : Prop := ∃ s ∈ [3, 9, 15, 21], WithinHourOf s h m

/-- Six-hourly reports are made at 00, 06, 12 and 18 hours. -/
def sixHourly (h m : Nat) : Prop := ∃ s ∈ [0, 6, 12, 18], WithinHourOf s h m

/-! ### C132 -/

theorem withinHour_iff {s h m : Nat} (hs : s < 24) (hh : h ≤ 24) (hm : m < 60) :
    WithinHourOf s h m ↔ h = s ∨ h + 1 = s ∨ h = s + 24 ∨ h + 1 = s + 24 := by
  unfold WithinHourOf dayMinutes
  constructor
  · rintro ⟨d, h1, h2⟩
    omega
  · rintro (h | h | h | h)
    · exact ⟨0, by omega, by omega⟩
    · exact ⟨0, by omega, by omega⟩
    · exact ⟨1, by omega, by omega⟩
    · exact ⟨1, by omega, by omega⟩

/-- C132. A valid time qualifies as a three-hourly one exactly if it is at most an hour before, or
less than an hour after, 03, 09, 15 or 21 hours. -/
theorem C132_three_hourly (t : MetafTime) (hv : t.isValid = true) :
    t.is3hourlyReportTime = true ↔ threeHourly t.hourValue t.minuteValue := by
  have hh : t.hourValue ≤ 24 ∧ t.minuteValue < 60 := by
    simp [MetafTime.isValid] at hv
    omega
  simp only [threeHourly, MetafTime.is3hourlyReportTime, List.contains_eq_mem, List.mem_cons, List.not_mem_nil,
    or_false, decide_eq_true_eq, exists_eq_or_imp, exists_eq_left]
  rw [withinHour_iff (by omega) hh.1 hh.2, withinHour_iff (by omega) hh.1 hh.2,
    withinHour_iff (by omega) hh.1 hh.2, withinHour_iff (by omega) hh.1 hh.2]
  omega

/-- C132. A valid time before 24:00 qualifies as a six-hourly one exactly if it is at most an hour before, or
less than an hour after, 00, 06, 12 or 18 hours; for 23 hours this is the midnight to come. -/
theorem C132_six_hourly_partial (t : MetafTime) (hv : t.isValid = true) (h24 : t.hourValue ≠ 24) :
    t.is6hourlyReportTime = true ↔ sixHourly t.hourValue t.minuteValue := by
  have hh : t.hourValue ≤ 24 ∧ t.minuteValue < 60 := by
    simp [MetafTime.isValid] at hv
    omega
  simp only [sixHourly, MetafTime.is6hourlyReportTime, List.contains_eq_mem, List.mem_cons, List.not_mem_nil,
    or_false, decide_eq_true_eq, exists_eq_or_imp, exists_eq_left]
  rw [withinHour_iff (by omega) hh.1 hh.2, withinHour_iff (by omega) hh.1 hh.2,
    withinHour_iff (by omega) hh.1 hh.2, withinHour_iff (by omega) hh.1 hh.2]
  omega

/-- C132. No time at all qualifies as both. -/
theorem C132_not_both (t : MetafTime) : ¬ (t.is3hourlyReportTime = true ∧ t.is6hourlyReportTime = true) := by
  simp only [MetafTime.is3hourlyReportTime, MetafTime.is6hourlyReportTime, List.contains_eq_mem, List.mem_cons,
    List.not_mem_nil, or_false, decide_eq_true_eq]
  omega

/-- 24:00 is midnight at the end of the day and a valid time, but does not qualify as six-hourly, unlike 00:00
of the next day. -/
theorem C132_violated : ¬ ∀ t : MetafTime, t.isValid = true →
    (t.is6hourlyReportTime = true ↔ sixHourly t.hourValue t.minuteValue) := by
  intro h
  have := (h ⟨some 1, 24, 0⟩ (by decide)).mpr ⟨0, by simp, 1, by decide, by decide⟩
  revert this
  decide

/-- One hour after the full hour does not count, one hour before does. -/
example : (⟨some 1, 2, 0⟩ : MetafTime).is3hourlyReportTime = true ∧
    (⟨some 1, 3, 59⟩ : MetafTime).is3hourlyReportTime = true ∧
    (⟨some 1, 4, 0⟩ : MetafTime).is3hourlyReportTime = false ∧
    (⟨some 1, 23, 10⟩ : MetafTime).is6hourlyReportTime = true ∧ sixHourly 23 10 ∧ ¬ threeHourly 4 0 := by
  refine ⟨by decide, by decide, by decide, by decide, ⟨0, by simp, 1, by decide, by decide⟩, ?_⟩
  rintro ⟨s, hs, d, h1, h2⟩
  simp only [List.mem_cons, List.not_mem_nil, or_false] at hs
  unfold dayMinutes at h1 h2
  omega

end Metaf.Props

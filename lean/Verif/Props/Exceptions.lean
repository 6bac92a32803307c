import Verif.Props.ExplainWeather
import Verif.Props.SummaryExact

/-!
Exactly what the code does where it does not do what C89, C97 and C108 say.
-/

namespace Metaf.Props

open Metaf Metaf.Spec Metaf.Summary Metaf.Explain

section

variable [FloatIeee]

/-- The line on an event: the expression of the phenomenon alone if it has one, and else the text with the time. -/
def eventLine (e : Event) : Str :=
  (expressions.lookup (.NONE, e.descriptor, e.weather)).getD (occurrenceText e)

/-- C108. All events, whether or not their phenomena have expressions of their own, in any mixture: exactly the lines of
the phenomena with such an expression lack the time and whether the phenomenon began or ended. -/
theorem C108_all_events {report : Str} {limit : Nat} {r : ParseResult} (h : Result report limit r) {x : GroupInfo}
    (hx : x ∈ r.groups) (hu : ∀ u, x.group ≠ .unknown u) (hp : x.reportPart = .RMK) {hour : Nat}
    (hh : hourOf r = some hour) {fs : List EventForm} (hne : fs ≠ []) (hok : ∀ f ∈ fs, f.Ok) {es : List Event}
    (hr : readEvents hour none fs = some es) (hw : words x.rawString = [(fs.map EventForm.text).flatten]) :
    visitor.visit x.group x.reportPart x.rawString = .ok (unlines
      (lineIf (¬ ∀ e ∈ es.take 20, e.timely) warningLine ++
        c!"Precipitation beginning/ending time:" :: (es.take 20).map eventLine)) := by
  rw [events_lines h hx hu hp hh hne hok hr hw]
  congr 4
  have hall := read_all_allowed hok (b := none) (by simp) hr
  have htimes := read_all_times (hour_limit h hh) hok hr
  refine List.map_congr_left fun e he => ?_
  have he := List.mem_of_mem_take he
  unfold eventLine
  cases hl : expressions.lookup (.NONE, e.descriptor, e.weather) with
  | none => exact event_text (hall e he) hl (htimes e he).1 (htimes e he).2
  | some t => exact special_event (hall e he) hl

/-- C89. The cover of the sky for every METAR report: the greatest cover said from the last few or scattered layer on,
whatever is said before it. -/
theorem C89_exact {metar taf : Str} {y m d : Int} {imperial : Bool} {gs : List GroupInfo}
    {r : CurrentWeather} (hm : Gives metar .METAR gs) (h : getCurrentWeather metar taf y m d imperial = .ok r) :
    r.cloud = greatest (fromLastPartly (covers (beforeTrend (gs.map (·.group))))) :=
  (C87_metar hm h).1.cloud

/-- C89, the same for a TAF report. -/
theorem C89_exact_taf {metar taf : Str} {y m d : Int} {imperial : Bool} {gs : List GroupInfo}
    {r : CurrentWeather} (hm : Refused metar .METAR) (ht : Gives taf .TAF gs)
    (h : getCurrentWeather metar taf y m d imperial = .ok r) :
    r.cloud = greatest (fromLastPartly (covers (beforeSecondTrend (gs.map (·.group))))) :=
  (C88_taf hm ht h).1.cloud

omit [FloatIeee] in
/-- C89. The claim fails exactly if there is a few or scattered layer and the greatest cover, broken or overcast, is
said only before the last one of these. -/
theorem C89_fails_iff (cs : List Cover) :
    greatest (fromLastPartly cs) ≠ greatest cs ↔
      .partly ∈ cs ∧ ((.overcast ∈ cs ∧ .overcast ∉ fromLastPartly cs) ∨
        (.broken ∈ cs ∧ .overcast ∉ cs ∧ .broken ∉ fromLastPartly cs)) := by
  have hsub : ∀ c, c ∈ fromLastPartly cs → c ∈ cs := by
    intro c hc
    unfold fromLastPartly at hc
    split at hc
    · next hp =>
      rcases List.mem_cons.mp hc with rfl | hc
      · exact hp
      · rw [List.mem_reverse] at hc
        exact List.mem_reverse.mp ((List.takeWhile_sublist _).mem hc)
    · exact hc
  by_cases hp : Cover.partly ∈ cs
  · have hpf : Cover.partly ∈ fromLastPartly cs := by
      unfold fromLastPartly
      rw [if_pos hp]
      exact List.mem_cons_self
    unfold greatest
    by_cases ho : Cover.overcast ∈ cs <;> by_cases ho' : Cover.overcast ∈ fromLastPartly cs <;>
      by_cases hb : Cover.broken ∈ cs <;> by_cases hb' : Cover.broken ∈ fromLastPartly cs <;>
      first
        | exact absurd (hsub _ ho') ho
        | exact absurd (hsub _ hb') hb
        | simp [hp, hpf, ho, ho', hb, hb']
  · have e : fromLastPartly cs = cs := by
      unfold fromLastPartly
      rw [if_neg hp]
    rw [e]
    simp [hp]

end

/-! ### Cases -/

attribute [local instance] ieee

/-- A report with events of both kinds. -/
def bothKinds : Str := c!"METAR ZZZZ 041115Z RMK RAB05UPB07"

set_option maxRecDepth 4000 in
/-- C108: the time of the rain is shown, that of the undetermined precipitation is not. -/
example : ∃ r, Result bothKinds 200 r ∧ hourOf r = some 11 ∧
    (r.groups.filter fun x => match x.group with | .weather _ => true | _ => false).map (fun x =>
      visitor.visit x.group x.reportPart x.rawString) = [
    .ok (unlines [c!"Precipitation beginning/ending time:", c!"rain  began: 11:05 GMT",
      c!"undetermined precipitation (automated system cannot identify precipitation)"])] := by
  refine ⟨_, rfl, ?_, ?_⟩ <;> decide +kernel

/-- C89: a scattered layer between two broken layers does no harm, one behind them does. -/
example : greatest (fromLastPartly [.broken, .partly, .broken]) = greatest [.broken, .partly, .broken] ∧
    greatest (fromLastPartly [.broken, .partly]) ≠ greatest [.broken, .partly] := by decide

/-- The pressures from 27 to 32 inches, in hundredths, of which the summary gives one too few. -/
def cutPressures : List Nat :=
  [2702, 2710, 2711, 2719, 2727, 2735, 2736, 2744, 2752, 2760, 2761, 2769, 2777, 2785, 2786, 2794, 2802, 2810,
   2811, 2819, 2827, 2835, 2836, 2844, 2852, 2860, 2861, 2869, 2877, 2885, 2886, 2894, 2902, 2910, 2911, 2918,
   2919, 2927, 2935, 2936, 2943, 2944, 2952, 2960, 2961, 2968, 2969, 2977, 2985, 2986, 2993, 2994, 3002, 3010,
   3011, 3018, 3019, 3027, 3035, 3036, 3043, 3044, 3052, 3060, 3061, 3068, 3069, 3077, 3085, 3086, 3093, 3094,
   3102, 3110, 3111, 3118, 3119, 3127, 3135, 3136, 3143, 3144, 3152, 3160, 3161, 3168, 3169, 3177, 3185, 3186,
   3193, 3194]

set_option maxRecDepth 8000 in
/-- C97. With the arithmetic of IEEE 754, exactly these pressures from 27 to 32 inches of mercury are given wrong. -/
theorem C97_exact {n : Nat} (hl : 2700 ≤ n) (hh : n < 3200) :
    pressureIn true ⟨some (inHgOf n), .INCHES_HG⟩ = some (if n ∈ cutPressures then (n : Int) - 1 else n) := by
  have h : ((List.range 500).all fun k => decide (pressureIn true ⟨some (inHgOf (2700 + k)), .INCHES_HG⟩ =
      some (if 2700 + k ∈ cutPressures then ((2700 + k : Nat) : Int) - 1 else (2700 + k : Nat)))) = true := by
    decide +kernel
  have := of_decide_eq_true (List.all_eq_true.mp h (n - 2700) (List.mem_range.mpr (by omega)))
  rwa [Nat.add_sub_cancel' hl] at this

example : 2993 ∈ cutPressures ∧ 2992 ∉ cutPressures := by decide

end Metaf.Props

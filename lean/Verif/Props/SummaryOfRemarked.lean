import Verif.Props.WrittenSummary
import Verif.Props.SummaryRemarks
import Verif.Props.Limits

/-!
C149: the summary of a METAR report which is written, with remarks after it.
-/

set_option linter.unusedSectionVars false

namespace Metaf.Props

open Metaf Metaf.Spec Metaf.Summary

section

variable [FloatIeee]

theorem written_gives_remarked {o : Observation} {hs : List (Str × Group)} {ex : List (Group × List Str)} {rmk : List Str}
    {report : Str} (ho : o.Ok) (hh : HeaderText .METAR hs) (hx : Trends ex) (hne : ex ≠ [])
    (hg : Groups report (hs.map Prod.fst ++ (o.words ++ ex.flatMap Prod.snd) ++ c!"RMK" :: rmk))
    (hl : (hs.map Prod.fst ++ (o.words ++ ex.flatMap Prod.snd) ++ c!"RMK" :: rmk).length < 200) :
    ∃ gs, Gives report .METAR gs ∧
      beforeTrend (gs.map (·.group)) = hs.map Prod.snd ++ o.items.map Prod.fst := by
  rw [← items_words, ← List.flatMap_append] at hg hl
  have hc : (o.items ++ ex).IsChain Separate := by
    refine List.isChain_append.mpr ⟨items_chain o, hx.separate, ?_⟩
    intro x hx y hy
    rw [items_last] at hx
    cases hx
    exact Or.inr rfl
  obtain ⟨r, rest, hr, ht, he, e, -⟩ := C70_remarks hh (fun x hm =>
    (List.mem_append.mp hm).elim (items_written ho x) (hx.written x)) hc (fun h => by cases h) hg hl
  refine ⟨r.groups, ⟨r, hr, ht, he, rfl⟩, ?_⟩
  have hn : ∀ g ∈ hs.map Prod.snd ++ o.items.map Prod.fst, (!isTrend g) = true := by
    intro g hg
    rcases List.mem_append.mp hg with hg | hg
    · obtain ⟨x, hx, rfl⟩ := List.mem_map.mp hg
      simp [(header_silent hh x hx).says.1]
    · rcases items_kinds hg with rfl | rfl | rfl | ⟨c, -, rfl⟩ | rfl | rfl <;> rfl
  obtain ⟨x, ex', rfl⟩ := List.exists_cons_of_ne_nil hne
  have e' : ∃ more, r.groups.map (·.group) = (hs.map Prod.snd ++ o.items.map Prod.fst) ++ x.1 :: more := by
    refine ⟨ex'.map Prod.fst ++ .keyword ⟨.RMK⟩ :: rest.map (·.group), ?_⟩
    rw [e]
    simp only [List.map_append, List.map_map, List.map_cons, List.append_assoc, List.cons_append]
    rfl
  obtain ⟨more, e'⟩ := e'
  rw [e']
  unfold beforeTrend
  rw [List.takeWhile_append_of_pos hn, List.takeWhile_cons_of_neg (by simp [hx.trend x rfl]), List.append_nil]

/-- C149: after trends there may be any remarks. -/
theorem C149_trends_remarks {o : Observation} {hs : List (Str × Group)} {ex : List (Group × List Str)} {rmk : List Str}
    {report taf : Str} {y m d : Int} {imperial : Bool} {r : CurrentWeather} (ho : o.Ok) (hh : HeaderText .METAR hs)
    (hx : Trends ex) (hne : ex ≠ [])
    (hg : Groups report (hs.map Prod.fst ++ (o.words ++ ex.flatMap Prod.snd) ++ c!"RMK" :: rmk))
    (hl : (hs.map Prod.fst ++ (o.words ++ ex.flatMap Prod.snd) ++ c!"RMK" :: rmk).length < 200)
    (h : getCurrentWeather report taf y m d imperial = .ok r) :
    o.Said imperial r ∧ (imperial = false → r.atmosphericPressure = o.pressure) := by
  obtain ⟨gs, hgs, all⟩ := written_gives_remarked ho hh hx hne hg hl
  refine ⟨said_of ho hh hgs all h, ?_⟩
  rintro rfl
  exact pressure_of hh hgs all h

theorem header_plain {hs : List (Str × Group)} (h : HeaderText .METAR hs) :
    (∀ x ∈ hs, x.1 ≠ c!"RMK") ∧ ∀ x ∈ hs, x.2 ≠ .keyword ⟨.NIL⟩ ∧ x.2 ≠ .keyword ⟨.CNL⟩ := by
  cases h with
  | metar hk hc hl _ _ _ =>
    obtain ⟨a, b, c, d, rfl, -⟩ := hl
    simp only [List.mem_cons, List.not_mem_nil, or_false] at hk hc
    constructor
    · intro x hx
      simp only [List.mem_append, List.mem_cons, List.not_mem_nil, or_false, List.cons_append] at hx
      rcases hx with rfl | hx | rfl | rfl
      · rcases hk with rfl | rfl <;> decide
      · rcases hc with rfl | rfl
        · cases hx
        · rw [List.mem_singleton.mp hx]
          decide
      · simp
      · intro e
        have := congrArg List.length e
        simp [timeText, decimal_length] at this
    · intro x hx
      simp only [List.mem_append, List.mem_cons, List.not_mem_nil, or_false, List.cons_append] at hx
      rcases hx with rfl | hx | rfl | rfl
      · rcases hk with rfl | rfl <;> exact ⟨fun e => (by cases e), fun e => (by cases e)⟩
      · rcases hc with rfl | rfl
        · cases hx
        · rw [List.mem_singleton.mp hx]
          exact ⟨fun e => (by cases e), fun e => (by cases e)⟩
      · exact ⟨fun e => (by cases e), fun e => (by cases e)⟩
      · exact ⟨fun e => (by cases e), fun e => (by cases e)⟩

/-- C149: without trends, any remarks after the observation leave the wind, the visibility, the weather and the storm
clouds as written: the summary is one which says what was written, up to the sky, the temperatures, the humidity and the
pressure. -/
theorem C149_remarks (h1 : PowTen) (h2 : PowSmall) {o : Observation} {hs : List (Str × Group)} {rmk : List Str}
    {report taf : Str} {y m d : Int} {imperial : Bool} {r : CurrentWeather} (ho : o.Ok) (hh : HeaderText .METAR hs)
    (hg : Groups report (hs.map Prod.fst ++ o.words ++ c!"RMK" :: rmk))
    (hl : (hs.map Prod.fst ++ o.words ++ c!"RMK" :: rmk).length + 1 < 200)
    (h : getCurrentWeather report taf y m d imperial = .ok r) :
    ∃ w, o.Said imperial w ∧ SameWindAndWeather w r := by
  have hs0 := groups_first (tokens_of_groups hg)
  have hi : ∀ x ∈ o.items, Written .METAR x.2 x.1 ∧ ¬ Unfinished x.2 ∧ ∀ w ∈ x.2, w ∉ stops .METAR := items_written ho
  have hl0 : (hs.map Prod.fst ++ o.words).length < 200 := by
    rw [List.length_append] at hl
    omega
  obtain ⟨r0, hr, ht, he, e⟩ := C70_layout (limit := 200) hh (by unfold Observation.items; simp) hi (items_chain o)
    (by rw [items_words]; exact hs0) (by rw [items_words]; exact hl0)
  obtain ⟨k1, k2⟩ := header_plain hh
  have no : ∀ k, k = KeywordType.NIL ∨ k = .CNL → ¬ HasKeyword r0 k := by
    rintro k hk ⟨x, hx, hxk⟩
    rw [e] at hx
    rcases List.mem_append.mp hx with hx | hx
    · obtain ⟨a, ha, rfl⟩ := List.mem_map.mp hx
      rcases hk with rfl | rfl
      · exact (k2 a ha).1 hxk
      · exact (k2 a ha).2 hxk
    · obtain ⟨a, ha, rfl⟩ := List.mem_map.mp hx
      rcases items_kinds (List.mem_map_of_mem ha) with q | q | q | ⟨c, -, q⟩ | q | q <;>
        (simp only at hxk; rw [q] at hxk; cases hxk)
  obtain ⟨-, -, -, -, -, -, -, f1, f2, -, -⟩ := C13_flags _ _ r0 hr
  obtain ⟨w, hw⟩ := C92_total h1 h2 (unwords (hs.map Prod.fst ++ o.words)) taf y m d imperial
  refine ⟨w, ?_, (C112_remarks hs0 hg hr ht he (Bool.eq_false_iff.mpr fun q => no _ (Or.inl rfl) (f1.mp q))
    (Bool.eq_false_iff.mpr fun q => no _ (Or.inr rfl) (f2.mp q)) ?_ hl hw h).1⟩
  · exact C149_said (ex := []) ho hh ⟨fun x hx => (by cases hx), .nil, fun x hx => (by cases hx)⟩
      (by simpa using hs0) (by simpa using hl0) hw
  · intro hm
    rcases List.mem_append.mp hm with hm | hm
    · obtain ⟨x, hx, q⟩ := List.mem_map.mp hm
      exact k1 x hx q
    · rw [← items_words] at hm
      obtain ⟨x, hx, q⟩ := List.mem_flatMap.mp hm
      exact (hi x hx).2.2 _ q (by simp [stops])

/-- The report of the example of C149 with remarks. -/
example {taf : Str} {y m d : Int} {r : CurrentWeather} (h1 : PowTen) (h2 : PowSmall)
    (h : getCurrentWeather (unwords ([c!"METAR", c!"EFHK", timeText 17 12 50] ++ stormy.words ++
      [c!"RMK", c!"AO2", c!"SLP123"])) taf y m d false = .ok r) :
    r.windSpeed = perHour false stormy.wind.unit stormy.wind.speed ∧ r.isStormClouds = true := by
  have hh : HeaderText .METAR [(c!"METAR", .keyword ⟨.METAR⟩), (c!"EFHK", .location ⟨c!"EFHK"⟩),
      (timeText 17 12 50, .reportTime ⟨⟨some 17, 12, 50⟩⟩)] :=
    .metar (k := (c!"METAR", .keyword ⟨.METAR⟩)) (cor := []) (by simp) (by simp)
      ⟨'E', 'F', 'H', 'K', rfl, by unfold Capital; decide, Or.inl (by unfold Capital; decide),
        Or.inl (by unfold Capital; decide), Or.inl (by unfold Capital; decide)⟩ (by norm_num) (by norm_num) (by norm_num)
  have hg := groups_tokens (unwords ([c!"METAR", c!"EFHK", timeText 17 12 50] ++ stormy.words ++
      [c!"RMK", c!"AO2", c!"SLP123"]))
  rw [show tokens (unwords ([c!"METAR", c!"EFHK", timeText 17 12 50] ++ stormy.words ++ [c!"RMK", c!"AO2", c!"SLP123"])) =
    [c!"METAR", c!"EFHK", timeText 17 12 50] ++ stormy.words ++ [c!"RMK", c!"AO2", c!"SLP123"] by decide +kernel] at hg
  obtain ⟨w, hw, hs⟩ := C149_remarks h1 h2 stormy_ok hh hg (by decide) h
  rw [hs]
  exact ⟨hw.windSpeed, hw.isStormClouds.mpr (by decide +kernel)⟩

end

end Metaf.Props

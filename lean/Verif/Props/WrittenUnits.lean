import Verif.Props.MilesInMetres
import Verif.Props.PressureAcross
import Verif.Props.WrittenSummary

/-!
C154, C155: from the words of a METAR to visibility and pressure of its summary in the other unit. The other groups of the
report are any groups which can be written.
-/

set_option linter.unusedSectionVars false

namespace Metaf.Props

open Metaf Metaf.Spec Metaf.Summary

/-- The text is a METAR: a header, the groups `xs` which are observed, and trends with their groups. -/
structure Reports [FloatIeee] (report : Str) (hs : List (Str × Group)) (xs ex : List (Group × List Str)) : Prop where
  header : HeaderText .METAR hs
  some : xs ≠ []
  written : ∀ x ∈ xs, Written .METAR x.2 x.1 ∧ ¬ Unfinished x.2 ∧ ∀ w ∈ x.2, w ∉ stops .METAR
  noTrend : ∀ x ∈ xs, isTrend x.1 = false
  trends : Trends ex
  separate : (xs ++ ex).IsChain Separate
  groups : Groups report (hs.map Prod.fst ++ (xs ++ ex).flatMap Prod.snd)
  short : (hs.map Prod.fst ++ (xs ++ ex).flatMap Prod.snd).length < 200

/-- Words for visibility in miles: a word with a whole number or a fraction, or whole miles
and a word with a fraction. -/
inductive MilesWords : List Str → Distance → Prop
  | one {s d} : MilesGroup s d → MilesWords [s] d
  | two {k n s f} : k = 1 ∨ k = 2 → n < 10 ^ k → MilesGroup s ⟨.NONE, some f, .STATUTE_MILES⟩ → f % 10000 ≠ 0 →
      MilesWords [decimal k n, s] ⟨.NONE, some (10000 * n + f), .STATUTE_MILES⟩

section
variable [FloatIeee]

/-- The groups before the first trend of a report which is written. -/
theorem reports_gives {report : Str} {hs : List (Str × Group)} {xs ex : List (Group × List Str)}
    (h : Reports report hs xs ex) :
    ∃ gs, Gives report .METAR gs ∧ beforeTrend (gs.map (·.group)) = hs.map Prod.snd ++ xs.map Prod.fst := by
  obtain ⟨r, hr, ht, he, e⟩ := C70_layout h.header (by simp [h.some]) (fun x hm =>
    (List.mem_append.mp hm).elim (h.written x) (h.trends.written x)) h.separate h.groups h.short
  refine ⟨r.groups, ⟨r, hr, ht, he, rfl⟩, ?_⟩
  have e' : r.groups.map (·.group) = (hs.map Prod.snd ++ xs.map Prod.fst) ++ ex.map Prod.fst := by
    rw [e, List.map_append, List.map_map, List.map_map, List.map_append, ← List.append_assoc]
    rfl
  have hn : ∀ g ∈ hs.map Prod.snd ++ xs.map Prod.fst, (!isTrend g) = true := by
    intro g hg
    rcases List.mem_append.mp hg with hg | hg
    · obtain ⟨x, hx, rfl⟩ := List.mem_map.mp hg
      simp [(header_silent h.header x hx).says.1]
    · obtain ⟨x, hx, rfl⟩ := List.mem_map.mp hg
      simp [h.noTrend x hx]
  rw [e']
  unfold beforeTrend
  rw [List.takeWhile_append_of_pos hn]
  cases ex with
  | nil => simp
  | cons x ex =>
    have : isTrend x.1 = true := h.trends.trend x rfl
    simp [this]

/-- C154, from the words. Visibility in miles is written anywhere before the first trend, and neither visibility nor `CAVOK`
is written between it and the first trend. -/
theorem C154_written {metar taf : Str} {hs : List (Str × Group)} {before after ex : List (Group × List Str)}
    {ws : List Str} {d : Distance} {n : Nat} {y m dd : Int} {imperial : Bool} {r : CurrentWeather}
    (hw : MilesWords ws d) (hd : d.dist = some n) (hn : n ≤ 2000000)
    (hr : Reports metar hs (before ++ (.visibility { vis := d }, ws) :: after) ex)
    (ha : ∀ x ∈ after, x.1 ≠ .keyword ⟨.CAVOK⟩ ∧ ∀ v, x.1 ≠ .visibility v)
    (h : getCurrentWeather metar taf y m dd imperial = .ok r) :
    (imperial = true → r.visibility = ⌊(n : Rat) / 10000⌋) ∧
    (imperial = false → r.visibility = ⌊trueMetres (n / 10000)⌋ ∨ r.visibility = ⌊trueMetres (n / 10000)⌋ + 1) := by
  obtain ⟨gs, hgs, e⟩ := reports_gives hr
  have hu : d.distUnit = .STATUTE_MILES := by
    rcases hw with ⟨⟨-, rfl⟩ | ⟨p, t, m, q, -, -, -, rfl⟩⟩ | _ <;> rfl
  have e' : beforeTrend (gs.map (·.group)) =
      (hs.map Prod.snd ++ before.map Prod.fst) ++ .visibility { vis := d } :: after.map Prod.fst := by
    rw [e]
    simp
  refine C154_metar hgs h e' (Or.inl rfl) ?_ hd hu hn
  intro g hg
  obtain ⟨x, hx, rfl⟩ := List.mem_map.mp hg
  exact ⟨(ha x hx).1, fun v' ev => absurd ev ((ha x hx).2 v')⟩

end

section Pressure

attribute [local instance] ieee

theorem pressure_written {metar taf : Str} {hs : List (Str × Group)} {before after ex : List (Group × List Str)} {w : Str}
    {p : Pressure} {k y m dd : Int} {imperial : Bool} {r : CurrentWeather}
    (hr : Reports metar hs (before ++ (.pressure ⟨.OBSERVED_QNH, p, false⟩, [w]) :: after) ex)
    (ha : ∀ x ∈ after, ∀ g, x.1 ≠ .pressure g) (h : getCurrentWeather metar taf y m dd imperial = .ok r)
    (hk : pressureIn imperial p = some k) : r.atmosphericPressure = k := by
  obtain ⟨gs, hgs, e⟩ := reports_gives hr
  have e' : beforeTrend (gs.map (·.group)) =
      (hs.map Prod.snd ++ before.map Prod.fst) ++ .pressure ⟨.OBSERVED_QNH, p, false⟩ :: after.map Prod.fst := by
    rw [e]
    simp
  refine pressure_last hgs h e' rfl ?_ hk
  intro g hg
  obtain ⟨x, hx, ex⟩ := List.mem_map.mp hg
  exact absurd ex (ha x hx g)

/-- C155, from the words. The altimeter setting in inches of mercury is written anywhere before the first trend, and no
other pressure between it and the first trend. -/
theorem C155_written_inches {metar taf : Str} {hs : List (Str × Group)} {before after ex : List (Group × List Str)}
    {n : Nat} {y m dd : Int} {r : CurrentWeather} (hn : 2300 ≤ n) (hn' : n < 3300)
    (hr : Reports metar hs (before ++
      (.pressure ⟨.OBSERVED_QNH, ⟨some (inHgOf n), .INCHES_HG⟩, false⟩, ['A' :: decimal 4 n]) :: after) ex)
    (ha : ∀ x ∈ after, ∀ g, x.1 ≠ .pressure g) (h : getCurrentWeather metar taf y m dd false = .ok r) :
    r.atmosphericPressure = ⌊(n : Rat) / 100 * hectopascalsPerInch⌋ :=
  pressure_written hr ha h (C155_inches hn hn' ((C36_pressure _ _).mpr
    (Or.inr (Or.inr (Or.inl ⟨n, by omega, rfl, rfl⟩)))))

/-- C155, from the words. The same for pressure in hectopascals and the summary in imperial units. -/
theorem C155_written_hectopascals {metar taf : Str} {hs : List (Str × Group)} {before after ex : List (Group × List Str)}
    {n : Nat} {y m dd : Int} {r : CurrentWeather} (hn : 750 ≤ n) (hn' : n < 1150)
    (hr : Reports metar hs (before ++
      (.pressure ⟨.OBSERVED_QNH, ⟨some n, .HECTOPASCAL⟩, false⟩, ['Q' :: decimal 4 n]) :: after) ex)
    (ha : ∀ x ∈ after, ∀ g, x.1 ≠ .pressure g) (h : getCurrentWeather metar taf y m dd true = .ok r) :
    r.atmosphericPressure = ⌊(n : Rat) / hectopascalsPerInch * 100⌋ :=
  pressure_written hr ha h (C155_hectopascals hn hn' ((C36_pressure _ _).mpr
    (Or.inr (Or.inr (Or.inr ⟨n, by omega, rfl, rfl⟩)))))

theorem half_mile : MilesGroup c!"1/2SM" ⟨.NONE, some 5000, .STATUTE_MILES⟩ :=
  Or.inr ⟨[], c!"1/2", .NONE, 1 / 2, rfl, Or.inl ⟨rfl, rfl⟩, Or.inr ⟨1, 1, 1, 2, Or.inl rfl, Or.inl rfl, by norm_num,
    by norm_num, rfl, by norm_num, by norm_num, Or.inl ⟨by norm_num, by norm_num⟩⟩, by norm_num⟩

/-- An American report: two words for visibility, the altimeter setting in inches, and a trend with other wind. -/
def american : Str := c!"METAR KDEN 201853Z 27012KT 1 1/2SM A2992 TEMPO 33040KT="

def americanWind : Group × List Str :=
  (.wind (WindText.group ⟨none, .tens 27, some 12, none, .KNOTS⟩), [c!"27012KT"])

def americanVisibility : Group × List Str :=
  (.visibility { vis := ⟨.NONE, some (10000 * 1 + 5000), .STATUTE_MILES⟩ }, [decimal 1 1, c!"1/2SM"])

def americanPressure : Group × List Str :=
  (.pressure ⟨.OBSERVED_QNH, ⟨some (inHgOf 2992), .INCHES_HG⟩, false⟩, ['A' :: decimal 4 2992])

theorem american_reports : Reports american
    [(c!"METAR", .keyword ⟨.METAR⟩), (c!"KDEN", .location ⟨c!"KDEN"⟩), (timeText 20 18 53, .reportTime ⟨⟨some 20, 18, 53⟩⟩)]
    [americanWind, americanVisibility, americanPressure]
    [(.trend (trendMeaning [.tempo]), [c!"TEMPO"]),
      (.wind (WindText.group ⟨none, .tens 33, some 40, none, .KNOTS⟩), [c!"33040KT"])] where
  header := .metar (k := (c!"METAR", .keyword ⟨.METAR⟩)) (cor := []) (by simp) (by simp)
      ⟨'K', 'D', 'E', 'N', rfl, by unfold Capital; decide, Or.inl (by unfold Capital; decide),
        Or.inl (by unfold Capital; decide), Or.inl (by unfold Capital; decide)⟩ (by norm_num) (by norm_num) (by norm_num)
  some := by simp
  written := by
    intro x hx
    simp only [List.mem_cons, List.not_mem_nil, or_false] at hx
    rcases hx with rfl | rfl | rfl
    · exact ⟨.wind (.wind (w := ⟨none, .tens 27, some 12, none, .KNOTS⟩) (Or.inl rfl) ⟨fun h hh => (by cases hh),
        (by show (27 : Nat) < 100; norm_num), fun n hn => (by cases hn; norm_num), fun n hn => (by cases hn),
        fun e => (by cases e)⟩), long_not_unfinished (by decide), by decide⟩
    · exact ⟨.milesAndFraction (Or.inl rfl) (by norm_num) half_mile (by norm_num), (fun hu => by cases hu), by decide⟩
    · exact ⟨.pressure rfl (Or.inr (Or.inr (Or.inl ⟨2992, by norm_num, rfl, rfl⟩))), long_not_unfinished (by decide),
        by decide⟩
  noTrend := by
    intro x hx
    simp only [List.mem_cons, List.not_mem_nil, or_false] at hx
    rcases hx with rfl | rfl | rfl <;> rfl
  trends := by
    refine ⟨?_, .cons_cons (Or.inl (Nat.ne_of_beq_eq_false rfl)) (.singleton _), fun x hx => by cases hx; rfl⟩
    intro x hx
    rcases List.mem_cons.mp hx with rfl | hx
    · exact ⟨.trend (ws := [.tempo]) (.one trivial (Or.inl rfl)), long_not_unfinished (by decide), by decide⟩
    · rw [List.mem_singleton.mp hx]
      refine ⟨.wind (.wind (w := ⟨none, .tens 33, some 40, none, .KNOTS⟩) (Or.inl rfl) ⟨fun h hh => (by cases hh),
        (by show (33 : Nat) < 100; norm_num), fun n hn => (by cases hn; norm_num), fun n hn => (by cases hn),
        fun e => (by cases e)⟩), long_not_unfinished (by decide), by decide⟩
  separate := .cons_cons (Or.inl (Nat.ne_of_beq_eq_false rfl)) (.cons_cons (Or.inl (Nat.ne_of_beq_eq_false rfl))
    (.cons_cons (Or.inl (Nat.ne_of_beq_eq_false rfl)) (.cons_cons (Or.inl (Nat.ne_of_beq_eq_false rfl)) (.singleton _))))
  groups := by
    have hg := groups_tokens american
    have hw : tokens american = [c!"METAR", c!"KDEN", timeText 20 18 53, c!"27012KT", decimal 1 1, c!"1/2SM",
      'A' :: decimal 4 2992, c!"TEMPO", c!"33040KT"] := by decide +kernel
    rw [hw] at hg
    exact hg
  short := by show (9 : Nat) < 200; norm_num

/-- Its summary. A mile and a half is 2414.016 metres. -/
example {taf : Str} {y m d : Int} {r : CurrentWeather} (h : getCurrentWeather american taf y m d false = .ok r) :
    r.atmosphericPressure = 1013 ∧ (r.visibility = 2414 ∨ r.visibility = 2415) := by
  constructor
  · rw [C155_written_inches (n := 2992) (before := [americanWind, americanVisibility]) (after := [])
      (by norm_num) (by norm_num) american_reports (by simp) h,
      Int.floor_eq_iff]
    unfold hectopascalsPerInch
    norm_num
  · have hv := (C154_written (before := [americanWind]) (after := [americanPressure])
      (.two (k := 1) (n := 1) (Or.inl rfl) (by norm_num) half_mile (by norm_num)) rfl (by norm_num) american_reports
      (by simp [americanPressure]) h).2 rfl
    have e : ⌊trueMetres (((10000 * 1 + 5000 : Nat) : Rat) / 10000)⌋ = 2414 := by
      rw [Int.floor_eq_iff]
      unfold trueMetres
      norm_num
    rw [e] at hv
    exact hv

end Pressure

end Metaf.Props

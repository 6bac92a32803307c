import Verif.Props.RemarkDivision
import Verif.Props.Decoding

/-!
C144: remarks which are written are read back.
-/

set_option linter.unusedSectionVars false

namespace Metaf.Props

open Metaf Metaf.Spec

variable [FloatIeee]

/-! ### Specification -/

/-- Remarks which are complete: whatever follows, they are read by themselves. The remarks of the automated
stations (`AO1`, `AO2`, sensors which do not work), the coded data of American reports (sea level pressure, tenths
of degrees, extreme temperatures, precipitation, pressure tendency, clouds, sunshine), beginning and end of weather
events, peak wind and wind shift with a front, the depth of new snow, pressure in the forms of other countries and
colour codes of airfields. -/
inductive WholeRemark (now : Option Nat) : List Str → Group → Prop
  | keyword {s k} : IsKeyword .RMK s k → WholeRemark now [s] (.keyword ⟨k⟩)
  | fixed {s g} : (s, g) ∈ fixedWords → WholeRemark now [s] g
  | missing {s g g'} : (s, g, g') ∈ missingWords → WholeRemark now [s, c!"MISG"] g'
  | missingWind : WholeRemark now [c!"WND", c!"MISG"] (.wind { windType := .WND_MISG })
  | peakWind {d v s t} : d < 100 → v < 1000 → EventTime now s t →
      WholeRemark now [c!"PK", c!"WND", decimal 3 (10 * d) ++ speedText v ++ c!"/" ++ s]
        (.wind { windType := .PEAK_WIND, windDir := ⟨10 * d, .VALUE_DEGREES⟩, wSpeed := ⟨some v, .KNOTS⟩
                 evTime := some t })
  | windShift {s t} : EventTime now s t →
      WholeRemark now [c!"WSHFT", s, c!"FROPA"] (.wind { windType := .WIND_SHIFT_FROPA, evTime := some t })
  | events {h fs es} : now = some h → fs ≠ [] → (∀ f ∈ fs, f.Ok) → readEvents h none fs = some es →
      WholeRemark now [(fs.map EventForm.text).flatten] (.weather { t := .EVENT, w := (es.take 20).map stored })
  | lightningSensor : WholeRemark now [c!"TS/LTNG", c!"TEMPO", c!"UNAVBL"]
      (.weather { t := .TS_LTNG_TEMPO_UNAVBL })
  | temperature {t : Tenths} {d : Option Tenths} : t.Ok → (∀ x ∈ d, x.Ok) →
      WholeRemark now [c!"T" ++ t.text ++ tenthsText d]
        (.temperature ⟨.TEMPERATURE_AND_DEW_POINT, t.temperature, tenthsDewPoint d, false⟩)
  | pressure {s q} : QnhWritten s q → WholeRemark now [s] (.pressure ⟨.OBSERVED_QNH, q, false⟩)
  | seaLevelPressure {n} : n < 1000 → WholeRemark now [c!"SLP" ++ decimal 3 n]
      (.pressure ⟨.OBSERVED_SLP, ⟨some (slpOf n), .HECTOPASCAL⟩, false⟩)
  | stationPressure {n : Nat} {s} : n < 1000 →
      (s = c!"QFE" ++ decimal 3 n ∨ ∃ m, m < 10000 ∧ s = c!"QFE" ++ decimal 3 n ++ c!"/" ++ decimal 4 m) →
      WholeRemark now [s] (.pressure ⟨.OBSERVED_QFE, ⟨some n, .MM_HG⟩, false⟩)
  | sixHourly {b n b' n'} : n < 1000 → n' < 1000 →
      WholeRemark now [c!"1" ++ remarkTemperatureText b n, c!"2" ++ remarkTemperatureText b' n']
        (.minMaxTemperature { t := .OBSERVED_6_HOURLY, maxTemp := remarkTemperature b n,
                              minTemp := remarkTemperature b' n' })
  | daily {b n b' n'} : n < 1000 → n' < 1000 →
      WholeRemark now [c!"4" ++ remarkTemperatureText b n ++ remarkTemperatureText b' n']
        (.minMaxTemperature { t := .OBSERVED_24_HOURLY, maxTemp := remarkTemperature b n,
                              minTemp := remarkTemperature b' n' })
  | precipitation {code k t u scale v p} : (code, k, t, u, scale) ∈ amountTable now →
      AmountWritten k scale u v p → WholeRemark now [code ++ v] (.precipitation ⟨t, p, ⟨none, .MM⟩, false⟩)
  | snowIncrease {s p q} : SnincrWritten s p q →
      WholeRemark now [c!"SNINCR", s] (.precipitation ⟨.SNOW_INCREASING_RAPIDLY, q, p, false⟩)
  | tendency {c r t p} : TendencyWritten c t → DifferenceWritten r p →
      WholeRemark now [c!"5" ++ [c] ++ r] (.pressureTendency ⟨t, p⟩)
  | cloudOktas {l : List Str} {cs} : l ≠ [] → (∀ t ∈ l, Segment t) → List.Forall₂ OktaText (l.take 8) cs →
      WholeRemark now [l.flatten] (.cloudTypes ⟨cs⟩)
  | cloudCodes {a b c} {g : LowMidHighCloudGroup} : CodeWritten lowCode .NOT_OBSERVABLE a g.cloudLowLayer →
      CodeWritten midCode .NOT_OBSERVABLE b g.cloudMidLayer →
      CodeWritten highCode .NOT_OBSERVABLE c g.cloudHighLayer →
      WholeRemark now [['8', '/', a, b, c]] (.lowMidHighCloud g)
  | colour {w t} : (w, t) ∈ colourCodes → WholeRemark now [w] (.misc { groupType := t })
  | sunshine {n} : n < 1000 → WholeRemark now [c!"98" ++ decimal 3 n]
      (.misc { groupType := .SUNSHINE_DURATION_MINUTES, groupData := some (n : Rat) })
  | frostOnInstrument : WholeRemark now [c!"FROIN"] (.misc { groupType := .FROIN })

/-- The remark is not continued by the word after it, and does not need to be. -/
def EndsBefore (now : Option Nat) (next : Option Str) (ws : List Str) : Prop :=
  (∀ w, next = some w → ∀ g, ¬ Remark now (ws ++ [w]) g) ∧ ¬ Lacking (next.getD []) ws

/-- Each remark ends before the next one. -/
def RemarksApart (now : Option Nat) : List (Group × List Str) → Prop
  | [] => True
  | x :: items => EndsBefore now (items.flatMap Prod.snd).head? x.2 ∧ RemarksApart now items

/-! ### Complete remarks -/

theorem whole_remark {now : Option Nat} {ws : List Str} {g : Group} (h : WholeRemark now ws g) : Remark now ws g := by
  cases h with
  | keyword h => exact .keyword h
  | fixed h => exact .fixed h
  | missing h => exact .missingSaid h
  | missingWind => exact .wind (.missingWind rfl)
  | peakWind h1 h2 h3 => exact .wind (.peakWind rfl h1 h2 h3)
  | windShift h => exact .wind (.shiftTimeFront rfl h)
  | events h1 h2 h3 h4 => exact .events h1 h2 h3 h4
  | lightningSensor => exact .lightningSensorUnavailable
  | temperature h1 h2 => exact .temperature h1 h2
  | pressure h => exact .pressure h
  | seaLevelPressure h => exact .seaLevelPressure h
  | stationPressure h1 h2 => exact .stationPressure h1 h2
  | @sixHourly b n b' n' h1 h2 =>
    exact .sixHourly (SixHourly.maxMin (ms := []) (ns := []) (by simp) (by simp) h1 h2)
  | daily h1 h2 => exact .daily h1 h2
  | precipitation h1 h2 => exact .precipitation h1 h2
  | snowIncrease h => exact .snowIncrease h
  | tendency h1 h2 => exact .tendency h1 h2
  | cloudOktas h1 h2 h3 => exact .cloudOktas h1 h2 h3
  | cloudCodes h1 h2 h3 => exact .cloudCodes h1 h2 h3
  | colour h => exact .misc (.colour (Or.inr rfl) h)
  | sunshine h => exact .misc (.sunshine h)
  | frostOnInstrument => exact .misc .frostOnInstrument

theorem whole_closed {now : Option Nat} {ws : List Str} {g : Group} (h : WholeRemark now ws g) (s : Str)
    (md : ReportMetadata) : g.append s .RMK md = .ok (g, .NOT_APPENDED) := by
  cases h with
  | keyword h => rfl
  | fixed h => exact fixed_closed h s _ md
  | missing h => exact missing_closed h s _ md
  | missingWind => rfl
  | peakWind h1 h2 h3 => rfl
  | windShift h => rfl
  | events h1 h2 h3 h4 => rfl
  | lightningSensor => rfl
  | temperature h1 h2 => rfl
  | pressure h => rfl
  | seaLevelPressure h => rfl
  | stationPressure h1 h2 => rfl
  | sixHourly h1 h2 =>
    simp only [Group.append, six_append, remark_reported, Bool.and_self, if_true]
  | daily h1 h2 => rfl
  | precipitation h1 h2 => simp only [Group.append, amount_closed h1]
  | snowIncrease h => simp only [Group.append, snincr_closed h]
  | tendency h1 h2 => rfl
  | cloudOktas h1 h2 h3 => simp only [Group.append, oktas_closed h1 h3]
  | cloudCodes h1 h2 h3 => rfl
  | colour h => rfl
  | sunshine h => rfl
  | frostOnInstrument => rfl

theorem whole_settled {now : Option Nat} {ws : List Str} {g : Group} (h : WholeRemark now ws g) :
    settled g = g ∧ (∀ u, g ≠ .unknown u) ∧ g.index ≠ 6 ∧ g.index ≠ 19 := by
  cases h with
  | fixed h =>
    simp only [fixedWords, List.mem_cons, Prod.mk.injEq, List.not_mem_nil, or_false] at h
    rcases h with ⟨-, rfl⟩ | ⟨-, rfl⟩ | ⟨-, rfl⟩ | ⟨-, rfl⟩ | ⟨-, rfl⟩ | ⟨-, rfl⟩ | ⟨-, rfl⟩ <;>
      exact ⟨rfl, nofun, by decide, by decide⟩
  | missing h =>
    simp only [missingWords, List.mem_cons, Prod.mk.injEq, List.not_mem_nil, or_false] at h
    rcases h with ⟨-, -, rfl⟩ | ⟨-, -, rfl⟩ | ⟨-, -, rfl⟩ | ⟨-, -, rfl⟩ | ⟨-, -, rfl⟩ | ⟨-, -, rfl⟩ <;>
      exact ⟨rfl, nofun, by decide, by decide⟩
  | _ => exact ⟨rfl, nofun, by simp [Group.index], by simp [Group.index]⟩

/-- A complete remark ends before every word. -/
theorem whole_ends {now : Option Nat} {ws : List Str} {g : Group} (h : WholeRemark now ws g) (next : Option Str) :
    EndsBefore now next ws := by
  obtain ⟨md, rfl⟩ := hour_exists now
  have hr := remark_reads (whole_remark h)
  obtain ⟨-, -, h6, h19⟩ := whole_settled h
  have hna : ∀ v ∈ ambiguous, ws ≠ [v] := by
    rintro v hv rfl
    rcases ambiguous_index hv (reads_single hr) with e | e
    · exact h6 e
    · exact h19 e
  constructor
  · intro w _ g'
    refine not_continued hr hna ?_ g'
    intro g'' e
    rw [whole_closed h] at e
    cases e
  · rcases remark_cases hr (next.getD []) with ⟨g', e⟩ | ⟨g', e, -⟩ | ⟨-, e⟩
    · rw [whole_closed h] at e; cases e
    · rw [whole_closed h] at e; cases e
    · exact e

theorem divided_written {now : Option Nat} : ∀ {items : List (Group × List Str)},
    (∀ x ∈ items, Remark now x.2 x.1) → RemarksApart now items →
    DividedRemarks now (items.flatMap Prod.snd) (items.map fun x => (settled x.1, x.2))
  | [], _, _ => .nil
  | x :: items, h, ha => by
    rw [List.flatMap_cons, List.map_cons]
    refine .group (h x (by simp)) ha.1.1 ?_ (divided_written (fun y hy => h y (by simp [hy])) ha.2)
    have := ha.1.2
    rwa [← List.headD_eq_head?_getD] at this

theorem remark_known {now : Option Nat} {ws : List Str} {g : Group} (h : Remark now ws g) : ∀ u, settled g ≠ .unknown u := by
  have hu : ∀ u, g ≠ .unknown u := by
    rintro u rfl
    cases h with
    | fixed h => simp [fixedWords] at h
    | missing h => simp [missingWords] at h
    | missingSaid h => simp [missingWords] at h
  intro u e
  cases g <;> first | exact hu _ e | cases e

/-! ### Properties -/

/-- C144. In a report with a header, groups of the body and remarks, each in the words which express it, if each
remark ends before the next one, the result consists of exactly these groups, in order, each in its part of the
report with its words as raw string, and there is no error. -/
theorem C144_written {report : Str} {limit : Nat} {ty : ReportType} {hs : List (Str × Group)}
    {items ritems : List (Group × List Str)} (hh : HeaderText ty hs)
    (hw : ∀ x ∈ items, Written (bodyPart ty) x.2 x.1 ∧ ¬ Unfinished x.2 ∧ ∀ w ∈ x.2, w ∉ stops (bodyPart ty))
    (hs' : items.IsChain Separate) (hr : ty = .TAF → ∀ x ∈ ritems, c!"$" ∉ x.2)
    (hg : Groups report (hs.map Prod.fst ++ items.flatMap Prod.snd ++ c!"RMK" :: ritems.flatMap Prod.snd))
    (hl : (hs.map Prod.fst ++ items.flatMap Prod.snd ++ c!"RMK" :: ritems.flatMap Prod.snd).length < limit)
    (hrw : ∀ x ∈ ritems, Remark (headerHour hs) x.2 x.1) (hra : RemarksApart (headerHour hs) ritems) :
    ∃ r, Result report limit r ∧ r.reportMetadata.type = ty ∧ r.reportMetadata.error = .NONE ∧
      r.groups = hs.map (fun x => ⟨x.2, .HEADER, x.1⟩) ++
        items.map (fun x => ⟨x.1, bodyPart ty, unwords x.2⟩) ++
        ⟨.keyword ⟨.RMK⟩, bodyPart ty, c!"RMK"⟩ :: ritems.map (fun x => ⟨settled x.1, .RMK, unwords x.2⟩) := by
  have hh := header_iff.mp hh
  have hp : isBody (bodyPart ty) := by rcases bodyType hh with rfl | rfl <;> simp [isBody, bodyPart]
  have e : entries .RMK (ritems.map fun x => (settled x.1, x.2)) =
      ritems.map (fun x => (⟨settled x.1, .RMK, unwords x.2⟩ : GroupInfo)) := by
    rw [entries_known, List.map_map]
    · rfl
    · intro x hx
      obtain ⟨y, hy, rfl⟩ := List.mem_map.mp hx
      exact remark_known (hrw y hy)
  rw [← entries_known (p := bodyPart ty) fun x hx => written_known hp (hw x hx).1, ← e]
  refine C73_report hh hg ?_ ?_ (by simp only [List.length_append, List.length_map, List.length_cons] at hl; omega)
    (divided_items hp (fun x hx => ⟨(hw x hx).1, (hw x hx).2.1⟩) hs') (divided_written hrw hra)
  · intro w hm
    obtain ⟨x, hx, hm⟩ := List.mem_flatMap.mp hm
    exact (hw x hx).2.2 w hm
  · intro ht hm
    obtain ⟨x, hx, hm⟩ := List.mem_flatMap.mp hm
    exact hr ht x hx hm

/-- C144. Complete remarks may be written in any order: they are read as they are written. -/
theorem C144_whole {report : Str} {limit : Nat} {ty : ReportType} {hs : List (Str × Group)}
    {items ritems : List (Group × List Str)} (hh : HeaderText ty hs)
    (hw : ∀ x ∈ items, Written (bodyPart ty) x.2 x.1 ∧ ¬ Unfinished x.2 ∧ ∀ w ∈ x.2, w ∉ stops (bodyPart ty))
    (hs' : items.IsChain Separate) (hr : ty = .TAF → ∀ x ∈ ritems, c!"$" ∉ x.2)
    (hg : Groups report (hs.map Prod.fst ++ items.flatMap Prod.snd ++ c!"RMK" :: ritems.flatMap Prod.snd))
    (hl : (hs.map Prod.fst ++ items.flatMap Prod.snd ++ c!"RMK" :: ritems.flatMap Prod.snd).length < limit)
    (hrw : ∀ x ∈ ritems, WholeRemark (headerHour hs) x.2 x.1) :
    ∃ r, Result report limit r ∧ r.reportMetadata.type = ty ∧ r.reportMetadata.error = .NONE ∧
      r.groups = hs.map (fun x => ⟨x.2, .HEADER, x.1⟩) ++
        items.map (fun x => ⟨x.1, bodyPart ty, unwords x.2⟩) ++
        ⟨.keyword ⟨.RMK⟩, bodyPart ty, c!"RMK"⟩ :: ritems.map (fun x => ⟨x.1, .RMK, unwords x.2⟩) := by
  have ha : ∀ l : List (Group × List Str), (∀ x ∈ l, WholeRemark (headerHour hs) x.2 x.1) → RemarksApart (headerHour hs) l := by
    intro l
    induction l with
    | nil => intro _; trivial
    | cons x l ih => exact fun h => ⟨whole_ends (h x (by simp)) _, ih fun y hy => h y (by simp [hy])⟩
  have e : ritems.map (fun x => (⟨x.1, .RMK, unwords x.2⟩ : GroupInfo)) =
      ritems.map (fun x => ⟨settled x.1, .RMK, unwords x.2⟩) :=
    List.map_congr_left fun x hx => by rw [(whole_settled (hrw x hx)).1]
  rw [e]
  exact C144_written hh hw hs' hr hg hl (fun x hx => whole_remark (hrw x hx)) (ha _ hrw)

/-! ### Cases -/

/-- A maximum temperature without a minimum ends before `SLP134`, but not before `20183`. -/
example : EndsBefore none (some c!"SLP134") [c!"10311"] ∧ ¬ EndsBefore none (some c!"20183") [c!"10311"] := by
  have h0 : Reads .RMK {} [c!"10311"]
      (.minMaxTemperature { t := .OBSERVED_6_HOURLY, maxTemp := remarkTemperature false 311 }) :=
    remark_reads (md := {}) (.sixHourly (SixHourly.maximum (ms := []) (ns := []) (b := false) (n := 311)
      (by simp) (by simp) (by decide)))
  constructor
  · constructor
    · rintro w ⟨⟩
      refine not_continued h0 (by decide) ?_
      intro g' e
      simp only [Group.append, six_append] at e
      cases e
    · intro hl
      rcases remark_cases h0 c!"SLP134" with ⟨g', e⟩ | ⟨g', e, -⟩ | ⟨-, e⟩
      · simp only [Group.append, six_append] at e; cases e
      · simp only [Group.append, six_append] at e; cases e
      · exact e hl
  · intro h
    exact h.1 _ rfl _ (.sixHourly (SixHourly.maxMin (ms := []) (ns := []) (b := false) (n := 311) (b' := false)
      (n' := 183) (by simp) (by simp) (by decide) (by decide)))

/-- `AO2 SLP134 T02330128 10311 20183`. -/
example : ∀ x ∈ [((.keyword ⟨.AO2⟩ : Group), [c!"AO2"]),
      (.pressure ⟨.OBSERVED_SLP, ⟨some (slpOf 134), .HECTOPASCAL⟩, false⟩, [c!"SLP134"]),
      (.temperature ⟨.TEMPERATURE_AND_DEW_POINT, Tenths.temperature ⟨false, 233⟩,
        tenthsDewPoint (some ⟨false, 128⟩), false⟩, [c!"T02330128"]),
      (.minMaxTemperature { t := .OBSERVED_6_HOURLY, maxTemp := remarkTemperature false 311,
                            minTemp := remarkTemperature false 183 }, [c!"10311", c!"20183"])],
    WholeRemark (some 17) x.2 x.1 := by
  intro x hx
  simp only [List.mem_cons, List.not_mem_nil, or_false] at hx
  rcases hx with rfl | rfl | rfl | rfl
  · exact .keyword ⟨[.RMK], by simp [keywords], by simp⟩
  · exact .seaLevelPressure (n := 134) (by decide)
  · exact .temperature (t := ⟨false, 233⟩) (d := some ⟨false, 128⟩) (by unfold Tenths.Ok; decide)
      (by simp [Tenths.Ok])
  · exact .sixHourly (b := false) (n := 311) (b' := false) (n' := 183) (by decide) (by decide)

end Metaf.Props

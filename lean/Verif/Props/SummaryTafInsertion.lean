import Verif.Props.SummaryDepends

/-!
C147: groups of other kinds and unknown words inserted in a TAF report.
-/

set_option linter.unusedSectionVars false

namespace Metaf.Props

open Metaf Metaf.Spec Metaf.Summary

variable [FloatIeee]

theorem beforeTrend_insert {ga gb : List GroupInfo} {x : GroupInfo} (h : toldTaf x.group = false)
    (ht : isTrend x.group = false) : (beforeTrend ((ga ++ x :: gb).map (·.group))).filter toldTaf =
      (beforeTrend ((ga ++ gb).map (·.group))).filter toldTaf := by
  unfold beforeTrend
  induction ga with
  | nil => simp [ht, h]
  | cons y ga ih =>
    by_cases hy : isTrend y.group = true
    · simp [hy]
    · have hy : isTrend y.group = false := by simpa using hy
      simp only [List.cons_append, List.map_cons, List.takeWhile_cons, hy, Bool.not_false, if_true, List.filter_cons]
      rw [ih]

theorem toldOfTaf_insert {ga gb : List GroupInfo} {x : GroupInfo} (h : toldTaf x.group = false)
    (ht : isTrend x.group = false) : toldOfTaf (ga ++ x :: gb) = toldOfTaf (ga ++ gb) := by
  have step : ∀ (y : GroupInfo) (l : List GroupInfo), toldOfTaf (y :: l) =
      if isTrend y.group = true then (beforeTrend (l.map (·.group))).filter toldTaf
      else [y.group].filter toldTaf ++ toldOfTaf l := by
    intro y l
    unfold toldOfTaf beforeSecondTrend
    by_cases hy : isTrend y.group = true
    · rw [if_pos hy]
      simp [beforeTrend, hy]
    · rw [if_neg hy]
      have hy : isTrend y.group = false := by simpa using hy
      simp only [List.map_cons, beforeTrend, List.takeWhile_cons, hy, Bool.not_false, if_true, List.dropWhile_cons,
        List.cons_append]
      rw [← List.filter_append]
      rfl
  induction ga with
  | nil =>
    rw [List.nil_append, List.nil_append, step, if_neg (by rw [ht]; nofun)]
    simp [h]
  | cons y ga ih =>
    rw [List.cons_append, List.cons_append, step, step, ih, beforeTrend_insert h ht]

theorem forecasts_insert {ga gb : List GroupInfo} {x : GroupInfo} (h : minMaxOf x.group = none) :
    forecasts (ga ++ x :: gb) = forecasts (ga ++ gb) := by
  simp [forecasts, h]

/-- C147. A group of another kind inserted in the body of a TAF report, at a place as in C114, does not change
the summary, with any METAR report or without one. -/
theorem C147_taf_group {s s' metar : Str} {wb v : List Str} {r : ParseResult} {ga gb : List GroupInfo}
    {x : GroupInfo} {g : Group} (hs : Groups s (ga.flatMap (fun x => words x.rawString) ++ wb))
    (hs' : Groups s' (ga.flatMap (fun x => words x.rawString) ++ (v ++ wb))) (hr : Result s 200 r)
    (hty : r.reportMetadata.type = .TAF) (he : r.reportMetadata.error = .NONE) (hn : r.reportMetadata.isNil = false)
    (hc : r.reportMetadata.isCancelled = false) (hg : r.groups = ga ++ gb)
    (hl : (ga.flatMap (fun x => words x.rawString) ++ (v ++ wb)).length + 1 < 200)
    (hx : ga.getLast? = some x) (hxp : x.reportPart = .TAF) (hxk : Known x)
    (hrm : ∀ y ∈ ga, y.group ≠ .keyword ⟨.RMK⟩) (hw : Written .TAF v g) (hf : ¬ Unfinished v)
    (hst : ∀ w ∈ v, w ∉ stops .TAF)
    (hbefore : ∀ w, v.head? = some w → ∀ g', ¬ Written .TAF (words x.rawString ++ [w]) g')
    (hafter : ∀ w, wb.head? = some w → ∀ g', ¬ Written .TAF (v ++ [w]) g')
    (ht : toldTaf g = false) (htr : isTrend g = false) (hrel : releaseOf g = none) (hmm : minMaxOf g = none)
    (y m d : Int) (imperial : Bool) :
    getCurrentWeather metar s' y m d imperial = getCurrentWeather metar s y m d imperial := by
  have hb : bodyPart r.reportMetadata.type = .TAF := by rw [hty]; rfl
  obtain ⟨r', h1, h2, h3, h4⟩ := C114_group hs hs' hr he hn hc hg hl hx (hb ▸ hxp) hxk hrm (hb ▸ hw) hf (hb ▸ hst)
    (hb ▸ hbefore) (hb ▸ hafter)
  exact C147_taf ⟨r, hr, hty, he, hg⟩ ⟨r', h1, h3.trans hty, h4, h2⟩ (toldOfTaf_insert ht htr)
    (releases_insert hrel) (forecasts_insert hmm) y m d imperial

/-- C147. A word which is no group inserted in the body of a TAF report, at a place as in C114, does not change
the summary, with any METAR report or without one. -/
theorem C147_taf_word {s s' metar : Str} {wb : List Str} {r : ParseResult} {ga gb : List GroupInfo}
    {x : GroupInfo} {u : Str} (hs : Groups s (ga.flatMap (fun x => words x.rawString) ++ wb))
    (hs' : Groups s' (ga.flatMap (fun x => words x.rawString) ++ u :: wb)) (hr : Result s 200 r)
    (hty : r.reportMetadata.type = .TAF) (he : r.reportMetadata.error = .NONE) (hn : r.reportMetadata.isNil = false)
    (hc : r.reportMetadata.isCancelled = false) (hg : r.groups = ga ++ gb)
    (hl : (ga.flatMap (fun x => words x.rawString) ++ u :: wb).length + 1 < 200)
    (hx : ga.getLast? = some x) (hxp : x.reportPart = .TAF) (hxk : Known x)
    (hrm : ∀ y ∈ ga, y.group ≠ .keyword ⟨.RMK⟩) (hb : ∀ y, gb.head? = some y → Known y)
    (hu : ∀ g, ¬ Written .TAF [u] g) (y m d : Int) (imperial : Bool) :
    getCurrentWeather metar s' y m d imperial = getCurrentWeather metar s y m d imperial := by
  have hp : bodyPart r.reportMetadata.type = .TAF := by rw [hty]; rfl
  obtain ⟨r', h1, h2, h3⟩ := C114_unknown hs hs' hr he hn hc hg hl hx (hp ▸ hxp) hxk hrm hb (hp ▸ hu)
  refine C147_taf ⟨r, hr, hty, he, hg⟩ ⟨r', h1, ?_, ?_, h2⟩ (toldOfTaf_insert rfl rfl)
    (releases_insert rfl) (forecasts_insert rfl) y m d imperial
  · rw [h3, hty]
  · rw [h3, he]

theorem unwritten_taf {w : Str} (h : ∀ i < 21, recognise i w .TAF {} = .ok none) (g : Group) :
    ¬ Written .TAF [w] g := by
  intro hw
  obtain ⟨v, rest, g0, e, hr⟩ := first_kind (written_reads (Or.inr rfl) (md := {}) hw)
  obtain ⟨rfl, -⟩ := List.cons.inj e
  rw [h _ (recognise_shape hr).1] at hr
  cases hr

theorem apart_taf {ws : List Str} {g : Group} {w : Str} (h : Written .TAF ws g)
    (ha : g.append w .TAF {} = .ok (g, .NOT_APPENDED)) (g' : Group) : ¬ Written .TAF (ws ++ [w]) g' := by
  intro hw
  obtain ⟨y, hy⟩ := (taken_iff (Or.inr rfl) (written_reads (Or.inr rfl) (md := {}) h) w).mpr ⟨g', hw⟩
  rw [ha] at hy
  injection hy with hy
  injection hy with _ hy
  cases hy

/-- The report of the examples. -/
theorem example_taf : ∃ r, Result c!"TAF ULLI 111700Z 1118/1218 24005MPS CAVOK TX06/1112Z" 200 r ∧
    r.reportMetadata.error = .NONE ∧ r.reportMetadata.isNil = false ∧ r.reportMetadata.isCancelled = false ∧
    r.reportMetadata.type = .TAF ∧ r.groups.take 5 =
      [⟨.keyword ⟨.TAF⟩, .HEADER, c!"TAF"⟩, ⟨.location ⟨c!"ULLI"⟩, .HEADER, c!"ULLI"⟩,
       ⟨.reportTime ⟨⟨some 11, 17, 0⟩⟩, .HEADER, c!"111700Z"⟩,
       ⟨.trend (trendMeaning [.span 11 18 12 18]), .HEADER, c!"1118/1218"⟩,
       ⟨.wind (WindText.mk none (.tens 24) (some 5) none .METERS_PER_SECOND).group, .TAF, c!"24005MPS"⟩] ∧
      (r.groups.drop 5).head? = some ⟨.keyword ⟨.CAVOK⟩, .TAF, c!"CAVOK"⟩ := by
  refine ⟨{ reportMetadata := _, groups := _ }, rfl, ?_⟩
  decide +kernel

theorem example_taf_wind : Written .TAF [c!"24005MPS"]
    (.wind (WindText.mk none (.tens 24) (some 5) none .METERS_PER_SECOND).group) :=
  .wind (.wind (w := ⟨none, .tens 24, some 5, none, .METERS_PER_SECOND⟩) (Or.inr rfl)
    ⟨by simp, by simp [WindDirection.Ok], by simp, by simp, by simp⟩)

set_option maxRecDepth 4000 in
/-- The unknown word `XYZ` between the wind and `CAVOK`. -/
example (metar : Str) (y m d : Int) (imperial : Bool) :
    getCurrentWeather metar c!"TAF ULLI 111700Z 1118/1218 24005MPS XYZ CAVOK TX06/1112Z" y m d imperial =
      getCurrentWeather metar c!"TAF ULLI 111700Z 1118/1218 24005MPS CAVOK TX06/1112Z" y m d imperial := by
  obtain ⟨r, h1, h2, h3, h4, h5, h6, h7⟩ := example_taf
  exact C147_taf_word
    (wb := [c!"CAVOK", c!"TX06/1112Z"]) (u := c!"XYZ")
    (ga := r.groups.take 5) (gb := r.groups.drop 5)
    (x := ⟨.wind (WindText.mk none (.tens 24) (some 5) none .METERS_PER_SECOND).group, .TAF, c!"24005MPS"⟩)
    (by rw [h6]; exact groups_tokens c!"TAF ULLI 111700Z 1118/1218 24005MPS CAVOK TX06/1112Z")
    (by rw [h6]; exact groups_tokens c!"TAF ULLI 111700Z 1118/1218 24005MPS XYZ CAVOK TX06/1112Z") h1 h5 h2 h3 h4
    (List.take_append_drop 5 r.groups).symm (by rw [h6]; exact Nat.le_of_ble_eq_true rfl) (by rw [h6]; rfl)
    rfl nofun (by rw [h6]; simp) (by rw [h7]; rintro y hy; cases hy; exact nofun)
    (unwritten_taf (by intro i hi; interval_cases i <;> rfl)) y m d imperial

set_option maxRecDepth 4000 in
/-- The group `QNH2991INS` between the wind and `CAVOK`. -/
example (metar : Str) (y m d : Int) (imperial : Bool) :
    getCurrentWeather metar c!"TAF ULLI 111700Z 1118/1218 24005MPS QNH2991INS CAVOK TX06/1112Z" y m d imperial =
      getCurrentWeather metar c!"TAF ULLI 111700Z 1118/1218 24005MPS CAVOK TX06/1112Z" y m d imperial := by
  obtain ⟨r, h1, h2, h3, h4, h5, h6, h7⟩ := example_taf
  have hv : Written .TAF [c!"QNH2991INS"] (.pressure ⟨.FORECAST_LOWEST_QNH, ⟨some (inHgOf 2991), .INCHES_HG⟩, false⟩) :=
    .forecastPressure (n := 2991) rfl (by decide)
  exact C147_taf_group
    (wb := [c!"CAVOK", c!"TX06/1112Z"]) (v := [c!"QNH2991INS"])
    (ga := r.groups.take 5) (gb := r.groups.drop 5)
    (x := ⟨.wind (WindText.mk none (.tens 24) (some 5) none .METERS_PER_SECOND).group, .TAF, c!"24005MPS"⟩)
    (by rw [h6]; exact groups_tokens c!"TAF ULLI 111700Z 1118/1218 24005MPS CAVOK TX06/1112Z")
    (by rw [h6]; exact groups_tokens c!"TAF ULLI 111700Z 1118/1218 24005MPS QNH2991INS CAVOK TX06/1112Z") h1 h5 h2 h3 h4
    (List.take_append_drop 5 r.groups).symm (by rw [h6]; exact Nat.le_of_ble_eq_true rfl) (by rw [h6]; rfl)
    rfl nofun (by rw [h6]; simp) hv nofun (by decide)
    (by rintro w hw; cases hw; exact apart_taf example_taf_wind rfl)
    (by rintro w hw; cases hw; exact apart_taf hv rfl) rfl rfl rfl rfl y m d imperial

end Metaf.Props

import Verif.Props.SummaryTafRemarks
import Verif.Props.SummaryMembers
import Verif.Props.Insertion

/-!
C147: the summary depends on nothing but the groups it tells of.
-/

set_option linter.unusedSectionVars false

namespace Metaf.Props

open Metaf Metaf.Spec Metaf.Summary

variable [FloatIeee]

/-- The groups of a METAR report of which the summary tells: surface wind, prevailing visibility, `CAVOK`, clouds,
current weather, temperature and pressure at sea level. -/
def toldMetar (g : Group) : Bool :=
  match g with
  | .keyword k => decide (k.t = .CAVOK)
  | .wind _ => (surfaceWind g).isSome
  | .visibility _ => (prevailing g).isSome
  | .cloud _ => true
  | .weather _ => (presentWeather g).isSome
  | .temperature _ => true
  | .pressure _ => (qnhOf g).isSome
  | _ => false

/-- The groups of a TAF report of which the summary tells: wind, visibility, `CAVOK`, clouds and weather. -/
def toldTaf (g : Group) : Bool :=
  match g with
  | .keyword k => decide (k.t = .CAVOK)
  | .wind _ => true
  | .visibility _ => true
  | .cloud _ => true
  | .weather _ => true
  | _ => false

/-- The groups of a METAR report of which the summary tells. -/
def toldOfMetar (gs : List GroupInfo) : List Group := (beforeTrend (gs.map (·.group))).filter toldMetar

/-- The groups of a TAF report of which the summary tells. -/
def toldOfTaf (gs : List GroupInfo) : List Group := (beforeSecondTrend (gs.map (·.group))).filter toldTaf

/-- A group with the time of release. -/
def releaseOf : Group → Option ReportTimeGroup
  | .reportTime g => some g
  | _ => none

/-- The times of release in a report. -/
def releases (gs : List GroupInfo) : List ReportTimeGroup := gs.filterMap fun x => releaseOf x.group

/-- The groups with the highest and lowest temperature. -/
def forecasts (gs : List GroupInfo) : List MinMaxTemperatureGroup := gs.filterMap fun x => minMaxOf x.group

/-- The loop over some groups. -/
def metarFold (imperial : Bool) : List Group → Speed → CurrentWeather → Res CurrentWeather
  | [], _, r => .ok r
  | g :: gs, wind, r => metarGroup imperial g wind r >>= fun s => metarFold imperial gs s.1 s.2

/-- The loop over some groups. -/
def tafFold (imperial : Bool) : List Group → CurrentWeather → Res CurrentWeather
  | [], r => .ok r
  | g :: gs, r => tafGroup imperial g r >>= fun s => tafFold imperial gs s

theorem metarGroup_untold {imperial : Bool} {g : Group} {wind : Speed} {r : CurrentWeather} (h : toldMetar g = false) :
    metarGroup imperial g wind r = .ok (wind, r) := by
  cases g with
  | keyword k =>
    have : k.t ≠ .CAVOK := of_decide_eq_false h
    simp only [metarGroup, keywordGroup, if_neg this]
    rfl
  | wind w =>
    refine if_neg fun h' => ?_
    have : w.windType ∈ [.SURFACE_WIND, .SURFACE_WIND_CALM, .SURFACE_WIND_WITH_VARIABLE_SECTOR] := by
      rcases h' with h | h | h <;> simp [h]
    simp only [toldMetar, surfaceWind, if_pos this, Option.isSome_some] at h
    cases h
  | visibility v =>
    refine if_neg fun h' => ?_
    have : v.visType ∈ [.PREVAILING, .PREVAILING_NDV] := by rcases h' with h | h <;> simp [h]
    simp only [toldMetar, prevailing, if_pos this, Option.isSome_some] at h
    cases h
  | cloud c => cases h
  | weather w =>
    refine if_neg fun h' => ?_
    simp only [toldMetar, presentWeather, if_pos h', Option.isSome_some] at h
    cases h
  | temperature t => cases h
  | pressure p =>
    have : p.t ≠ .OBSERVED_QNH := fun h' => by
      simp only [toldMetar, qnhOf, if_pos h', Option.isSome_some] at h
      cases h
    simp only [metarGroup, pressureGroup, if_neg this]
    rfl
  | _ => rfl

theorem tafGroup_untold {imperial : Bool} {g : Group} {r : CurrentWeather} (h : toldTaf g = false) :
    tafGroup imperial g r = .ok r := by
  cases g with
  | keyword k =>
    have : k.t ≠ .CAVOK := of_decide_eq_false h
    simp only [tafGroup, keywordGroup, if_neg this]
  | wind w => cases h
  | visibility v => cases h
  | cloud c => cases h
  | weather w => cases h
  | _ => rfl

theorem metarFold_filter {imperial : Bool} (gs : List Group) (wind : Speed) (r : CurrentWeather) :
    metarFold imperial (gs.filter toldMetar) wind r = metarFold imperial gs wind r := by
  induction gs generalizing wind r with
  | nil => rfl
  | cons g gs ih =>
    cases h : toldMetar g
    · rw [List.filter_cons_of_neg (by simp [h]), ih]
      simp only [metarFold, metarGroup_untold h]
      rfl
    · rw [List.filter_cons_of_pos h]
      simp only [metarFold, ih]

theorem tafFold_filter {imperial : Bool} (gs : List Group) (r : CurrentWeather) :
    tafFold imperial (gs.filter toldTaf) r = tafFold imperial gs r := by
  induction gs generalizing r with
  | nil => rfl
  | cons g gs ih =>
    cases h : toldTaf g
    · rw [List.filter_cons_of_neg (by simp [h]), ih]
      simp only [tafFold, tafGroup_untold h]
      rfl
    · rw [List.filter_cons_of_pos h]
      simp only [tafFold, ih]

theorem metarLoop_fold {imperial : Bool} (xs : List GroupInfo) (wind : Speed) (r : CurrentWeather) :
    metarLoop imperial xs wind r = metarFold imperial (beforeTrend (xs.map (·.group))) wind r := by
  induction xs generalizing wind r with
  | nil => rfl
  | cons x xs ih =>
    obtain ⟨g, p, s⟩ := x
    cases g
    case trend => rfl
    all_goals
      unfold metarLoop
      simp only [ih]
      rfl

theorem tafLoop_fold {imperial : Bool} (xs : List GroupInfo) (r : CurrentWeather) :
    tafLoop imperial xs 1 r = tafFold imperial (beforeTrend (xs.map (·.group))) r ∧
    tafLoop imperial xs 0 r = tafFold imperial (beforeSecondTrend (xs.map (·.group))) r := by
  induction xs generalizing r with
  | nil => exact ⟨rfl, rfl⟩
  | cons x xs ih =>
    obtain ⟨g, p, s⟩ := x
    cases g
    case trend => exact ⟨rfl, (ih r).1⟩
    all_goals
      constructor
      · unfold tafLoop
        simp only [fun r => (ih r).1]
        rfl
      · unfold tafLoop
        simp only [fun r => (ih r).2]
        rfl

theorem releaseTime_depends {y m d : Int} (xs : List GroupInfo) (r : CurrentWeather) :
    reportReleaseTime r xs y m d =
      reportReleaseTime r ((releases xs).map fun g => ⟨.reportTime g, .HEADER, []⟩) y m d := by
  induction xs generalizing r with
  | nil => rfl
  | cons x xs ih =>
    obtain ⟨g, p, s⟩ := x
    cases g <;> exact ih _

theorem minMax_depends (xs : List GroupInfo) (t : Temperature × Temperature) :
    minMaxLoop xs t = minMaxLoop ((forecasts xs).map fun g => ⟨.minMaxTemperature g, .TAF, []⟩) t := by
  induction xs generalizing t with
  | nil => rfl
  | cons x xs ih =>
    obtain ⟨g, p, s⟩ := x
    cases g <;> exact ih _

theorem forecast_depends {xs xs' : List GroupInfo} {r : CurrentWeather} {imperial : Bool}
    (h : forecasts xs' = forecasts xs) :
    temperatureForecastFromTaf r xs' imperial = temperatureForecastFromTaf r xs imperial := by
  unfold temperatureForecastFromTaf
  rw [minMax_depends xs', minMax_depends xs, h]

/-- C147. Two METAR reports with the same groups of surface wind, prevailing visibility, clouds, current weather,
temperature and pressure at sea level before their first trend, in the same order, and the same time of release,
have the same summary. All other groups and all raw texts are without effect. -/
theorem C147_metar {metar metar' taf : Str} {gs gs' : List GroupInfo} (hm : Gives metar .METAR gs)
    (hm' : Gives metar' .METAR gs') (ht : toldOfMetar gs' = toldOfMetar gs) (hr : releases gs' = releases gs)
    (y m d : Int) (imperial : Bool) :
    getCurrentWeather metar' taf y m d imperial = getCurrentWeather metar taf y m d imperial := by
  have e : currentWeatherFromMetar gs' imperial = currentWeatherFromMetar gs imperial := by
    unfold currentWeatherFromMetar
    rw [metarLoop_fold, metarLoop_fold, ← metarFold_filter, ← metarFold_filter (beforeTrend (gs.map _))]
    exact congrArg (fun l => metarFold imperial l {} {}) ht
  have e' : ∀ r, reportReleaseTime r gs' y m d = reportReleaseTime r gs y m d := fun r => by
    rw [releaseTime_depends gs', releaseTime_depends gs, hr]
  have n : (!gs.isEmpty) = true := by simpa using gives_nonempty hm
  have n' : (!gs'.isEmpty) = true := by simpa using gives_nonempty hm'
  unfold getCurrentWeather
  rw [parseReport_gives hm, parseReport_gives hm']
  simp only [bind, Except.bind, n, n', if_true, e, e']

/-- C147. Two TAF reports with the same groups of wind, visibility, clouds and weather before their first change, in the
same order, the same groups on the highest and lowest temperature and the same time of release have the same
summary, with any METAR report or without one. -/
theorem C147_taf {metar taf taf' : Str} {gs gs' : List GroupInfo} (hm : Gives taf .TAF gs)
    (hm' : Gives taf' .TAF gs') (ht : toldOfTaf gs' = toldOfTaf gs) (hr : releases gs' = releases gs)
    (hf : forecasts gs' = forecasts gs) (y m d : Int) (imperial : Bool) :
    getCurrentWeather metar taf' y m d imperial = getCurrentWeather metar taf y m d imperial := by
  have e : currentWeatherFromTaf gs' imperial = currentWeatherFromTaf gs imperial := by
    unfold currentWeatherFromTaf
    rw [(tafLoop_fold _ _).2, (tafLoop_fold _ _).2, ← tafFold_filter, ← tafFold_filter (beforeSecondTrend (gs.map _))]
    exact congrArg (fun l => tafFold imperial l {}) ht
  have e' : ∀ r, reportReleaseTime r gs' y m d = reportReleaseTime r gs y m d := fun r => by
    rw [releaseTime_depends gs', releaseTime_depends gs, hr]
  unfold getCurrentWeather
  rw [parseReport_gives hm, parseReport_gives hm']
  simp only [bind, Except.bind, e, e', forecast_depends hf]

/-- C147. With a METAR report, two TAF reports with the same groups on the highest and lowest temperature give the same
summary. -/
theorem C147_forecast {metar taf taf' : Str} {gm gs gs' : List GroupInfo} (hm : Gives metar .METAR gm)
    (ht : Gives taf .TAF gs) (ht' : Gives taf' .TAF gs')
    (hf : forecasts gs' = forecasts gs) (y m d : Int) (imperial : Bool) :
    getCurrentWeather metar taf' y m d imperial = getCurrentWeather metar taf y m d imperial := by
  have n : (!gm.isEmpty) = true := by simpa using gives_nonempty hm
  unfold getCurrentWeather
  rw [parseReport_gives hm, parseReport_gives ht, parseReport_gives ht']
  simp only [bind, Except.bind, n, if_true, forecast_depends hf]

theorem toldOfMetar_insert {ga gb : List GroupInfo} {x : GroupInfo} (h : toldMetar x.group = false)
    (ht : isTrend x.group = false) : toldOfMetar (ga ++ x :: gb) = toldOfMetar (ga ++ gb) := by
  unfold toldOfMetar beforeTrend
  induction ga with
  | nil => simp [ht, h]
  | cons y ga ih =>
    by_cases hy : isTrend y.group = true
    · simp [hy]
    · have hy : isTrend y.group = false := by simpa using hy
      simp only [List.cons_append, List.map_cons, List.takeWhile_cons, hy, Bool.not_false, if_true, List.filter_cons]
      rw [ih]

theorem releases_insert {ga gb : List GroupInfo} {x : GroupInfo} (h : releaseOf x.group = none) :
    releases (ga ++ x :: gb) = releases (ga ++ gb) := by
  simp [releases, h]

/-- C147. A group of another kind inserted in the body of a METAR report, at a place as in C114, does not change
the summary. -/
theorem C147_group {s s' taf : Str} {wb v : List Str} {r : ParseResult} {ga gb : List GroupInfo}
    {x : GroupInfo} {g : Group} (hs : Groups s (ga.flatMap (fun x => words x.rawString) ++ wb))
    (hs' : Groups s' (ga.flatMap (fun x => words x.rawString) ++ (v ++ wb))) (hr : Result s 200 r)
    (hty : r.reportMetadata.type = .METAR) (he : r.reportMetadata.error = .NONE) (hn : r.reportMetadata.isNil = false)
    (hc : r.reportMetadata.isCancelled = false) (hg : r.groups = ga ++ gb)
    (hl : (ga.flatMap (fun x => words x.rawString) ++ (v ++ wb)).length + 1 < 200)
    (hx : ga.getLast? = some x) (hxp : x.reportPart = .METAR) (hxk : Known x)
    (hrm : ∀ y ∈ ga, y.group ≠ .keyword ⟨.RMK⟩) (hw : Written .METAR v g) (hf : ¬ Unfinished v)
    (hst : ∀ w ∈ v, w ∉ stops .METAR)
    (hbefore : ∀ w, v.head? = some w → ∀ g', ¬ Written .METAR (words x.rawString ++ [w]) g')
    (hafter : ∀ w, wb.head? = some w → ∀ g', ¬ Written .METAR (v ++ [w]) g')
    (ht : toldMetar g = false) (htr : isTrend g = false) (hrel : releaseOf g = none) (y m d : Int) (imperial : Bool) :
    getCurrentWeather s' taf y m d imperial = getCurrentWeather s taf y m d imperial := by
  have hb : bodyPart r.reportMetadata.type = .METAR := by rw [hty]; rfl
  obtain ⟨r', h1, h2, h3, h4⟩ := C114_group hs hs' hr he hn hc hg hl hx (hb ▸ hxp) hxk hrm (hb ▸ hw) hf (hb ▸ hst)
    (hb ▸ hbefore) (hb ▸ hafter)
  exact C147_metar ⟨r, hr, hty, he, hg⟩ ⟨r', h1, h3.trans hty, h4, h2⟩ (toldOfMetar_insert ht htr)
    (releases_insert hrel) y m d imperial

/-- C147. A word which is no group inserted in the body of a METAR report, at a place as in C114, does not change
the summary. -/
theorem C147_word {s s' taf : Str} {wb : List Str} {r : ParseResult} {ga gb : List GroupInfo}
    {x : GroupInfo} {u : Str} (hs : Groups s (ga.flatMap (fun x => words x.rawString) ++ wb))
    (hs' : Groups s' (ga.flatMap (fun x => words x.rawString) ++ u :: wb)) (hr : Result s 200 r)
    (hty : r.reportMetadata.type = .METAR) (he : r.reportMetadata.error = .NONE) (hn : r.reportMetadata.isNil = false)
    (hc : r.reportMetadata.isCancelled = false) (hg : r.groups = ga ++ gb)
    (hl : (ga.flatMap (fun x => words x.rawString) ++ u :: wb).length + 1 < 200)
    (hx : ga.getLast? = some x) (hxp : x.reportPart = .METAR) (hxk : Known x)
    (hrm : ∀ y ∈ ga, y.group ≠ .keyword ⟨.RMK⟩) (hb : ∀ y, gb.head? = some y → Known y)
    (hu : ∀ g, ¬ Written .METAR [u] g) (y m d : Int) (imperial : Bool) :
    getCurrentWeather s' taf y m d imperial = getCurrentWeather s taf y m d imperial := by
  have hp : bodyPart r.reportMetadata.type = .METAR := by rw [hty]; rfl
  obtain ⟨r', h1, h2, h3⟩ := C114_unknown hs hs' hr he hn hc hg hl hx (hp ▸ hxp) hxk hrm hb (hp ▸ hu)
  refine C147_metar ⟨r, hr, hty, he, hg⟩ ⟨r', h1, ?_, ?_, h2⟩ (toldOfMetar_insert rfl rfl)
    (releases_insert rfl) y m d imperial
  · rw [h3, hty]
  · rw [h3, he]

/-! ### The order of groups -/

/-- The groups of surface wind and of temperature. -/
def windAndTemperature (gs : List Group) : List Group :=
  gs.filter fun g => (surfaceWind g).isSome || (temperatureGroupOf g).isSome

/-- The groups of prevailing visibility and `CAVOK`. -/
def visibilityAndCavok (gs : List Group) : List Group :=
  gs.filter fun g => decide (g = .keyword ⟨.CAVOK⟩) || (prevailing g).isSome

/-- The groups of clouds and `CAVOK`. -/
def cloudAndCavok (gs : List Group) : List Group :=
  gs.filter fun g => match g with
    | .cloud _ => true
    | .keyword k => decide (k.t = .CAVOK)
    | _ => false

/-- The groups on each matter are the same, and in the same order. -/
structure SameMatters (gs gs' : List Group) : Prop where
  wind : windAndTemperature gs' = windAndTemperature gs
  visibility : visibilityAndCavok gs' = visibilityAndCavok gs
  cloud : cloudAndCavok gs' = cloudAndCavok gs
  weather : gs'.filterMap presentWeather = gs.filterMap presentWeather
  pressure : gs'.filterMap qnhOf = gs.filterMap qnhOf

theorem lastOf_filter {α : Type} {f : Group → Option α} {p : Group → Bool} (h : ∀ g, p g = false → f g = none)
    (gs : List Group) : lastOf f (gs.filter p) = lastOf f gs := by
  induction gs with
  | nil => rfl
  | cons g gs ih =>
    cases hp : p g
    · rw [List.filter_cons_of_neg (by simp [hp]), ih, lastOf_cons, h g hp, Option.or_none]
    · rw [List.filter_cons_of_pos hp, lastOf_cons, lastOf_cons, ih]

theorem lastOf_filterMap {α β : Type} (f : Group → Option α) (k : α → Option β) (gs : List Group) :
    lastOf (fun g => (f g).bind k) gs = (gs.filterMap f).reverse.findSome? k := by
  unfold lastOf
  rw [← List.filterMap_reverse]
  induction gs.reverse with
  | nil => rfl
  | cons g gs ih =>
    cases h : f g with
    | none =>
      rw [List.findSome?_cons, List.filterMap_cons, h]
      exact ih
    | some a =>
      rw [List.findSome?_cons, List.filterMap_cons, h]
      simp only [Option.bind_some, List.findSome?_cons]
      rw [ih]

theorem last_unique {α : Type} {p : α → Prop} {a a' b b' : List α} {x x' : α} (h : a ++ x :: b = a' ++ x' :: b')
    (hx : p x) (hx' : p x') (hb : ∀ y ∈ b, ¬ p y) (hb' : ∀ y ∈ b', ¬ p y) : a = a' ∧ x = x' := by
  induction a generalizing a' with
  | nil =>
    cases a' with
    | nil => exact ⟨rfl, (List.cons.inj h).1⟩
    | cons c a' =>
      obtain ⟨-, h⟩ := List.cons.inj h
      exact absurd hx' (hb x' (by rw [h]; simp))
  | cons c a ih =>
    cases a' with
    | nil =>
      obtain ⟨-, h⟩ := List.cons.inj h
      exact absurd hx (hb' x (by rw [← h]; simp))
    | cons c' a' =>
      obtain ⟨rfl, h'⟩ := List.cons.inj h
      obtain ⟨rfl, rfl⟩ := ih h'
      exact ⟨rfl, rfl⟩

theorem last_exists {α : Type} {p : α → Bool} (l : List α) :
    (∀ y ∈ l, p y = false) ∨ ∃ a x b, l = a ++ x :: b ∧ p x = true ∧ ∀ y ∈ b, p y = false := by
  induction l with
  | nil => exact Or.inl fun y hy => by cases hy
  | cons c l ih =>
    rcases ih with h | ⟨a, x, b, rfl, hx, hb⟩
    · cases hc : p c
      · left
        intro y hy
        rcases List.mem_cons.mp hy with rfl | hy
        · exact hc
        · exact h y hy
      · exact Or.inr ⟨[], c, l, rfl, hc, h⟩
    · exact Or.inr ⟨c :: a, x, b, rfl, hx, hb⟩

theorem wind_mem {gs gs' : List Group} (h : windAndTemperature gs' = windAndTemperature gs) {g : Group}
    {w : WindGroup} (hg : g ∈ gs') (hw : surfaceWind g = some w) : g ∈ gs := by
  have : g ∈ windAndTemperature gs' := List.mem_filter.mpr ⟨hg, by simp [hw]⟩
  rw [h] at this
  exact (List.mem_filter.mp this).1

theorem cloud_mem {gs gs' : List Group} (h : cloudAndCavok gs' = cloudAndCavok gs) {c : CloudGroup}
    (hg : .cloud c ∈ gs') : .cloud c ∈ gs := by
  have : .cloud c ∈ cloudAndCavok gs' := List.mem_filter.mpr ⟨hg, rfl⟩
  rw [h] at this
  exact (List.mem_filter.mp this).1

theorem covers_matter (gs : List Group) : covers (cloudAndCavok gs) = covers gs := by
  unfold covers cloudAndCavok
  rw [List.filterMap_filter]
  congr 1
  funext g
  cases g with
  | keyword k =>
    obtain ⟨t⟩ := k
    cases t <;> rfl
  | _ => rfl

theorem none_of {α : Type} {o : Option α} (h : o.isSome = false) : o = none := by
  cases o
  · rfl
  · cases h

theorem temperature_none {gs gs' : List Group} (h : windAndTemperature gs' = windAndTemperature gs)
    (hn : ∀ g ∈ gs, (temperatureGroupOf g).isSome = false) : ∀ g ∈ gs', temperatureGroupOf g = none := by
  intro g hg
  cases ht : temperatureGroupOf g with
  | none => rfl
  | some t =>
    have : g ∈ windAndTemperature gs' := List.mem_filter.mpr ⟨hg, by simp [ht]⟩
    rw [h] at this
    have := hn g (List.mem_filter.mp this).1
    rw [ht] at this
    cases this

theorem perceived_matter {imperial : Bool} {gs gs' : List Group} {r r' : CurrentWeather}
    (h : windAndTemperature gs' = windAndTemperature gs) (m : Measured imperial gs r) (m' : Measured imperial gs' r') :
    r'.perceivedTemperature = r.perceivedTemperature := by
  rcases last_exists (p := fun g => (temperatureGroupOf g).isSome) gs with hn | ⟨a, x, b, rfl, hx, hb⟩
  · rw [m.noPerceivedTemperature (temperature_none rfl hn), m'.noPerceivedTemperature (temperature_none h hn)]
  · rcases last_exists (p := fun g => (temperatureGroupOf g).isSome) gs' with hn | ⟨a', x', b', rfl, hx', hb'⟩
    · have := temperature_none h.symm hn x (by simp)
      rw [this] at hx
      cases hx
    · have e : ∀ a x b, (temperatureGroupOf x).isSome = true → windAndTemperature (a ++ x :: b) =
          windAndTemperature a ++ x :: windAndTemperature b := fun a x b hx => by
        unfold windAndTemperature
        rw [List.filter_append, List.filter_cons_of_pos (by simp [hx])]
      rw [e _ _ _ hx, e _ _ _ hx'] at h
      obtain ⟨h1, rfl⟩ := last_unique (p := fun g => (temperatureGroupOf g).isSome = true) h hx' hx
        (fun y hy => by rw [hb' y (List.mem_filter.mp hy).1]; nofun)
        (fun y hy => by rw [hb y (List.mem_filter.mp hy).1]; nofun)
      obtain ⟨t, ht⟩ := Option.isSome_iff_exists.mp hx
      rw [m.perceivedTemperature a x' t b rfl ht fun g hg => none_of (hb g hg),
        m'.perceivedTemperature a' x' t b' rfl ht fun g hg => none_of (hb' g hg)]
      have l : ∀ gs, lastOf (fun g => (surfaceWind g).map (·.wSpeed)) (windAndTemperature gs) =
          lastOf (fun g => (surfaceWind g).map (·.wSpeed)) gs := fun gs =>
        lastOf_filter (fun g hg => by
          simp only [Bool.or_eq_false_iff] at hg
          rw [none_of hg.1]
          rfl) gs
      rw [← l a, ← l a', h1]

/-- C147. The order of groups in a METAR report counts only among groups on the same matter: surface wind and
temperature; visibility and `CAVOK`; clouds and `CAVOK`; current weather; pressure at sea level. Two reports with
the same groups on each of them before the first trend, in the same order, and the same time of release have the
same summary, though groups on different matters are in another order. -/
theorem C147_order {metar metar' taf : Str} {gs gs' : List GroupInfo} {y m d : Int} {imperial : Bool}
    {r r' : CurrentWeather} (hm : Gives metar .METAR gs) (hm' : Gives metar' .METAR gs')
    (hs : SameMatters (beforeTrend (gs.map (·.group))) (beforeTrend (gs'.map (·.group))))
    (hr : releases gs' = releases gs)
    (h : getCurrentWeather metar taf y m d imperial = .ok r)
    (h' : getCurrentWeather metar' taf y m d imperial = .ok r') : r' = r := by
  obtain ⟨s, n⟩ := C87_metar hm h
  obtain ⟨s', n'⟩ := C87_metar hm' h'
  obtain ⟨hi, lo⟩ := C91_high_low h h'
  have time : updated r' = updated r := by
    obtain ⟨r1, tg, -, h1, h2⟩ := summary_metar hm h
    obtain ⟨r1', tg', -, h1', h2'⟩ := summary_metar hm' h'
    obtain ⟨-, -, k1, k2, k3, k4, k5⟩ := metarLoop_keeps h1
    obtain ⟨-, -, k1', k2', k3', k4', k5'⟩ := metarLoop_keeps h1'
    rw [releaseTime_depends, hr] at h2'
    rw [releaseTime_depends] at h2
    have u : updated r1' = updated r1 := by simp only [updated, k1, k2, k3, k4, k5, k1', k2', k3', k4', k5']
    have f : ∀ {a b : CurrentWeather}, SameButForecast a b → updated b = updated a := fun h => by rw [h]; rfl
    rw [f (forecast_only h2), f (forecast_only h2'), releaseTime_eq, releaseTime_eq, u]
  have w : ∀ {α : Type} (k : WindGroup → Option α) gs, lastOf (fun g => (surfaceWind g).bind k) (windAndTemperature gs) =
      lastOf (fun g => (surfaceWind g).bind k) gs := fun k gs =>
    lastOf_filter (fun g hg => by
      simp only [Bool.or_eq_false_iff] at hg
      rw [none_of hg.1]
      rfl) gs
  have t : ∀ {α : Type} (k : TemperatureGroup → Option α) gs,
      lastOf (fun g => (temperatureGroupOf g).bind k) (windAndTemperature gs) =
      lastOf (fun g => (temperatureGroupOf g).bind k) gs := fun k gs =>
    lastOf_filter (fun g hg => by
      simp only [Bool.or_eq_false_iff] at hg
      rw [none_of hg.2]
      rfl) gs
  have v : ∀ gs, lastOf (visibilityTold imperial prevailing) (visibilityAndCavok gs) =
      lastOf (visibilityTold imperial prevailing) gs := fun gs =>
    lastOf_filter (fun g hg => by
      simp only [Bool.or_eq_false_iff, decide_eq_false_iff_not] at hg
      unfold visibilityTold
      rw [if_neg hg.1, none_of hg.2]
      rfl) gs
  have a1 : r'.windDirection = r.windDirection := by rw [s.windDirection, s'.windDirection, ← w, hs.wind, w]
  have a2 : r'.isWindVariable = r.isWindVariable := by
    rw [Bool.eq_iff_iff, s.isWindVariable, s'.isWindVariable]
    constructor
    · rintro ⟨g, hg, x, hx, hv⟩
      exact ⟨g, wind_mem hs.wind hg hx, x, hx, hv⟩
    · rintro ⟨g, hg, x, hx, hv⟩
      exact ⟨g, wind_mem hs.wind.symm hg hx, x, hx, hv⟩
  have a3 : r'.windSpeed = r.windSpeed := by rw [s.windSpeed, s'.windSpeed, ← w, hs.wind, w]
  have a4 : r'.gustSpeed = r.gustSpeed := by rw [s.gustSpeed, s'.gustSpeed, ← w, hs.wind, w]
  have a5 : r'.visibility = r.visibility := by rw [s.visibility, s'.visibility, ← v, hs.visibility, v]
  have a6 : r'.isStormClouds = r.isStormClouds := by
    rw [Bool.eq_iff_iff, s.isStormClouds, s'.isStormClouds]
    exact ⟨fun ⟨c, hc, hv⟩ => ⟨c, cloud_mem hs.cloud hc, hv⟩, fun ⟨c, hc, hv⟩ => ⟨c, cloud_mem hs.cloud.symm hc, hv⟩⟩
  have a7 : r'.cloud = r.cloud := by rw [s.cloud, s'.cloud, ← covers_matter, hs.cloud, covers_matter]
  have a8 : r'.weather = r.weather := by rw [s.weather, s'.weather, hs.weather]
  have a9 : r'.airTemperature = r.airTemperature := by rw [n.airTemperature, n'.airTemperature, ← t, hs.wind, t]
  have a10 : r'.relativeHumidity = r.relativeHumidity := by rw [n.relativeHumidity, n'.relativeHumidity, ← t, hs.wind, t]
  have a11 : r'.atmosphericPressure = r.atmosphericPressure := by
    rw [n.atmosphericPressure, n'.atmosphericPressure, lastOf_filterMap, lastOf_filterMap, hs.pressure]
  have a12 := perceived_matter hs.wind n n'
  cases r
  cases r'
  simp only [updated, Prod.mk.injEq] at time a1 a2 a3 a4 a5 a6 a7 a8 a9 a10 a11 a12 hi lo
  obtain ⟨t1, t2, t3, t4, t5⟩ := time
  rw [a1, a2, a3, a4, a5, a6, a7, a8, a9, a10, a11, a12, hi, lo, t1, t2, t3, t4, t5]

end Metaf.Props

/-! ### Examples -/

namespace Metaf.Props

open Metaf Metaf.Spec Metaf.Summary

attribute [local instance] ieee

/-- The groups of a text. -/
def groupsRead (s : Str) : List GroupInfo :=
  match Parser.parse s with
  | .ok r => r.groups
  | .error _ => []

theorem gives_read {s : Str} {type : ReportType} (h : ∃ gs, Gives s type gs) : Gives s type (groupsRead s) := by
  obtain ⟨gs, r, hr, ht, he, rfl⟩ := h
  refine ⟨r, hr, ht, he, ?_⟩
  unfold groupsRead
  rw [show Parser.parse s = .ok r from hr]

/-- The report of `metarText` with more groups of other kinds and an unknown word. -/
def metarMore : Str :=
  c!"METAR UUEE 121530Z AUTO 05004MPS 9999 R06L/1200 -RA XYZ SCT020CB 12/08 Q1013 RERA WS R06L W15/S3 R06L/290050 NOSIG"

/-- The report of `metarText` with its groups in another order. -/
def metarOther : Str := c!"METAR UUEE 121530Z SCT020CB Q1013 -RA 05004MPS 12/08 9999"

theorem metarMore_gives : ∃ gs, Gives metarMore .METAR gs := gives_of (by kernel_rfl)

theorem metarOther_gives : ∃ gs, Gives metarOther .METAR gs := gives_of (by kernel_rfl)

set_option maxRecDepth 4000 in
/-- Groups of other kinds and an unknown word: the summary is that of `metarText`. -/
example (taf : Str) (y m d : Int) (imperial : Bool) :
    getCurrentWeather metarMore taf y m d imperial = getCurrentWeather metarText taf y m d imperial :=
  C147_metar (gives_read metarText_gives) (gives_read metarMore_gives) (by decide +kernel) (by decide +kernel) y m d imperial

set_option maxRecDepth 4000 in
/-- Groups in another order: the summary is that of `metarText`. -/
example {taf : Str} {y m d : Int} {imperial : Bool} {r r' : CurrentWeather}
    (h : getCurrentWeather metarText taf y m d imperial = .ok r)
    (h' : getCurrentWeather metarOther taf y m d imperial = .ok r') : r' = r :=
  C147_order (gives_read metarText_gives) (gives_read metarOther_gives)
    ⟨by decide +kernel, by decide +kernel, by decide +kernel, by decide +kernel, by decide +kernel⟩ (by decide +kernel)
    h h'

/-- The report of `tafText` with an unknown word, a group on turbulence and other changes. -/
def tafMore : Str :=
  c!"TAF UUEE 111100Z 1112/1212 30005MPS 6000 XYZ BKN016 520004 TX06/1112Z TNM03/1203Z BECMG 1118/1120 9999"

theorem tafMore_gives : ∃ gs, Gives tafMore .TAF gs := gives_of (by kernel_rfl)

set_option maxRecDepth 4000 in
/-- Another TAF report with the same summary. -/
example (metar : Str) (y m d : Int) (imperial : Bool) :
    getCurrentWeather metar tafMore y m d imperial = getCurrentWeather metar tafText y m d imperial :=
  C147_taf (gives_read tafText_gives) (gives_read tafMore_gives) (by decide +kernel) (by decide +kernel)
    (by decide +kernel) y m d imperial

/-- A TAF report with other wind, visibility and clouds, but the same highest and lowest temperature. -/
def tafWind : Str := c!"TAF UUEE 111100Z 1112/1212 12010MPS 9999 NSC TX06/1112Z TNM03/1203Z"

theorem tafWind_gives : ∃ gs, Gives tafWind .TAF gs := gives_of (by kernel_rfl)

set_option maxRecDepth 4000 in
/-- With a METAR report only the highest and lowest temperature of the TAF report count. -/
example (y m d : Int) (imperial : Bool) :
    getCurrentWeather metarText tafWind y m d imperial = getCurrentWeather metarText tafText y m d imperial :=
  C147_forecast (gives_read metarText_gives) (gives_read tafText_gives) (gives_read tafWind_gives) (by decide +kernel)
    y m d imperial

set_option maxRecDepth 4000 in
/-- The temperature felt is computed with the wind written before it: with the wind after the temperature the summary
is another. -/
example : (getCurrentWeather c!"METAR UUEE 121530Z 05010MPS M12/M18" c!"" 2020 3 14 false).map (·.perceivedTemperature) ≠
    (getCurrentWeather c!"METAR UUEE 121530Z M12/M18 05010MPS" c!"" 2020 3 14 false).map (·.perceivedTemperature) := by
  decide +kernel

set_option maxRecDepth 4000 in
/-- The unknown word `XYZ` between the wind and `NOSIG`. -/
example (taf : Str) (y m d : Int) (imperial : Bool) :
    getCurrentWeather c!"METAR ULLI 112200Z 24005MPS XYZ NOSIG RMK AO2 SLP123" taf y m d imperial =
      getCurrentWeather c!"METAR ULLI 112200Z 24005MPS NOSIG RMK AO2 SLP123" taf y m d imperial := by
  obtain ⟨r, h1, h2, h3, h4, h5, h6⟩ := example_report
  exact C147_word
    (wb := [c!"NOSIG", c!"RMK", c!"AO2", c!"SLP123"]) (u := c!"XYZ")
    (ga := r.groups.take 4) (gb := r.groups.drop 4)
    (x := ⟨.wind (WindText.mk none (.tens 24) (some 5) none .METERS_PER_SECOND).group, .METAR, c!"24005MPS"⟩)
    (by rw [h6]; exact groups_tokens c!"METAR ULLI 112200Z 24005MPS NOSIG RMK AO2 SLP123")
    (by rw [h6]; exact groups_tokens c!"METAR ULLI 112200Z 24005MPS XYZ NOSIG RMK AO2 SLP123") h1 h5 h2 h3 h4
    (List.take_append_drop 4 r.groups).symm (by rw [h6]; exact Nat.le_of_ble_eq_true rfl) (by rw [h6]; rfl)
    rfl nofun (by rw [h6]; simp) (by rw [h6]; rintro y hy; cases hy; exact nofun)
    (unwritten (by intro i hi; interval_cases i <;> rfl)) y m d imperial

set_option maxRecDepth 4000 in
/-- The group `AUTO` between the wind and `NOSIG`. -/
example (taf : Str) (y m d : Int) (imperial : Bool) :
    getCurrentWeather c!"METAR ULLI 112200Z 24005MPS AUTO NOSIG RMK AO2 SLP123" taf y m d imperial =
      getCurrentWeather c!"METAR ULLI 112200Z 24005MPS NOSIG RMK AO2 SLP123" taf y m d imperial := by
  obtain ⟨r, h1, h2, h3, h4, h5, h6⟩ := example_report
  have hv : Written .METAR [c!"AUTO"] (.keyword ⟨.AUTO⟩) :=
    .keyword ⟨[.METAR], by simp [keywords], by decide⟩
  exact C147_group
    (wb := [c!"NOSIG", c!"RMK", c!"AO2", c!"SLP123"]) (v := [c!"AUTO"]) (g := .keyword ⟨.AUTO⟩)
    (ga := r.groups.take 4) (gb := r.groups.drop 4)
    (x := ⟨.wind (WindText.mk none (.tens 24) (some 5) none .METERS_PER_SECOND).group, .METAR, c!"24005MPS"⟩)
    (by rw [h6]; exact groups_tokens c!"METAR ULLI 112200Z 24005MPS NOSIG RMK AO2 SLP123")
    (by rw [h6]; exact groups_tokens c!"METAR ULLI 112200Z 24005MPS AUTO NOSIG RMK AO2 SLP123") h1 h5 h2 h3 h4
    (List.take_append_drop 4 r.groups).symm (by rw [h6]; exact Nat.le_of_ble_eq_true rfl) (by rw [h6]; rfl)
    rfl nofun (by rw [h6]; simp) hv nofun (by decide)
    (by rintro w hw; cases hw; exact apart example_wind rfl)
    (by rintro w hw; cases hw; exact apart hv rfl) rfl rfl rfl y m d imperial

end Metaf.Props
